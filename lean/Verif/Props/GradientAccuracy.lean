import Verif.Lemmas.GradientNear

/-! # C89: accuracy of the gradients of whole fully connected networks in `f32` -/

namespace Rusty

open F32Ops Spec F32

/-- C89: in exact arithmetic, backpropagation gives the partial derivatives of `<g, net(x)>` with respect to every
input, weight and bias, wherever no relu is at its kink. -/
theorem C89_derivative (ls : List RealLayer) (n m : Nat) (hd : Dims n ls m) (x g : Nat → ℝ) (hk : NoKink ls x) :
    (∀ i < n, HasDerivAt (fun t => ∑ k ∈ Finset.range m, g k * realNet ls (fun j => if j = i then t else x j) k)
      (realBack ls x g i) (x i)) ∧
    (∀ (c : Nat) l, ls[c]? = some l → ∀ o < l.rows,
      HasDerivAt (fun t => ∑ k ∈ Finset.range m, g k * realNet (ls.modify c fun l => l.withBias o t) x k)
        (realBiasGrad ls x g c o) (l.bias o) ∧
      ∀ i < l.cols,
        HasDerivAt (fun t => ∑ k ∈ Finset.range m, g k * realNet (ls.modify c fun l => l.withWeight o i t) x k)
          (realWeightGrad ls x g c o i) (l.weight o i)) := by
  refine ⟨fun i hi => ?_, fun c l hc o ho => ⟨net_bias_deriv hd g hk hc ho, fun i hi =>
    net_weight_deriv hd g hk hc ho hi⟩⟩
  have h0 : (fun j => if j = i then x i else x j) = x := by
    funext j
    split
    · rename_i h; rw [h]
    · rfl
  have := back_deriv hd g (x := fun t j => if j = i then t else x j) (x' := fun j => if j = i then 1 else 0)
    (t0 := x i) (by simp only [h0]; exact hk) (fun j _ => by
      by_cases h : j = i
      · simp only [if_pos h]; exact hasDerivAt_id _
      · simp only [if_neg h]; exact hasDerivAt_const _ _)
  refine this.congr_deriv ?_
  simp only [h0, mul_ite, mul_one, mul_zero]
  rw [Finset.sum_ite_eq' (Finset.range n) i, if_pos (Finset.mem_range.mpr hi)]

variable [Libm]

/-- C89: Take a network of fully connected layers in training mode with finite parameters and cleared gradients.
Let the input be within `e` of exact numbers `ξ`, and the gradient passed to `backward` within `d` of exact numbers
`γ`, and let `GradBounds` hold.  Then `infer` and `backward` succeed; the gradient they leave at the input is within
`d'` of the partial derivatives of `<γ, net(ξ)>`, where `net` is the network in exact arithmetic; and the weight and
bias gradients recorded in every layer are within the bounds listed in `bs` of the partial derivatives for those
parameters. -/
theorem C89_network (b : Build) (n : Net F32) (hn : Trains b n) (fs : List (FullyConnectedLayer F32))
    (hfs : n.get_layers = fs.map .fc) (hne : fs ≠ [])
    (hfin : ∀ l ∈ fs, (∀ o i, o < l.weights.shape.di.toNat → i < l.weights.shape.dj.toNat →
        (val l.weights o i 0).isFinite = true) ∧
      ∀ o, o < l.weights.shape.di.toNat → (val l.bias o 0 0).isFinite = true)
    (hclear : ∀ l ∈ fs, (∀ o i, o < l.weights.shape.di.toNat → i < l.weights.shape.dj.toNat →
        val l.weights_gradients o i 0 = zero) ∧
      ∀ o, o < l.weights.shape.di.toNat → val l.bias_gradients o 0 0 = zero)
    (x g : Tensor F32) (hx : x.WF) (hxs : x.shape = n.get_input_shape) (hg : g.WF)
    (hgs : g.shape = n.get_output_shape) (ξ γ : Nat → ℝ) (M e G d G' d' : ℝ) (bs : List (ℝ × ℝ))
    (hM : 0 ≤ M) (he : 0 ≤ e) (hG : 0 ≤ G) (hd : 0 ≤ d)
    (hnx : Near x (fun i _ _ => ξ i) M e) (hng : Near g (fun k _ _ => γ k) G d)
    (hb : GradBounds G d (fs.map realLayer) ξ M e G' d' bs) :
    ∃ n1 n2 g0, n.infer b x = .ok (.ok (), n1) ∧ n1.backward b g = .ok (.ok (), n2) ∧
      n2.intermediate_gradients[0]? = some g0 ∧
      (∀ i, i < n.get_input_shape.di.toNat → ∃ v D, g0.get_item b (ix i 0 0) = .ok v ∧ v.isFinite = true ∧
        HasDerivAt (fun t => ∑ k ∈ Finset.range n.get_output_shape.di.toNat,
          γ k * realNet (fs.map realLayer) (fun j => if j = i then t else ξ j) k) D (ξ i) ∧
        |v.toReal - D| ≤ d') ∧
      ∀ (c : Nat) l, fs[c]? = some l → ∃ l2 ew eb, n2.get_layers[c]? = some (.fc l2) ∧ bs[c]? = some (ew, eb) ∧
        (∀ o i, o < l.weights.shape.di.toNat → i < l.weights.shape.dj.toNat →
          ∃ v D, l2.weights_gradients.get_item b (ix o i 0) = .ok v ∧ v.isFinite = true ∧
            HasDerivAt (fun t => ∑ k ∈ Finset.range n.get_output_shape.di.toNat,
              γ k * realNet ((fs.map realLayer).modify c fun r => r.withWeight o i t) ξ k) D
              (val l.weights o i 0).toReal ∧
            |v.toReal - D| ≤ ew) ∧
        (∀ o, o < l.weights.shape.di.toNat →
          ∃ v D, l2.bias_gradients.get_item b (ix o 0 0) = .ok v ∧ v.isFinite = true ∧
            HasDerivAt (fun t => ∑ k ∈ Finset.range n.get_output_shape.di.toNat,
              γ k * realNet ((fs.map realLayer).modify c fun r => r.withBias o t) ξ k) D
              (val l.bias o 0 0).toReal ∧
            |v.toReal - D| ≤ eb) := by
  obtain ⟨n1, n2, fs2, p1, p2, p3, p4, p5, p6, ⟨g0, p7, p8, p9⟩, p10⟩ :=
    net_passes b hn hfs hne hx hxs hg hgs
  obtain ⟨q1, q2⟩ := grads_near b hG hd hb γ fs fs2 (fun i => (n1.intermediate_states[i]?).getD x)
    (fun i => (n2.intermediate_gradients[i]?).getD g) rfl hM he
    (fun l hl => ⟨(p6 l hl).1, (p6 l hl).2, (hfin l hl).1, (hfin l hl).2⟩) p10
    (by simp only [p4, Option.getD_some]; exact hnx) (by simp only [p5, Option.getD_some]; exact hng)
  simp only [p7, Option.getD_some] at q1
  have hk := gradBounds_noKink hb hM he
  have hdim := net_dims (trains_ready hn).1 hfs hne
  obtain ⟨r1, r2⟩ := C89_derivative _ _ _ hdim ξ γ hk
  refine ⟨n1, n2, g0, p1, p2, p7, fun i hi => ?_, fun c l hc => ?_⟩
  · have hcol : n.input_shape = ⟨n.input_shape.di, 1, 1⟩ := by
      obtain ⟨f, fs, rfl⟩ := List.exists_cons_of_ne_nil hne
      have := (trains_ready hn).1.chain.first (.fc f) (by
        rw [show n.layers = _ from hfs]; rfl)
      unfold Network.get_input_shape at this
      rw [this]
      rfl
    have hin : g0.shape.Inside i 0 0 := by
      rw [p9, hcol]
      exact col_inside hi
    exact ⟨_, _, get_item_ok p8 hin, (q1 i 0 0 hin).1, r1 i hi, (q1 i 0 0 hin).2.1⟩
  · obtain ⟨l2, e2, _⟩ := p10 c l hc
    have hbl : ∀ {ls : List RealLayer} {x : Nat → ℝ} {M e G' d' : ℝ} {bs : List (ℝ × ℝ)},
        GradBounds G d ls x M e G' d' bs → bs.length = ls.length := by
      intro ls x M e G' d' bs h
      induction h with
      | nil => rfl
      | cons _ _ _ _ _ _ _ _ _ _ _ _ _ _ _ _ _ _ _ _ ih => simp only [List.length_cons, ih]
    have hcl : c < bs.length := by
      rw [hbl hb, List.length_map]
      exact (List.getElem?_eq_some_iff.mp hc).1
    have h3 : bs[c]? = some (bs[c].1, bs[c].2) := List.getElem?_eq_getElem hcl
    obtain ⟨s1, s2⟩ := q2 c l l2 _ _ hc e2 h3
    have hml : (fs.map realLayer)[c]? = some (realLayer l) := by rw [List.getElem?_map, hc]; rfl
    have hcl := hclear l (List.mem_of_getElem? hc)
    refine ⟨l2, _, _, by unfold Network.get_layers; rw [p3, List.getElem?_map, e2]; rfl, h3,
      fun o i ho hi => ?_, fun o ho => ?_⟩
    · obtain ⟨v, v1, v2, v3⟩ := s1 o i ho hi (hcl.1 o i ho hi)
      exact ⟨v, _, v1, v2, (r2 c _ hml o ho).2 i hi, v3⟩
    · obtain ⟨v, v1, v2, v3⟩ := s2 o ho (hcl.2 o ho)
      exact ⟨v, _, v1, v2, (r2 c _ hml o ho).1, v3⟩

/-- The assumptions of C89 can be met: for two layers `max(0, x+1)` at the input 1 with gradient 1, the recorded
gradients are within `2^-18` of the derivatives. -/
example : ∃ n : Net F32, Trains .debug n ∧ n.get_layers = [exTrain, exTrain].map .fc ∧
    n.get_input_shape = ⟨1, 1, 1⟩ ∧ n.get_output_shape = ⟨1, 1, 1⟩ ∧
    Near (single ⟨0x3f800000⟩) (fun _ _ _ => 1) 1 0 ∧
    (∀ l ∈ [exTrain, exTrain], (∀ o i, o < l.weights.shape.di.toNat → i < l.weights.shape.dj.toNat →
        (val l.weights o i 0).isFinite = true ∧ val l.weights_gradients o i 0 = zero) ∧
      ∀ o, o < l.weights.shape.di.toNat → (val l.bias o 0 0).isFinite = true ∧
        val l.bias_gradients o 0 0 = zero) ∧
    ∃ G' d' bs, GradBounds 1 0 ([exTrain, exTrain].map realLayer) (fun _ => 1) 1 0 G' d' bs ∧
      d' ≤ 1 / 2 ^ 18 ∧ ∀ p ∈ bs, p.1 ≤ 1 / 2 ^ 18 ∧ p.2 ≤ 1 / 2 ^ 18 := by
  have e0 : (⟨0x3f800000⟩ : F32).toReal = 1 := by
    unfold toReal
    rw [show (⟨0x3f800000⟩ : F32).toInt = 2 ^ 149 by decide]
    norm_num
  have hrows : (realLayer exTrain).rows = 1 := rfl
  have hcols : (realLayer exTrain).cols = 1 := rfl
  have hw : (realLayer exTrain).weight 0 0 = 1 := e0
  have hbi : (realLayer exTrain).bias 0 = 1 := e0
  have hpre : ∀ x : Nat → ℝ, (realLayer exTrain).pre x 0 = x 0 + 1 := by
    intro x
    unfold RealLayer.pre
    rw [hcols, hbi, Finset.sum_range_one, hw, one_mul]
  have hok : exTrain.Ok := ⟨single_wf _, single_wf _, rfl, rfl, fun _ => ⟨⟨single_wf _, rfl⟩, ⟨single_wf _, rfl⟩,
        ⟨single_wf _, rfl⟩, ⟨single_wf _, rfl⟩⟩⟩
  have hr : ∀ o < (realLayer exTrain).rows, (∑ i ∈ Finset.range (realLayer exTrain).cols,
      |(realLayer exTrain).weight o i|) ≤ 1 ∧ |(realLayer exTrain).bias o| ≤ 1 := by
    intro o ho
    rw [hrows] at ho
    obtain rfl : o = 0 := by omega
    rw [hcols, Finset.sum_range_one, hw, hbi]
    norm_num
  have hc : ∀ i < (realLayer exTrain).cols, (∑ o ∈ Finset.range (realLayer exTrain).rows,
      |(realLayer exTrain).weight o i|) ≤ 1 := by
    intro i hi
    rw [hcols] at hi
    obtain rfl : i = 0 := by omega
    rw [hrows, Finset.sum_range_one, hw]
    norm_num
  refine ⟨_, .add_layer _ (.fc exTrain) (.ok ()) _ (.add_layer _ (.fc exTrain) (.ok ()) _ .new hok rfl) hok rfl,
    rfl, rfl, rfl, ?_, ?_, _, _, _, .cons _ _ _ 1 0 1 1 1 _ _ _ hr hc ?_ ?_ ?_ ?_ ?_ ?_
      (.cons _ _ _ _ _ 1 1 1 _ _ _ hr hc ?_ ?_ ?_ ?_ ?_ ?_ (.nil _ _ _)), ?_, ?_⟩
  · rintro i j k ⟨hi, hj, hk⟩
    obtain rfl : i = 0 := Nat.lt_one_iff.mp hi
    obtain rfl : j = 0 := Nat.lt_one_iff.mp hj
    obtain rfl : k = 0 := Nat.lt_one_iff.mp hk
    change (⟨0x3f800000⟩ : F32).isFinite = true ∧ |(⟨0x3f800000⟩ : F32).toReal - 1| ≤ 0 ∧ |(1 : ℝ)| ≤ 1
    rw [e0]
    exact ⟨by decide, by norm_num, by norm_num⟩
  · intro l hl
    obtain rfl : l = exTrain := by simpa using hl
    constructor
    · intro o i ho hi
      obtain rfl : o = 0 := Nat.lt_one_iff.mp ho
      obtain rfl : i = 0 := Nat.lt_one_iff.mp hi
      exact ⟨by change (⟨0x3f800000⟩ : F32).isFinite = true; decide, rfl⟩
    · intro o ho
      obtain rfl : o = 0 := Nat.lt_one_iff.mp ho
      exact ⟨by change (⟨0x3f800000⟩ : F32).isFinite = true; decide, rfl⟩
  · rw [hrows, hcols]; norm_num
  · norm_num
  · norm_num
  · rw [hrows]; norm_num
  · rw [hrows]; norm_num
  · intro o ho
    rw [hrows] at ho
    obtain rfl : o = 0 := by omega
    rw [hpre, hcols]
    unfold outError
    norm_num
  · rw [hrows, hcols]; norm_num
  · norm_num
  · rw [hcols]; unfold outError; norm_num
  · norm_num
  · rw [hcols]; unfold outError; norm_num
  · intro o ho
    rw [hrows] at ho
    obtain rfl : o = 0 := by omega
    rw [hpre, hcols]
    unfold RealLayer.out outError
    rw [hpre]
    norm_num
  · rw [hrows]; norm_num
  · intro p hp
    simp only [List.mem_cons, List.not_mem_nil, or_false, hrows, hcols] at hp
    unfold outError at hp
    rcases hp with rfl | rfl <;> constructor <;> norm_num

end Rusty
