import Verif.Lemmas.Classifier
import Verif.Props.GradientAccuracy
import Verif.Props.Merge

/-! # C123: training a classifier of fully connected layers and softmax with the cross entropy in `f32` -/

namespace Rusty

open F32Ops Spec F32

variable [Libm]

/-- C123: Take a network of fully connected layers followed by softmax, in training mode with finite
parameters and cleared gradients.  Let the input be within `e` of exact numbers `ξ`; let the scores in front
of softmax be within `e'` of the exact ones, by `Accuracy`, and in the range of softmax.  The client calls
`infer`, reads the output `p` and calls `backward` with the gradient of the cross entropy of class `c`:
`-1 / p_c`, computed in `f32`, at `c` and zero elsewhere.  Then `backward` succeeds, and every recorded weight
gradient and bias gradient, and the gradient left at the input, is finite and within the bounds of
`GradBounds` of the partial derivative of the exact loss of the network. -/
theorem C123_step [ExpAccurate] (b : Build) (n : Net F32) (hn : Trains b n)
    (fs : List (FullyConnectedLayer F32)) (l : SoftmaxLayer F32)
    (hfs : n.get_layers = fs.map .fc ++ [.sm l]) (hne : fs ≠ [])
    (hfin : ∀ l ∈ fs, (∀ o i, o < l.weights.shape.di.toNat → i < l.weights.shape.dj.toNat →
        (val l.weights o i 0).isFinite = true) ∧
      ∀ o, o < l.weights.shape.di.toNat → (val l.bias o 0 0).isFinite = true)
    (hclear : ∀ l ∈ fs, (∀ o i, o < l.weights.shape.di.toNat → i < l.weights.shape.dj.toNat →
        val l.weights_gradients o i 0 = zero) ∧
      ∀ o, o < l.weights.shape.di.toNat → val l.bias_gradients o 0 0 = zero)
    (x : Tensor F32) (hx : x.WF) (hxs : x.shape = n.get_input_shape) (ξ : Nat → ℝ)
    (M e M' e' G' d' : ℝ) (bs : List (ℝ × ℝ)) (hM : 0 ≤ M) (he : 0 ≤ e)
    (hnx : Near x (fun i _ _ => ξ i) M e) (hA : Accuracy (fs.map .fc) M e M' e') (hr : M' + e' ≤ 71)
    (hm : n.get_output_shape.di.toNat < 2 ^ 22)
    (hb : GradBounds 1 (Real.exp (2 * e') - 1 + (4 * n.get_output_shape.di.toNat + 54) / 2 ^ 23)
      (fs.map realLayer) ξ M e G' d' bs)
    (n1 : Net F32) (hi : n.infer b x = .ok (.ok (), n1)) (p : Tensor F32) (hp : n1.get_output = .ok p)
    (c : Nat) (hc : c < n.get_output_shape.di.toNat) (hpc : 1 / 2 ^ 126 ≤ (val p c 0 0).toReal)
    (g : Tensor F32) (hg : g.WF) (hgs : g.shape = n.get_output_shape)
    (hgv : ∀ o < n.get_output_shape.di.toNat,
      val g o 0 0 = if o = c then F32.div negOne (val p c 0 0) else zero) :
    ∃ n2 g0, n1.backward b g = .ok (.ok (), n2) ∧ n2.intermediate_gradients[0]? = some g0 ∧
      (∀ i, i < n.get_input_shape.di.toNat → ∃ v D, g0.get_item b (ix i 0 0) = .ok v ∧ v.isFinite = true ∧
        HasDerivAt (fun t => classLoss n.get_output_shape.di.toNat
          (realNet (fs.map realLayer) fun j => if j = i then t else ξ j) c) D (ξ i) ∧
        |v.toReal - D| ≤ d') ∧
      ∀ (k : Nat) l, fs[k]? = some l → ∃ l2 ew eb, n2.get_layers[k]? = some (.fc l2) ∧
        bs[k]? = some (ew, eb) ∧
        (∀ o i, o < l.weights.shape.di.toNat → i < l.weights.shape.dj.toNat →
          ∃ v D, l2.weights_gradients.get_item b (ix o i 0) = .ok v ∧ v.isFinite = true ∧
            HasDerivAt (fun t => classLoss n.get_output_shape.di.toNat
              (realNet ((fs.map realLayer).modify k fun r => r.withWeight o i t) ξ) c) D
              (val l.weights o i 0).toReal ∧
            |v.toReal - D| ≤ ew) ∧
        (∀ o, o < l.weights.shape.di.toNat →
          ∃ v D, l2.bias_gradients.get_item b (ix o 0 0) = .ok v ∧ v.isFinite = true ∧
            HasDerivAt (fun t => classLoss n.get_output_shape.di.toNat
              (realNet ((fs.map realLayer).modify k fun r => r.withBias o t) ξ) c) D
              (val l.bias o 0 0).toReal ∧
            |v.toReal - D| ≤ eb) := by
  obtain ⟨hok, ht⟩ := trains_ready hn
  have hfs' : n.layers = fs.map .fc ++ [.sm l] := hfs
  have hlast : n.layers[fs.length]? = some (.sm l) := by
    rw [hfs', List.getElem?_append_right (by rw [List.length_map]), List.length_map, Nat.sub_self]
    rfl
  have hith : ∀ (i : Nat) f, fs[i]? = some f → n.layers[i]? = some (.fc f) := by
    intro i f h
    have := (List.getElem?_eq_some_iff.mp h).1
    rw [hfs', List.getElem?_append_left (by rw [List.length_map]; exact this), List.getElem?_map, h]
    rfl
  have hlen : n.layers.length = fs.length + 1 := by rw [hfs']; simp
  have hne' : n.layers ≠ [] := fun h => by rw [h] at hlen; simp at hlen
  have hpos : 0 < fs.length := List.length_pos_of_ne_nil hne
  have hfo : ∀ f ∈ fs, f.Ok ∧ f.run_state = .Training := by
    intro f hf
    have : AnyLayer.fc f ∈ n.layers := by
      rw [hfs']
      exact List.mem_append_left _ (List.mem_map_of_mem hf)
    exact ⟨hok.layers _ this, ht.layers _ this⟩
  have hlm : AnyLayer.sm l ∈ n.layers := List.mem_of_getElem? hlast
  have hl : l.Ok := hok.layers _ hlm
  have hlt : l.run_state = .Training := ht.layers _ hlm
  have hos : n.get_output_shape = l.shape := hok.chain.last (.sm l) (by rw [hfs']; simp)
  -- the last fully connected layer
  obtain ⟨f0, hf0⟩ : ∃ f, fs[fs.length - 1]? = some f := ⟨_, List.getElem?_eq_getElem (by omega)⟩
  have hlink := hok.chain.links (fs.length - 1) (.fc f0) (.sm l) (hith _ _ hf0)
    (by rw [Nat.sub_add_cancel hpos]; exact hlast)
  have hf0o := (hfo f0 (List.mem_of_getElem? hf0)).1
  have hls : l.shape = ⟨f0.weights.shape.di, 1, 1⟩ := by
    change f0.bias.shape = l.shape at hlink
    rw [← hlink]
    exact hf0o.rows
  have hj : l.shape.dj = 1 := by rw [hls]
  have hk : l.shape.dk = 1 := by rw [hls]
  have hgs0 := hgs
  rw [hos] at hm hb hc hgs hgv ⊢
  have hbk : ∀ a ∈ n.layers, notConv a ∧ backable a := by
    intro a ha
    rw [hfs'] at ha
    rcases List.mem_append.mp ha with ha | ha
    · obtain ⟨f, _, rfl⟩ := List.mem_map.mp ha
      exact ⟨trivial, trivial⟩
    · obtain rfl := List.mem_singleton.mp ha
      exact ⟨trivial, hj, hk⟩
  obtain ⟨n2, r1, r2, r3, r4⟩ := layer_rounds b hn hne' hbk hx hxs hg hgs0 hi
  -- the state in front of softmax
  have hstep : ∀ i f, (fs.map (AnyLayer.fc (F := F32)))[i]? = some f →
      ((n1.intermediate_states[i]?).getD x).WF ∧
      ((n1.intermediate_states[i]?).getD x).shape = f.get_input_shape ∧
      applies b f ((n1.intermediate_states[i]?).getD x) ((n1.intermediate_states[i + 1]?).getD x) := by
    intro i f hf
    have hf' : n.layers[i]? = some f := by
      have := (List.getElem?_eq_some_iff.mp hf).1
      rw [hfs', List.getElem?_append_left this, hf]
    obtain ⟨s, s', gi, og, og', out, l1, l2, e1, e2, e3, e4, e5, e6, e7, e8, e9, e10, e11, _⟩ := r4 i f hf'
    rw [e1, e2]
    exact ⟨e6.1, e6.2, e11⟩
  have hz := layers_near b hA (fun a ha => by
      obtain ⟨f, hf, rfl⟩ := List.mem_map.mp ha
      exact (hfo f hf).1) (fun i => (n1.intermediate_states[i]?).getD x) hM he _
    (by simpa only [r2, Option.getD_some] using hnx) hstep
  rw [exactNet_real, List.length_map] at hz
  obtain ⟨z, p', gi, og, og', out, l1, l2, e1, e2, e3, e4, e5, e6, e7, e8, e9, e10, e11, e12, e13⟩ :=
    r4 _ _ hlast
  simp only [e1, Option.getD_some] at hz
  have hpp : p' = p := by
    obtain ⟨n', q1, _, _, q4⟩ := C36_infer b n (trains_built hn) hne' x hx hxs
    rw [hi] at q1
    obtain rfl : n1 = n' := (Prod.mk.inj (Except.ok.inj q1)).2
    rw [q4, show n.get_layers.length = fs.length + 1 from hlen] at hp
    unfold Network.get_intermediate_state at hp
    rw [e2] at hp
    exact Except.ok.inj hp
  subst hpp
  have hgi : gi = g := by
    rw [hlen] at r3
    exact Option.some.inj (e3.symm.trans r3)
  subst hgi
  -- softmax
  obtain ⟨y, s1, _⟩ := softmax_ok e6.1 e8.1 (e6.2.trans e8.2.symm)
  have hfw : SoftmaxLayer.forward b l z out = .ok (.ok (), l, y) := by
    unfold SoftmaxLayer.forward
    rw [s1]
    rfl
  have hfw' : (AnyLayer.sm l).forward b z out = .ok (.ok (), .sm l, y) := by
    change SoftmaxLayer.forward b l z out >>= _ = _
    rw [hfw]
    rfl
  obtain ⟨_, e14⟩ := Prod.mk.inj (Except.ok.inj (e12.symm.trans hfw'))
  obtain ⟨rfl, rfl⟩ := Prod.mk.inj e14
  have hins : ∀ i, i < l.shape.di.toNat → z.shape.Inside i 0 0 := fun i h => by
    rw [e6.2]
    change l.shape.Inside i 0 0
    exact ⟨h, by rw [hj]; decide, by rw [hk]; decide⟩
  obtain ⟨l', og2, t1, t2⟩ := C122_difference b l hl hlt hj hk hm z out p' gi og e6.1 e6.2 e8.1 e8.2
    (fun o h => by
      obtain ⟨a1, a2, a3⟩ := hz o 0 0 (hins o h)
      have a2 := abs_le.mp a2
      have a3 := abs_le.mp a3
      exact ⟨a1, by linarith, by linarith⟩) hfw c hc hpc hg hgs hgv e9.1 e9.2
  have t1' : (AnyLayer.sm l).backward b z p' gi og = .ok (.ok (), .sm l', og2) := by
    change SoftmaxLayer.backward b l z p' gi og >>= _ = _
    rw [t1]
    rfl
  obtain ⟨_, e15⟩ := Prod.mk.inj (Except.ok.inj (e13.symm.trans t1'))
  obtain ⟨rfl, rfl⟩ := Prod.mk.inj e15
  have hng : Near og' (fun i _ _ => softmaxOf l.shape.di.toNat (realNet (fs.map realLayer) ξ) i - oneHot c i) 1
      (Real.exp (2 * e') - 1 + (4 * l.shape.di.toNat + 54) / 2 ^ 23) := by
    intro i j k hin
    rw [e10.2] at hin
    obtain ⟨h1, h2, h3⟩ : i < l.shape.di.toNat ∧ j < l.shape.dj.toNat ∧ k < l.shape.dk.toNat := hin
    rw [hj] at h2
    rw [hk] at h3
    obtain rfl : j = 0 := by have : j < 1 := h2; omega
    obtain rfl : k = 0 := by have : k < 1 := h3; omega
    obtain ⟨v, v1, v2, v3⟩ := t2 i h1
    rw [get_item_ok e10.1 (by rw [e10.2]; exact (show l.shape.Inside i 0 0 from by
      have := hins i h1; rw [e6.2] at this; exact this))] at v1
    cases v1
    have hlip := (softmax_lipschitz (List.range l.shape.di.toNat) (realNet (fs.map realLayer) ξ)
      (fun o => (val z o 0 0).toReal) (List.mem_range.mpr h1)
      (fun o ho => (hz o 0 0 (hins o (List.mem_range.mp ho))).2.1)).1
    rw [list_sum_range, list_sum_range] at hlip
    change |softmaxOf l.shape.di.toNat (fun o => (val z o 0 0).toReal) i -
      softmaxOf l.shape.di.toNat (realNet (fs.map realLayer) ξ) i| ≤ _ at hlip
    obtain ⟨u1, u2⟩ := softmaxOf_unit (realNet (fs.map realLayer) ξ) h1
    refine ⟨v2, ?_, ?_⟩
    · have tri := abs_add_le ((val og' i 0 0).toReal -
        (softmaxOf l.shape.di.toNat (fun o => (val z o 0 0).toReal) i - oneHot c i))
        (softmaxOf l.shape.di.toNat (fun o => (val z o 0 0).toReal) i -
          softmaxOf l.shape.di.toNat (realNet (fs.map realLayer) ξ) i)
      refine le_trans (le_of_eq ?_) (tri.trans ?_)
      · congr 1
        ring
      · linarith
    · unfold oneHot
      rw [abs_le]
      dsimp only
      by_cases hic : i = c
      · rw [if_pos hic]; constructor <;> linarith
      · rw [if_neg hic]; constructor <;> linarith
  have hd0 : 0 ≤ Real.exp (2 * e') - 1 + (4 * (l.shape.di.toNat : ℝ) + 54) / 2 ^ 23 := by
    have h := hng c 0 0 (by rw [e10.2]; exact (by have := hins c hc; rw [e6.2] at this; exact this))
    exact (abs_nonneg _).trans h.2.1
  -- the fully connected layers
  have hpass : ∀ (i : Nat) f, fs[i]? = some f → ∃ f2, n2.layers[i]? = some (.fc f2) ∧ Passes b f f2
        ((n1.intermediate_states[i]?).getD x) ((n1.intermediate_states[i + 1]?).getD x)
        ((n2.intermediate_gradients[i + 1]?).getD gi) ((n2.intermediate_gradients[i]?).getD gi) := by
    intro i f hf
    obtain ⟨hlo, hlm⟩ := hfo f (List.mem_of_getElem? hf)
    obtain ⟨s, s', g', o1, o2, out, l1, l2, a1, a2, a3, a4, a5, a6, a7, a8, a9, a10, a11, a12, a13⟩ :=
      r4 i _ (hith i f hf)
    have hfit : (⟨s, g', out, o1⟩ : Round F32).FitsFC f := ⟨a6, a7, a8, a9⟩
    obtain ⟨l1', out', l2', og2, f1, f2, _⟩ := C28_round b f hlo hlm ⟨s, g', out, o1⟩ hfit
    have f1' : (AnyLayer.fc f).forward b s out = .ok (.ok (), .fc l1', out') := by
      change FullyConnectedLayer.forward b f s out >>= _ = _
      rw [f1]
      rfl
    obtain ⟨_, h1⟩ := Prod.mk.inj (Except.ok.inj (a12.symm.trans f1'))
    obtain ⟨rfl, rfl⟩ := Prod.mk.inj h1
    have f2' : (AnyLayer.fc l1').backward b s s' g' o1 = .ok (.ok (), .fc l2', og2) := by
      change FullyConnectedLayer.backward b l1' s s' g' o1 >>= _ = _
      rw [f2]
      rfl
    obtain ⟨_, h2⟩ := Prod.mk.inj (Except.ok.inj (a13.symm.trans f2'))
    obtain ⟨rfl, rfl⟩ := Prod.mk.inj h2
    refine ⟨l2', a5, ?_⟩
    rw [a1, a2, a3, a4]
    exact ⟨l1', out, o1, hfit, f1, f2⟩
  let fs2 : List (FullyConnectedLayer F32) := fs.mapIdx fun i f =>
    match n2.layers[i]? with
    | some (.fc f2) => f2
    | _ => f
  have hfs2 : ∀ (i : Nat) f f2, fs[i]? = some f → n2.layers[i]? = some (.fc f2) → fs2[i]? = some f2 := by
    intro i f f2 h1 h2
    simp only [fs2, List.getElem?_mapIdx, h1, Option.map_some, h2]
  obtain ⟨q1, q2⟩ := grads_near b zero_le_one hd0 hb
    (fun i => softmaxOf l.shape.di.toNat (realNet (fs.map realLayer) ξ) i - oneHot c i) fs fs2
    (fun i => (n1.intermediate_states[i]?).getD x) (fun i => (n2.intermediate_gradients[i]?).getD gi)
    rfl hM he (fun f hf => ⟨(hfo f hf).1, (hfo f hf).2, (hfin f hf).1, (hfin f hf).2⟩)
    (fun i f hf => by
      obtain ⟨f2, h1, h2⟩ := hpass i f hf
      exact ⟨f2, hfs2 i f f2 hf h1, h2⟩)
    (by simp only [r2, Option.getD_some]; exact hnx) (by simp only [e4, Option.getD_some]; exact hng)
  have hkink := gradBounds_noKink hb hM he
  obtain ⟨f1, ft, rfl⟩ := List.exists_cons_of_ne_nil hne
  have hin0 : n.get_input_shape = ⟨f1.weights.shape.dj, 1, 1⟩ := hok.chain.first (.fc f1) (by rw [hfs']; rfl)
  have hdim : Dims n.get_input_shape.di.toNat ((f1 :: ft).map realLayer) l.shape.di.toNat := by
    rw [hin0]
    refine dims_of_links (f1 :: ft) _ (fun f hf => (hfo f hf).1) (fun i a a' h1 h2 => ?_) (fun a ha => ?_)
      f1 ft rfl
    · exact hok.chain.links i (.fc a) (.fc a') (hith i a h1) (hith (i + 1) a' h2)
    · rw [List.getLast?_eq_getElem?, hf0] at ha
      cases ha
      rw [hls]
  obtain ⟨s, s', g', o1, o2, out0, k1, k2, a1, a2, a3, a4, a5, a6, a7, a8, a9, a10, _⟩ :=
    r4 0 _ (hith 0 f1 rfl)
  simp only [a4, Option.getD_some] at q1
  refine ⟨n2, o2, r1, a4, fun i hi => ?_, fun k f hf => ?_⟩
  · have hin : o2.shape.Inside i 0 0 := by
      rw [a10.2]
      rw [hin0] at hi
      exact col_inside hi
    refine ⟨_, _, get_item_ok a10.1 hin, (q1 i 0 0 hin).1, ?_, (q1 i 0 0 hin).2.1⟩
    have h := loss_deriv hc (z := fun t => realNet ((f1 :: ft).map realLayer) fun j => if j = i then t else ξ j)
      (u := ξ i) (D := fun g => realBack ((f1 :: ft).map realLayer) ξ g i)
      (fun g => (C89_derivative _ _ _ hdim ξ g hkink).1 i hi)
    have h0 : (fun j => if j = i then ξ i else ξ j) = ξ := by
      funext j
      split
      · next h => rw [h]
      · rfl
    simp only [h0] at h
    exact h
  · obtain ⟨f2, hf2, _⟩ := hpass k f hf
    have hbl : ∀ {G d : ℝ} {ls : List RealLayer} {x : Nat → ℝ} {M e G' d' : ℝ} {bs : List (ℝ × ℝ)},
        GradBounds G d ls x M e G' d' bs → bs.length = ls.length := by
      intro G d ls x M e G' d' bs h
      induction h with
      | nil => rfl
      | cons _ _ _ _ _ _ _ _ _ _ _ _ _ _ _ _ _ _ _ _ ih => simp only [List.length_cons, ih]
    have hkl : k < bs.length := by
      rw [hbl hb, List.length_map]
      exact (List.getElem?_eq_some_iff.mp hf).1
    have h3 : bs[k]? = some (bs[k].1, bs[k].2) := List.getElem?_eq_getElem hkl
    obtain ⟨s1, s2⟩ := q2 k f f2 _ _ hf (hfs2 k f f2 hf hf2) h3
    have hml : ((f1 :: ft).map realLayer)[k]? = some (realLayer f) := by rw [List.getElem?_map, hf]; rfl
    have hcl := hclear f (List.mem_of_getElem? hf)
    refine ⟨f2, _, _, hf2, h3, fun o i ho hi => ?_, fun o ho => ?_⟩
    · obtain ⟨v, v1, v2, v3⟩ := s1 o i ho hi (hcl.1 o i ho hi)
      refine ⟨v, _, v1, v2, ?_, v3⟩
      have h := loss_deriv hc
        (z := fun t => realNet (((f1 :: ft).map realLayer).modify k fun r => r.withWeight o i t) ξ)
        (u := (val f.weights o i 0).toReal) (D := fun g => realWeightGrad ((f1 :: ft).map realLayer) ξ g k o i)
        (fun g => ((C89_derivative _ _ _ hdim ξ g hkink).2 k _ hml o ho).2 i hi)
      rw [show (((f1 :: ft).map realLayer).modify k fun r => r.withWeight o i (val f.weights o i 0).toReal) =
        (f1 :: ft).map realLayer from modify_same hml (by
          unfold RealLayer.withWeight
          congr 1
          funext o' i'
          split
          · next h => rw [h.1, h.2]
          · rfl)] at h
      exact h
    · obtain ⟨v, v1, v2, v3⟩ := s2 o ho (hcl.2 o ho)
      refine ⟨v, _, v1, v2, ?_, v3⟩
      have h := loss_deriv hc
        (z := fun t => realNet (((f1 :: ft).map realLayer).modify k fun r => r.withBias o t) ξ)
        (u := (val f.bias o 0 0).toReal) (D := fun g => realBiasGrad ((f1 :: ft).map realLayer) ξ g k o)
        (fun g => ((C89_derivative _ _ _ hdim ξ g hkink).2 k _ hml o ho).1)
      rw [show (((f1 :: ft).map realLayer).modify k fun r => r.withBias o (val f.bias o 0 0).toReal) =
        (f1 :: ft).map realLayer from modify_same hml (by
          unfold RealLayer.withBias
          congr 1
          funext o'
          split
          · next h => rw [h]
          · rfl)] at h
      exact h

/-- the layer of `exUp` in training mode -/
def exScores : FullyConnectedLayer F32 :=
  { exUp ⟨0x3f800000⟩ ⟨0x3f800000⟩ with
    weights_gradients := pairOf ⟨0⟩ ⟨0⟩, weights_gradients_intermediate := pairOf ⟨0⟩ ⟨0⟩
    bias_gradients := pairOf ⟨0⟩ ⟨0⟩, relu_mask := pairOf ⟨0⟩ ⟨0⟩, run_state := .Training }

omit [Libm] in
theorem exScores_ok : exScores.Ok :=
  ⟨(exUp_ok _ _).weights, (exUp_ok ⟨0x3f800000⟩ ⟨0x3f800000⟩).bias, rfl, rfl,
    fun _ => ⟨⟨pairOf_wf _ _, rfl⟩, ⟨pairOf_wf _ _, rfl⟩, ⟨pairOf_wf _ _, rfl⟩, ⟨pairOf_wf _ _, rfl⟩⟩⟩

/-- The assumptions of C123 can be met: one layer with two scores and softmax, input 1, second class. -/
theorem exScores_step [ExpAccurate] : ∃ (n n1 : Net F32) (p g : Tensor F32) (M' e' G' d' : ℝ) (bs : List (ℝ × ℝ)),
    Trains .debug n ∧ n.get_layers = [exScores].map .fc ++ [.sm exSM2] ∧
    (single ⟨0x3f800000⟩).shape = n.get_input_shape ∧ n.get_output_shape.di.toNat = 2 ∧
    Near (single ⟨0x3f800000⟩) (fun _ _ _ => 1) 1 0 ∧
    Accuracy ([exScores].map .fc) 1 0 M' e' ∧ M' + e' ≤ 71 ∧
    GradBounds 1 (Real.exp (2 * e') - 1 + (4 * n.get_output_shape.di.toNat + 54) / 2 ^ 23)
      ([exScores].map realLayer) (fun _ => 1) 1 0 G' d' bs ∧
    n.infer .debug (single ⟨0x3f800000⟩) = .ok (.ok (), n1) ∧ n1.get_output = .ok p ∧
    1 / 2 ^ 126 ≤ (val p 1 0 0).toReal ∧ g.WF ∧ g.shape = n.get_output_shape ∧
    (∀ o < n.get_output_shape.di.toNat,
      val g o 0 0 = if o = 1 then F32.div negOne (val p 1 0 0) else zero) ∧
    ∃ ew eb, bs = [(ew, eb)] ∧ 0 ≤ ew ∧ ew ≤ 1 / 64 ∧ 0 ≤ eb ∧ eb ≤ 1 / 64 := by
  have one : (⟨0x3f800000⟩ : F32).toReal = 1 := by
    unfold toReal
    rw [show (⟨0x3f800000⟩ : F32).toInt = 2 ^ 149 by decide]
    norm_num
  have zero0 : (⟨0⟩ : F32).toReal = 0 := by
    unfold toReal
    rw [show (⟨0⟩ : F32).toInt = 0 by decide]
    norm_num
  have fin1 : (⟨0x3f800000⟩ : F32).isFinite = true := by decide
  have fin0 : (⟨0⟩ : F32).isFinite = true := by decide
  have hw : ∀ o i, o < 2 → i < 1 → val exScores.weights o i 0 = ⟨0x3f800000⟩ := by
    intro o i ho hi
    obtain rfl : i = 0 := by omega
    obtain rfl | rfl : o = 0 ∨ o = 1 := by omega
    all_goals rfl
  have hbi : ∀ o, o < 2 → val exScores.bias o 0 0 = ⟨0⟩ := by
    intro o ho
    obtain rfl | rfl : o = 0 ∨ o = 1 := by omega
    all_goals rfl
  -- the forward error
  obtain ⟨e', he', hee⟩ : ∃ e' : ℝ, e' = 1 * 0 + (((1 : ℕ) + 2 : ℝ) / 2 ^ 23 * (1 * (1 + 0) + 0) +
      ((1 : ℕ) + 1) / 2 ^ 149) ∧ 0 ≤ e' ∧ e' ≤ 1 / 2 ^ 20 := ⟨_, rfl, by positivity, by norm_num⟩
  have hexp : 1 ≤ Real.exp (2 * e') ∧ Real.exp (2 * e') ≤ 1 + 1 / 2 ^ 10 := by
    refine ⟨Real.one_le_exp (by linarith), ?_⟩
    have h := Real.add_one_le_exp (-(2 * e'))
    rw [Real.exp_neg] at h
    have hp := Real.exp_pos (2 * e')
    have h2 : (1 - 2 * e') * Real.exp (2 * e') ≤ 1 := by
      have := mul_le_mul_of_nonneg_right h hp.le
      rw [inv_mul_cancel₀ hp.ne'] at this
      linarith
    have h3 : (1 : ℝ) / 2 ^ 20 = 1 / 1048576 := by norm_num
    rw [h3] at hee
    by_contra hc
    rw [not_le] at hc
    nlinarith
  have hacc : Accuracy ([exScores].map .fc) 1 0 (1 * 1 + 0) e' := by
    subst he'
    refine .fc _ _ 1 0 1 0 _ _ ?_ ?_ (by norm_num) le_rfl (by change 1 < 2 ^ 22; decide) (by norm_num)
      (.nil _ _)
    · intro o i ho hi
      rw [hw o i ho hi]
      exact fin1
    · intro o ho
      rw [hbi o ho, zero0]
      refine ⟨fin0, ?_, by norm_num⟩
      rw [show (List.range exScores.weights.shape.dj.toNat) = [0] from rfl]
      simp only [List.map_cons, List.map_nil, List.sum_cons, List.sum_nil]
      rw [hw o 0 ho (by omega), one]
      norm_num
  have hnear : Near (single ⟨0x3f800000⟩) (fun _ _ _ => 1) 1 0 := by
    rintro i j k ⟨hi, hj, hk⟩
    obtain rfl : i = 0 := Nat.lt_one_iff.mp hi
    obtain rfl : j = 0 := Nat.lt_one_iff.mp hj
    obtain rfl : k = 0 := Nat.lt_one_iff.mp hk
    change (⟨0x3f800000⟩ : F32).isFinite = true ∧ |(⟨0x3f800000⟩ : F32).toReal - 1| ≤ 0 ∧ |(1 : ℝ)| ≤ 1
    rw [one]
    exact ⟨by decide, by norm_num, by norm_num⟩
  obtain ⟨n, hn, hls, hin, hout⟩ : ∃ n : Net F32, Trains .debug n ∧
      n.get_layers = [.fc exScores, .sm exSM2] ∧ n.get_input_shape = ⟨1, 1, 1⟩ ∧
      n.get_output_shape = ⟨2, 1, 1⟩ :=
    ⟨_, .add_layer _ (.sm exSM2) (.ok ()) _ (.add_layer _ (.fc exScores) (.ok ()) _ .new exScores_ok rfl)
      exSM2_ok rfl, rfl, rfl, rfl⟩
  have hfull : Accuracy n.get_layers 1 0 1
      (Real.exp (2 * e') - 1 + ((3 * exSM2.shape.count + 40) / 2 ^ 23 + 1 / 2 ^ 150)) := by
    rw [hls]
    subst he'
    refine .fc _ _ 1 0 1 0 _ _ ?_ ?_ (by norm_num) le_rfl (by change 1 < 2 ^ 22; decide) (by norm_num)
      (.sm _ _ _ _ _ _ ‹_› ?_ (by decide) (.nil _ _))
    · intro o i ho hi
      rw [hw o i ho hi]
      exact fin1
    · intro o ho
      rw [hbi o ho, zero0]
      refine ⟨fin0, ?_, by norm_num⟩
      rw [show (List.range exScores.weights.shape.dj.toNat) = [0] from rfl]
      simp only [List.map_cons, List.map_nil, List.sum_cons, List.sum_nil]
      rw [hw o 0 ho (by omega), one]
      norm_num
    · refine le_trans (add_le_add_right hee.2 _) (by norm_num)
  obtain ⟨n1, p, h1, h2, h3, h4⟩ := C74_infer .debug n (trains_built hn) (by rw [hls]; exact List.cons_ne_nil _ _)
    (single ⟨0x3f800000⟩) (single_wf _) (by rw [hin]; rfl) (fun _ _ _ => 1) 1 0 _ _ zero_le_one le_rfl hnear hfull
  have hpre : ∀ o, o < 2 → (realLayer exScores).pre (fun _ => 1) o = 1 := by
    intro o ho
    unfold RealLayer.pre
    change ∑ i ∈ Finset.range 1, (val exScores.weights o i 0).toReal * 1 + (val exScores.bias o 0 0).toReal = 1
    rw [Finset.sum_range_one, hw o 0 ho (by omega), hbi o ho, one, zero0]
    norm_num
  refine ⟨n, n1, p, pairOf zero (F32.div negOne (val p 1 0 0)), _, e', _, _, _, hn, hls, by rw [hin]; rfl,
    by rw [hout]; rfl, hnear, hacc, ?_, .cons _ _ _ 1 0 1 0 2 _ _ _ ?_ ?_ ?_ ?_ ?_ ?_ ?_ ?_ (.nil _ _ _), h1, h2,
    ?_, pairOf_wf _ _, by rw [hout]; rfl, ?_, _, _, rfl, ?_⟩
  · have := hee.2
    norm_num at this ⊢
    linarith
  · intro o ho
    change (∑ i ∈ Finset.range 1, |(val exScores.weights o i 0).toReal|) ≤ 1 ∧ |(val exScores.bias o 0 0).toReal| ≤ 0
    rw [Finset.sum_range_one, hw o 0 ho (by omega), hbi o ho, one, zero0]
    norm_num
  · intro i hi
    change (∑ o ∈ Finset.range 2, |(val exScores.weights o i 0).toReal|) ≤ 2
    rw [Finset.sum_range_succ, Finset.sum_range_one, hw 0 i (by omega) hi, hw 1 i (by omega) hi, one]
    norm_num
  · exact ⟨by change 2 < 2 ^ 22; decide, by change 1 < 2 ^ 22; decide⟩
  · norm_num
  · norm_num
  · rw [hout]
    have := hexp.2
    change 2 * (1 + (Real.exp (2 * e') - 1 + (4 * ((2 : ℕ) : ℝ) + 54) / 2 ^ 23)) ≤ 2 ^ 125
    norm_num at this ⊢
    linarith
  · rw [hout]
    have := hexp.2
    change (1 + (Real.exp (2 * e') - 1 + (4 * ((2 : ℕ) : ℝ) + 54) / 2 ^ 23)) * (1 + 0) ≤ 2 ^ 125 ∧
      1 + (Real.exp (2 * e') - 1 + (4 * ((2 : ℕ) : ℝ) + 54) / 2 ^ 23) ≤ 2 ^ 125
    norm_num at this ⊢
    linarith
  · intro o ho
    rw [hpre o ho]
    change outError 1 1 0 1 0 < |1|
    unfold outError
    norm_num
  · have hins : p.shape.Inside 1 0 0 := by
      rw [h3, hout]
      exact ⟨by change 1 < 2; omega, by change 0 < 1; omega, by change 0 < 1; omega⟩
    obtain ⟨v, v1, v2, v3, v4⟩ := h4 1 0 0 hins
    rw [get_item_ok (by
      obtain ⟨n', w1, _, w3, w4⟩ := C36_infer .debug n (trains_built hn) (by rw [hls]; exact List.cons_ne_nil _ _)
        (single ⟨0x3f800000⟩) (single_wf _) (by rw [hin]; rfl)
      rw [h1] at w1
      obtain rfl : n1 = n' := (Prod.mk.inj (Except.ok.inj w1)).2
      obtain ⟨s, s', u1, u2, u3⟩ := w3 1 (.sm exSM2) (by rw [hls]; rfl)
      rw [w4, hls, show ([.fc exScores, .sm exSM2] : List (AnyLayer F32)).length = 1 + 1 from rfl, u2] at h2
      cases h2
      exact u3.1) hins] at v1
    cases v1
    have hx : ∀ o, o < 2 → exactLayer (.fc exScores) (fun _ _ _ => 1) o 0 0 = 1 := by
      intro o ho
      have := congrFun (congrFun (congrFun (exactNet_real [exScores] fun _ => 1) o) 0) 0
      refine this.trans ?_
      change max 0 ((realLayer exScores).pre (fun _ => 1) o) = 1
      rw [hpre o ho]
      norm_num
    have hval : exactNet n.get_layers (fun _ _ _ => 1) 1 0 0 = 1 / 2 := by
      rw [hls]
      change Real.exp (exactLayer (.fc exScores) (fun _ _ _ => 1) 1 0 0) /
        ([(0, 0, 0), (1, 0, 0)].map fun p : Nat × Nat × Nat =>
          Real.exp (exactLayer (.fc exScores) (fun _ _ _ => 1) p.1 p.2.1 p.2.2)).sum = 1 / 2
      simp only [List.map_cons, List.map_nil, List.sum_cons, List.sum_nil]
      rw [hx 0 (by omega), hx 1 (by omega)]
      have := (Real.exp_pos 1).ne'
      field_simp
      ring
    rw [hval, show exSM2.shape.count = 2 by decide] at v3
    have hv := (abs_le.mp v3).1
    have := hexp.2
    have h126 : (1 : ℝ) / 2 ^ 126 ≤ 1 / 4 := by norm_num
    have h150 : (1 : ℝ) / 2 ^ 150 ≤ 1 / 16 := by norm_num
    push_cast at hv
    norm_num at this hv h126 h150 ⊢
    linarith
  · rw [hout]
    intro o ho
    have ho : o < 2 := ho
    obtain rfl | rfl : o = 0 ∨ o = 1 := by omega
    all_goals rfl
  · rw [hout]
    change 0 ≤ (Real.exp (2 * e') - 1 + (4 * ((2 : ℕ) : ℝ) + 54) / 2 ^ 23) * (1 + 0) + 1 * 0 +
        ((1 + (Real.exp (2 * e') - 1 + (4 * ((2 : ℕ) : ℝ) + 54) / 2 ^ 23)) * (1 + 0) / 2 ^ 21 + 1 / 2 ^ 148) ∧
      (Real.exp (2 * e') - 1 + (4 * ((2 : ℕ) : ℝ) + 54) / 2 ^ 23) * (1 + 0) + 1 * 0 +
        ((1 + (Real.exp (2 * e') - 1 + (4 * ((2 : ℕ) : ℝ) + 54) / 2 ^ 23)) * (1 + 0) / 2 ^ 21 + 1 / 2 ^ 148) ≤
        1 / 64 ∧
      0 ≤ (Real.exp (2 * e') - 1 + (4 * ((2 : ℕ) : ℝ) + 54) / 2 ^ 23) +
        (1 + (Real.exp (2 * e') - 1 + (4 * ((2 : ℕ) : ℝ) + 54) / 2 ^ 23)) / 2 ^ 24 ∧
      (Real.exp (2 * e') - 1 + (4 * ((2 : ℕ) : ℝ) + 54) / 2 ^ 23) +
        (1 + (Real.exp (2 * e') - 1 + (4 * ((2 : ℕ) : ℝ) + 54) / 2 ^ 23)) / 2 ^ 24 ≤ 1 / 64
    obtain ⟨d, hd, hd0, hd1⟩ : ∃ d, d = Real.exp (2 * e') - 1 + (4 * ((2 : ℕ) : ℝ) + 54) / 2 ^ 23 ∧ 0 ≤ d ∧
        d ≤ 1 / 512 := by
      refine ⟨_, rfl, ?_, ?_⟩
      · have : (0 : ℝ) ≤ (4 * ((2 : ℕ) : ℝ) + 54) / 2 ^ 23 := by positivity
        linarith [hexp.1]
      · have : (4 * ((2 : ℕ) : ℝ) + 54) / 2 ^ 23 ≤ 1 / 1024 := by norm_num
        have h10 : (1 : ℝ) / 2 ^ 10 = 1 / 1024 := by norm_num
        linarith [hexp.2]
    rw [← hd]
    have h148 : (1 : ℝ) / 2 ^ 148 ≤ 1 / 512 := by norm_num
    have h21 : (2 : ℝ) ^ 21 = 2097152 := by norm_num
    have h24 : (2 : ℝ) ^ 24 = 16777216 := by norm_num
    have h148' : (0 : ℝ) ≤ 1 / 2 ^ 148 := by positivity
    rw [h21, h24]
    generalize (1 : ℝ) / 2 ^ 148 = q at h148 h148'
    refine ⟨by positivity, ?_, by positivity, ?_⟩
    · linarith
    · linarith

/-- The assumptions of C123 can be met. -/
example [ExpAccurate] : ∃ (n n1 : Net F32) (p g : Tensor F32) (M' e' G' d' : ℝ) (bs : List (ℝ × ℝ)),
    Trains .debug n ∧ n.get_layers = [exScores].map .fc ++ [.sm exSM2] ∧
    (single ⟨0x3f800000⟩).shape = n.get_input_shape ∧ n.get_output_shape.di.toNat = 2 ∧
    Near (single ⟨0x3f800000⟩) (fun _ _ _ => 1) 1 0 ∧
    Accuracy ([exScores].map .fc) 1 0 M' e' ∧ M' + e' ≤ 71 ∧
    GradBounds 1 (Real.exp (2 * e') - 1 + (4 * n.get_output_shape.di.toNat + 54) / 2 ^ 23)
      ([exScores].map realLayer) (fun _ => 1) 1 0 G' d' bs ∧
    n.infer .debug (single ⟨0x3f800000⟩) = .ok (.ok (), n1) ∧ n1.get_output = .ok p ∧
    1 / 2 ^ 126 ≤ (val p 1 0 0).toReal ∧ g.WF ∧ g.shape = n.get_output_shape ∧
    ∀ o < n.get_output_shape.di.toNat,
      val g o 0 0 = if o = 1 then F32.div negOne (val p 1 0 0) else zero := by
  obtain ⟨n, n1, p, g, M', e', G', d', bs, h⟩ := exScores_step
  exact ⟨n, n1, p, g, M', e', G', d', bs, h.1, h.2.1, h.2.2.1, h.2.2.2.1, h.2.2.2.2.1, h.2.2.2.2.2.1, h.2.2.2.2.2.2.1,
    h.2.2.2.2.2.2.2.1, h.2.2.2.2.2.2.2.2.1, h.2.2.2.2.2.2.2.2.2.1, h.2.2.2.2.2.2.2.2.2.2.1,
    h.2.2.2.2.2.2.2.2.2.2.2.1, h.2.2.2.2.2.2.2.2.2.2.2.2.1, h.2.2.2.2.2.2.2.2.2.2.2.2.2.1⟩

end Rusty
