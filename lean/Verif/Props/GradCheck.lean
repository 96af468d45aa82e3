import Verif.Lemmas.GradCheckNet
import Verif.Props.GradientAccuracy
import Verif.Props.NetworkRounding
import Verif.Lemmas.Classifier

/-! # C130: the recorded gradients agree with differences of predictions -/

namespace Rusty

open F32Ops Spec F32

/-- C130, exact arithmetic: as long as the same units stay active, changing the input, one weight or one bias changes
`<g, net(x)>` by exactly the change times the gradient that backpropagation gives. -/
theorem C130_exact (ls : List RealLayer) (n m : Nat) (hd : Dims n ls m) (x g : Nat → ℝ) :
    (∀ y, SameUnits ls x ls y → ∑ k ∈ Finset.range m, g k * (realNet ls y k - realNet ls x k) =
      ∑ i ∈ Finset.range n, (y i - x i) * realBack ls x g i) ∧
    (∀ (c : Nat) l, ls[c]? = some l → ∀ o < l.rows, ∀ t,
      (SameUnits ls x (ls.modify c fun l => l.withBias o t) x →
        ∑ k ∈ Finset.range m, g k * (realNet (ls.modify c fun l => l.withBias o t) x k - realNet ls x k) =
          (t - l.bias o) * realBiasGrad ls x g c o) ∧
      ∀ i < l.cols, SameUnits ls x (ls.modify c fun l => l.withWeight o i t) x →
        ∑ k ∈ Finset.range m, g k * (realNet (ls.modify c fun l => l.withWeight o i t) x k - realNet ls x k) =
          (t - l.weight o i) * realWeightGrad ls x g c o i) :=
  ⟨fun y hy => by rw [net_diff hd g hy]; exact Finset.sum_congr rfl fun i _ => mul_comm _ _,
    fun c l hc o ho t => ⟨fun hs => net_bias_diff hd g hc ho t hs,
      fun i hi hs => net_weight_diff hd g hc ho hi t hs⟩⟩

variable [Libm]

/-- C130, one weight, `f32`: Let `n'` be a network that differs from `n` only in that `set_item` wrote `w` to one
weight, and let the same units be active in exact arithmetic.  Then the difference of the predictions of the two
networks, weighted with the gradient given to `backward`, is the change of the weight times the gradient that
`backward` recorded for it, up to the rounding error bounds. -/
theorem C130_weight (b : Build) (n : Net F32) (fs : List (FullyConnectedLayer F32)) (x g : Tensor F32)
    (ξ γ : Nat → ℝ) (M e G d G' d' : ℝ) (bs : List (ℝ × ℝ)) (M1 e1 : ℝ)
    (h : GradReady b n fs x g ξ γ M e G d G' d' bs M1 e1)
    (c : Nat) (l : FullyConnectedLayer F32) (hc : fs[c]? = some l) (o i : Nat) (ho : o < l.weights.shape.di.toNat)
    (hi : i < l.weights.shape.dj.toNat) (w : F32)
    (hsu : SameUnits (fs.map realLayer) ξ ((fs.map realLayer).modify c fun r => r.withWeight o i w.toReal) ξ)
    (n' : Net F32) (hn' : Built b n') (fs' : List (FullyConnectedLayer F32)) (hfs' : n'.get_layers = fs'.map .fc)
    (hset : WeightSet b fs fs' c o i w) (M2 e2 : ℝ) (hA' : Accuracy n'.get_layers M e M2 e2) :
    ∃ n1 y n2 m z l2 ew eb v, n.infer b x = .ok (.ok (), n1) ∧ n1.get_output = .ok y ∧
      n1.backward b g = .ok (.ok (), n2) ∧ n'.infer b x = .ok (.ok (), m) ∧ m.get_output = .ok z ∧
      n2.get_layers[c]? = some (.fc l2) ∧ bs[c]? = some (ew, eb) ∧
      l2.weights_gradients.get_item b (ix o i 0) = .ok v ∧ v.isFinite = true ∧
      |(∑ k ∈ Finset.range n.get_output_shape.di.toNat, γ k * (readReal b z (ix k 0 0) - readReal b y (ix k 0 0))) -
          (w.toReal - (val l.weights o i 0).toReal) * v.toReal| ≤
        (e1 + e2) * (∑ k ∈ Finset.range n.get_output_shape.di.toNat, |γ k|) +
          |w.toReal - (val l.weights o i 0).toReal| * ew := by
  obtain ⟨n1, n2, _, p1, p2, _, _, p3⟩ := C89_network b n h.trains fs h.layers h.some h.finite h.clear x g h.input.1
    h.input.2 h.gradient.1 h.gradient.2 ξ γ M e G d G' d' bs h.pos.1 h.pos.2.1 h.pos.2.2.1 h.pos.2.2.2 h.nearInput
    h.nearGradient h.bounds
  obtain ⟨l2, ew, eb, q1, q2, q3, _⟩ := p3 c l hc
  obtain ⟨v, D, v1, v2, v3, v4⟩ := q3 o i ho hi
  obtain ⟨_, y, r1, r2, _, r3⟩ := outputs_near b n (trains_built h.trains) fs h.layers h.some x h.input.1 h.input.2 ξ
    M e M1 e1 h.pos.1 h.pos.2.1 h.nearInput h.accuracy
  rw [p1] at r1
  cases r1
  have hok := built_netOk (trains_built h.trains)
  have hdim := net_dims hok h.layers h.some
  have hml : (fs.map realLayer)[c]? = some (realLayer l) := by rw [List.getElem?_map, hc]; rfl
  have hag := weightSet_agree (fun l hl => hok.layers (.fc l) (by
    rw [show n.layers = _ from h.layers]; exact List.mem_map_of_mem hl)) hc ho hi hset
  obtain ⟨s1, s2, s3⟩ := agree_shapes hok h.layers h.some (built_netOk hn') hfs'
    (weightSet_shapes (fun l hl => hok.layers (.fc l) (by
      rw [show n.layers = _ from h.layers]; exact List.mem_map_of_mem hl)) hc ho hi hset)
  obtain ⟨m, z, t1, t2, _, t3⟩ := outputs_near b n' hn' fs' hfs' s1 x h.input.1 (h.input.2.trans s2.symm) ξ
    M e M2 e2 h.pos.1 h.pos.2.1 h.nearInput hA'
  obtain rfl : D = realWeightGrad (fs.map realLayer) ξ γ c o i :=
    v3.unique (net_weight_deriv hdim γ (gradBounds_noKink h.bounds h.pos.1 h.pos.2.1) hml ho hi)
  refine ⟨n1, y, n2, m, z, l2, ew, eb, v, p1, r2, p2, t1, t2, q1, q2, v1, v2, ?_⟩
  refine check_near (net_weight_diff hdim γ hml ho hi w.toReal hsu) r3 (fun k hk => ?_) v4
  have hk' := hk
  unfold Network.get_output_shape at hk'
  rw [agree_net (modify_dims hdim) hag (fun _ _ => rfl) k hk']
  exact t3 k (by rw [s3]; exact hk)

/-- C130, one bias, `f32` -/
theorem C130_bias (b : Build) (n : Net F32) (fs : List (FullyConnectedLayer F32)) (x g : Tensor F32)
    (ξ γ : Nat → ℝ) (M e G d G' d' : ℝ) (bs : List (ℝ × ℝ)) (M1 e1 : ℝ)
    (h : GradReady b n fs x g ξ γ M e G d G' d' bs M1 e1)
    (c : Nat) (l : FullyConnectedLayer F32) (hc : fs[c]? = some l) (o : Nat) (ho : o < l.weights.shape.di.toNat) (w : F32)
    (hsu : SameUnits (fs.map realLayer) ξ ((fs.map realLayer).modify c fun r => r.withBias o w.toReal) ξ)
    (n' : Net F32) (hn' : Built b n') (fs' : List (FullyConnectedLayer F32)) (hfs' : n'.get_layers = fs'.map .fc)
    (hset : BiasSet b fs fs' c o w) (M2 e2 : ℝ) (hA' : Accuracy n'.get_layers M e M2 e2) :
    ∃ n1 y n2 m z l2 ew eb v, n.infer b x = .ok (.ok (), n1) ∧ n1.get_output = .ok y ∧
      n1.backward b g = .ok (.ok (), n2) ∧ n'.infer b x = .ok (.ok (), m) ∧ m.get_output = .ok z ∧
      n2.get_layers[c]? = some (.fc l2) ∧ bs[c]? = some (ew, eb) ∧
      l2.bias_gradients.get_item b (ix o 0 0) = .ok v ∧ v.isFinite = true ∧
      |(∑ k ∈ Finset.range n.get_output_shape.di.toNat, γ k * (readReal b z (ix k 0 0) - readReal b y (ix k 0 0))) -
          (w.toReal - (val l.bias o 0 0).toReal) * v.toReal| ≤
        (e1 + e2) * (∑ k ∈ Finset.range n.get_output_shape.di.toNat, |γ k|) +
          |w.toReal - (val l.bias o 0 0).toReal| * eb := by
  obtain ⟨n1, n2, _, p1, p2, _, _, p3⟩ := C89_network b n h.trains fs h.layers h.some h.finite h.clear x g h.input.1
    h.input.2 h.gradient.1 h.gradient.2 ξ γ M e G d G' d' bs h.pos.1 h.pos.2.1 h.pos.2.2.1 h.pos.2.2.2 h.nearInput
    h.nearGradient h.bounds
  obtain ⟨l2, ew, eb, q1, q2, _, q3⟩ := p3 c l hc
  obtain ⟨v, D, v1, v2, v3, v4⟩ := q3 o ho
  obtain ⟨_, y, r1, r2, _, r3⟩ := outputs_near b n (trains_built h.trains) fs h.layers h.some x h.input.1 h.input.2 ξ
    M e M1 e1 h.pos.1 h.pos.2.1 h.nearInput h.accuracy
  rw [p1] at r1
  cases r1
  have hok := built_netOk (trains_built h.trains)
  have hdim := net_dims hok h.layers h.some
  have hml : (fs.map realLayer)[c]? = some (realLayer l) := by rw [List.getElem?_map, hc]; rfl
  have hag := biasSet_agree (fun l hl => hok.layers (.fc l) (by
    rw [show n.layers = _ from h.layers]; exact List.mem_map_of_mem hl)) hc ho hset
  obtain ⟨s1, s2, s3⟩ := agree_shapes hok h.layers h.some (built_netOk hn') hfs'
    (biasSet_shapes (fun l hl => hok.layers (.fc l) (by
      rw [show n.layers = _ from h.layers]; exact List.mem_map_of_mem hl)) hc ho hset)
  obtain ⟨m, z, t1, t2, _, t3⟩ := outputs_near b n' hn' fs' hfs' s1 x h.input.1 (h.input.2.trans s2.symm) ξ
    M e M2 e2 h.pos.1 h.pos.2.1 h.nearInput hA'
  obtain rfl : D = realBiasGrad (fs.map realLayer) ξ γ c o :=
    v3.unique (net_bias_deriv hdim γ (gradBounds_noKink h.bounds h.pos.1 h.pos.2.1) hml ho)
  refine ⟨n1, y, n2, m, z, l2, ew, eb, v, p1, r2, p2, t1, t2, q1, q2, v1, v2, ?_⟩
  refine check_near (net_bias_diff hdim γ hml ho w.toReal hsu) r3 (fun k hk => ?_) v4
  have hk' := hk
  unfold Network.get_output_shape at hk'
  rw [agree_net (modify_dims hdim) hag (fun _ _ => rfl) k hk']
  exact t3 k (by rw [s3]; exact hk)

/-- C130, the input, `f32`: for two inputs that activate the same units in exact arithmetic the difference of the
predictions, weighted with the gradient given to `backward`, is the sum over the inputs of the change times the
gradient that `backward` leaves at the input, up to the rounding error bounds. -/
theorem C130_input (b : Build) (n : Net F32) (fs : List (FullyConnectedLayer F32)) (x g : Tensor F32)
    (ξ γ : Nat → ℝ) (M e G d G' d' : ℝ) (bs : List (ℝ × ℝ)) (M1 e1 : ℝ)
    (h : GradReady b n fs x g ξ γ M e G d G' d' bs M1 e1)
    (x' : Tensor F32) (hx' : x'.WF) (hxs' : x'.shape = n.get_input_shape) (η : Nat → ℝ)
    (hnx' : Near x' (fun i _ _ => η i) M e) (hsu : SameUnits (fs.map realLayer) ξ (fs.map realLayer) η) :
    ∃ n1 y n2 m z g0, n.infer b x = .ok (.ok (), n1) ∧ n1.get_output = .ok y ∧
      n1.backward b g = .ok (.ok (), n2) ∧ n.infer b x' = .ok (.ok (), m) ∧ m.get_output = .ok z ∧
      n2.intermediate_gradients[0]? = some g0 ∧
      (∀ i, i < n.get_input_shape.di.toNat → ∃ v, g0.get_item b (ix i 0 0) = .ok v ∧ v.isFinite = true) ∧
      |(∑ k ∈ Finset.range n.get_output_shape.di.toNat, γ k * (readReal b z (ix k 0 0) - readReal b y (ix k 0 0))) -
          ∑ i ∈ Finset.range n.get_input_shape.di.toNat, (η i - ξ i) * readReal b g0 (ix i 0 0)| ≤
        (e1 + e1) * (∑ k ∈ Finset.range n.get_output_shape.di.toNat, |γ k|) +
          (∑ i ∈ Finset.range n.get_input_shape.di.toNat, |η i - ξ i|) * d' := by
  obtain ⟨n1, n2, g0, p1, p2, p3, p4, _⟩ := C89_network b n h.trains fs h.layers h.some h.finite h.clear x g h.input.1
    h.input.2 h.gradient.1 h.gradient.2 ξ γ M e G d G' d' bs h.pos.1 h.pos.2.1 h.pos.2.2.1 h.pos.2.2.2 h.nearInput
    h.nearGradient h.bounds
  have hbt := trains_built h.trains
  obtain ⟨_, y, r1, r2, _, r3⟩ := outputs_near b n hbt fs h.layers h.some x h.input.1 h.input.2 ξ
    M e M1 e1 h.pos.1 h.pos.2.1 h.nearInput h.accuracy
  rw [p1] at r1
  cases r1
  obtain ⟨m, z, t1, t2, _, t3⟩ := outputs_near b n hbt fs h.layers h.some x' hx' hxs' η
    M e M1 e1 h.pos.1 h.pos.2.1 hnx' h.accuracy
  have hdim := net_dims (built_netOk hbt) h.layers h.some
  refine ⟨n1, y, n2, m, z, g0, p1, r2, p2, t1, t2, p3, fun i hi => ?_, ?_⟩
  · obtain ⟨v, _, v1, v2, _⟩ := p4 i hi
    exact ⟨v, v1, v2⟩
  · refine checks_near ((C130_exact _ _ _ hdim ξ γ).1 η hsu) r3 t3 fun i hi => ?_
    obtain ⟨v, D, v1, _, v3, v4⟩ := p4 i hi
    obtain rfl := v3.unique ((C89_derivative _ _ _ hdim ξ γ (gradBounds_noKink h.bounds h.pos.1 h.pos.2.1)).1 i hi)
    unfold readReal
    rw [v1]
    exact v4

/-- `exTrain` with the weight 2 instead of 1 -/
def exTrain2 : FullyConnectedLayer F32 := { exTrain with weights := single ⟨0x40000000⟩ }

/-- The assumptions of C130 can be met: the layer `max(0, x+1)` at the input 1 with gradient 1, the weight changed
from 1 to 2 and the bias from 1 to 2. -/
example : ∃ (n n' : Net F32) (G' d' : ℝ) (bs : List (ℝ × ℝ)) (M1 e1 M2 e2 : ℝ),
    GradReady .debug n [exTrain] (single ⟨0x3f800000⟩) (single ⟨0x3f800000⟩) (fun _ => 1) (fun _ => 1) 1 0 1 0 G' d' bs
      M1 e1 ∧
    SameUnits ([exTrain].map realLayer) (fun _ => 1)
      (([exTrain].map realLayer).modify 0 fun r => r.withWeight 0 0 (⟨0x40000000⟩ : F32).toReal) (fun _ => 1) ∧
    SameUnits ([exTrain].map realLayer) (fun _ => 1)
      (([exTrain].map realLayer).modify 0 fun r => r.withBias 0 (⟨0x40000000⟩ : F32).toReal) (fun _ => 1) ∧
    Built .debug n' ∧ n'.get_layers = [exTrain2].map .fc ∧
    WeightSet .debug [exTrain] [exTrain2] 0 0 0 ⟨0x40000000⟩ ∧
    Accuracy n'.get_layers 1 0 M2 e2 ∧ e1 + e2 ≤ 1 / 2 ^ 18 ∧ ∀ p ∈ bs, p.1 ≤ 1 / 2 ^ 18 ∧ p.2 ≤ 1 / 2 ^ 18 := by
  have one : (⟨0x3f800000⟩ : F32).toReal = 1 := by
    unfold toReal
    rw [show (⟨0x3f800000⟩ : F32).toInt = 2 ^ 149 by decide]
    norm_num
  have two : (⟨0x40000000⟩ : F32).toReal = 2 := by
    unfold toReal
    rw [show (⟨0x40000000⟩ : F32).toInt = 2 ^ 150 by decide]
    norm_num
  have hrows : (realLayer exTrain).rows = 1 := rfl
  have hcols : (realLayer exTrain).cols = 1 := rfl
  have hw : (realLayer exTrain).weight 0 0 = 1 := one
  have hbi : (realLayer exTrain).bias 0 = 1 := one
  have hok : exTrain.Ok := ⟨single_wf _, single_wf _, rfl, rfl, fun _ => ⟨⟨single_wf _, rfl⟩, ⟨single_wf _, rfl⟩,
        ⟨single_wf _, rfl⟩, ⟨single_wf _, rfl⟩⟩⟩
  have hok2 : exTrain2.Ok := ⟨single_wf _, single_wf _, rfl, rfl, fun _ => ⟨⟨single_wf _, rfl⟩, ⟨single_wf _, rfl⟩,
        ⟨single_wf _, rfl⟩, ⟨single_wf _, rfl⟩⟩⟩
  have zer : ∀ {P : Nat → Prop}, P 0 → ∀ o, o < 1 → P o := by
    intro P h o ho
    obtain rfl : o = 0 := by omega
    exact h
  have near : Near (single ⟨0x3f800000⟩) (fun _ _ _ => 1) 1 0 := by
    rintro i j k ⟨hi, hj, hk⟩
    obtain rfl : i = 0 := Nat.lt_one_iff.mp hi
    obtain rfl : j = 0 := Nat.lt_one_iff.mp hj
    obtain rfl : k = 0 := Nat.lt_one_iff.mp hk
    change (⟨0x3f800000⟩ : F32).isFinite = true ∧ |(⟨0x3f800000⟩ : F32).toReal - 1| ≤ 0 ∧ |(1 : ℝ)| ≤ 1
    rw [one]
    exact ⟨by decide, by norm_num, by norm_num⟩
  have fin1 : (⟨0x3f800000⟩ : F32).isFinite = true := by decide
  have fin2 : (⟨0x40000000⟩ : F32).isFinite = true := by decide
  have acc : ∀ (l : FullyConnectedLayer F32) (A : ℝ), l.weights.shape = ⟨1, 1, 1⟩ →
      (val l.weights 0 0 0).isFinite = true → (val l.bias 0 0 0).isFinite = true →
      |(val l.weights 0 0 0).toReal| ≤ A → |(val l.bias 0 0 0).toReal| ≤ 1 → 0 ≤ A → A ≤ 2 →
      ∃ M1 e1, Accuracy [.fc l] 1 0 M1 e1 ∧ e1 ≤ 1 / 2 ^ 19 := by
    intro l A hs h1 h2 h3 h4 h5 h6
    have hj : l.weights.shape.dj.toNat = 1 := by rw [hs]; rfl
    have hi : l.weights.shape.di.toNat = 1 := by rw [hs]; rfl
    refine ⟨_, _, .fc l [] A 1 1 0 _ _ ?_ ?_ h5 zero_le_one ?_ ?_ (.nil _ _), ?_⟩
    · rw [hi, hj]
      intro o i ho hi
      obtain rfl : o = 0 := by omega
      obtain rfl : i = 0 := by omega
      exact h1
    · rw [hi, hj]
      refine zer ⟨h2, ?_, h4⟩
      simpa using h3
    · rw [hj]; norm_num
    · have : A * (1 + 0) + 1 ≤ 3 := by linarith
      exact this.trans (by norm_num)
    · rw [hj]
      norm_num
      linarith
  obtain ⟨M1, e1, ha1, he1⟩ := acc exTrain 1 rfl fin1 fin1 (by change |(⟨0x3f800000⟩ : F32).toReal| ≤ 1; rw [one]; norm_num)
    (by change |(⟨0x3f800000⟩ : F32).toReal| ≤ 1; rw [one]; norm_num) (by norm_num) (by norm_num)
  obtain ⟨M2, e2, ha2, he2⟩ := acc exTrain2 2 rfl fin2 fin1 (by change |(⟨0x40000000⟩ : F32).toReal| ≤ 2; rw [two]; norm_num)
    (by change |(⟨0x3f800000⟩ : F32).toReal| ≤ 1; rw [one]; norm_num) (by norm_num) (by norm_num)
  have pre1 : (realLayer exTrain).pre (fun _ => 1) 0 = 2 := by
    unfold RealLayer.pre
    rw [hcols, hbi, Finset.sum_range_one, hw]
    norm_num
  have hr : ∀ o < (realLayer exTrain).rows, (∑ i ∈ Finset.range (realLayer exTrain).cols,
      |(realLayer exTrain).weight o i|) ≤ 1 ∧ |(realLayer exTrain).bias o| ≤ 1 := by
    rw [hrows]
    refine zer ?_
    rw [hcols, Finset.sum_range_one, hw, hbi]
    norm_num
  have hc : ∀ i < (realLayer exTrain).cols, (∑ o ∈ Finset.range (realLayer exTrain).rows,
      |(realLayer exTrain).weight o i|) ≤ 1 := by
    rw [hcols]
    refine zer ?_
    rw [hrows, Finset.sum_range_one, hw]
    norm_num
  have ht : Trains .debug _ := .add_layer _ (.fc exTrain) (.ok ()) _ .new hok rfl
  have ht2 : Trains .debug _ := .add_layer _ (.fc exTrain2) (.ok ()) _ .new hok2 rfl
  refine ⟨_, _, _, _, _, M1, e1, M2, e2, ⟨ht, rfl, by simp, ?_, ?_, ⟨single_wf _, rfl⟩, ⟨single_wf _, rfl⟩, ?_, near, near,
    .cons _ _ _ 1 0 1 1 1 _ _ _ hr hc ?_ ?_ ?_ ?_ ?_ ?_ (.nil _ _ _), ha1⟩, ?_, ?_, trains_built ht2, rfl, ?_, ha2, ?_, ?_⟩
  · intro l hl
    obtain rfl := List.mem_singleton.mp hl
    refine ⟨fun o i ho hi => ?_, fun o ho => ?_⟩
    · obtain rfl : o = 0 := Nat.lt_one_iff.mp ho
      obtain rfl : i = 0 := Nat.lt_one_iff.mp hi
      exact fin1
    · obtain rfl : o = 0 := Nat.lt_one_iff.mp ho
      exact fin1
  · intro l hl
    obtain rfl := List.mem_singleton.mp hl
    refine ⟨fun o i ho hi => ?_, fun o ho => ?_⟩
    · obtain rfl : o = 0 := Nat.lt_one_iff.mp ho
      obtain rfl : i = 0 := Nat.lt_one_iff.mp hi
      rfl
    · obtain rfl : o = 0 := Nat.lt_one_iff.mp ho
      rfl
  · norm_num
  · rw [hrows, hcols]; norm_num
  · norm_num
  · norm_num
  · norm_num
  · norm_num
  · rw [hrows]
    refine zer ?_
    rw [pre1, hcols]
    unfold outError
    norm_num
  · refine ⟨?_, trivial⟩
    rw [hrows]
    refine zer ?_
    have := weight_diff (realLayer exTrain) (fun _ => 1) (o := 0) (i := 0) (by rw [hcols]; norm_num)
      (⟨0x40000000⟩ : F32).toReal 0
    rw [if_pos rfl, pre1, two, hw] at this
    rw [pre1, two]
    constructor <;> intro <;> linarith
  · refine ⟨?_, trivial⟩
    rw [hrows]
    refine zer ?_
    have := bias_diff (realLayer exTrain) (fun _ => 1) 0 (⟨0x40000000⟩ : F32).toReal 0
    rw [if_pos rfl, pre1, two, hbi] at this
    rw [pre1, two]
    constructor <;> intro <;> linarith
  · refine ⟨rfl, fun k l l' h h' => ?_⟩
    match k with
    | 0 =>
      cases h
      cases h'
      exact ⟨rfl, rfl⟩
    | k + 1 => cases h
  · linarith
  · intro p hp
    simp only [List.mem_cons, List.not_mem_nil, or_false] at hp
    rw [hp]
    constructor <;> norm_num

end Rusty
