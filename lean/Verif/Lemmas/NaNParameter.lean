import Verif.Lemmas.NaNInput
import Verif.Lemmas.DeadUnits
import Verif.Spec.NaNParameter

/-! # Helper lemmas: NaN among the parameters -/

namespace Rusty

open Spec

namespace F32

variable [Libm]

omit [Libm] in
theorem gt_void {v : F32} (h : Void v) : F32.gt v (mk' false 0) = false := by
  rcases h with h | h
  · exact gt_nan_left h _
  · unfold F32.gt
    rw [show v.key = 0 by unfold F32.key; rw [h]; simp, show (mk' false 0).key = 0 by decide]
    simp

/-- the activation function turns NaN and zeros into +0, in both modes -/
theorem act_void (m : NetworkRunState) {v : F32} (hs : Summed v) (h : Void v) : act m v = ⟨0⟩ := by
  rw [act_relu m hs]
  unfold relu
  rw [show F32Ops.gt v F32Ops.zero = false from gt_void h]
  rfl

theorem nan_unit {l : FullyConnectedLayer F32} {o : Nat} (h : NaNUnit l o) (x : Tensor F32) :
    (preact l x o).isNaN = true := by
  rcases h with ⟨i, hi, h⟩ | h
  · exact void_nan_left _ (sum_nan ⟨_, List.mem_map.mpr ⟨i, List.mem_range.mpr hi, rfl⟩, void_mul_nan _ h⟩)
  · exact void_nan_right _ h

theorem zero_unit {l : FullyConnectedLayer F32} {o : Nat} (h : ZeroUnit l o) (x : Tensor F32) :
    Void (preact l x o) :=
  void_add (sum_respected void_respected _ _ (fun _ => F32Ops.zero) (fun _ => F32Ops.zero) fun i hi =>
    void_mul (.inr (h.1 i (List.mem_range.mp hi))) _) (.inr h.2)

theorem same_unit {l l' : FullyConnectedLayer F32} (hs : l'.weights.shape = l.weights.shape) {o : Nat}
    (h : EqualUnit l l' o) (x : Tensor F32) : preact l' x o = preact l x o := by
  unfold preact
  rw [hs, h.2]
  refine congrArg (fun L => F32Ops.add (Spec.sum L) _) (List.map_congr_left fun i hi => ?_)
  rw [h.1 i (List.mem_range.mp hi)]

theorem nan_channel {l : ConvolutionalLayer F32} {k : Nat} (h : NaNChannel l k) (x : Tensor F32) (i j : Nat) :
    Void (convPre l x i j k) := by
  unfold convPre
  split
  · rename_i kernel bias e1 e2
    rcases h with ⟨_, ki, kj, kk, h1, h2, h3⟩ | ⟨_, h1, h2⟩
    · obtain rfl := Option.some.inj (h1.symm.trans e1)
      exact .inl (void_nan_left _ (sum_nan ⟨_, List.mem_map.mpr ⟨(ki, kj, kk), mem_idx3.mpr h2, rfl⟩,
        mul_nan_right _ h3⟩))
    · obtain rfl := Option.some.inj (h1.symm.trans e2)
      exact .inl (void_nan_right _ h2)
  · exact .inr (mk'_code (by decide))

/-- a gradient that is NaN stays NaN behind the mask -/
theorem masked_nan {l : FullyConnectedLayer F32} {r : Round F32} {o : Nat} (h : (val r.g o 0 0).isNaN = true) :
    (masked l r o).isNaN = true := mul_nan_right _ h

/-- a unit reached by the gradient NaN records NaN and sends NaN to all entries of the layer's input -/
theorem nan_round {b : Build} {n : Net F32} (hn : Trains b n) {c : Nat} {l : FullyConnectedLayer F32}
    (hc : n.layers[c]? = some (.fc l)) {l2 : AnyLayer F32} {s s' g g' : Tensor F32}
    (r : LayerRound b (.fc l) l2 s s' g g') {o : Nat} (ho : o < l.weights.shape.di.toNat)
    (h : (val g o 0 0).isNaN = true) : (∃ l1, l2 = .fc l1 ∧ ∀ o, o < l.weights.shape.di.toNat →
      (val g o 0 0).isNaN = true → (∃ v, l1.bias_gradients.get_item b (ix o 0 0) = .ok v ∧ v.isNaN = true) ∧
        ∀ i, i < l.weights.shape.dj.toNat → ∃ v, l1.weights_gradients.get_item b (ix o i 0) = .ok v ∧ v.isNaN = true) ∧
      ∀ i, i < l.weights.shape.dj.toNat → (val g' i 0 0).isNaN = true := by
  obtain ⟨hok, ht⟩ := trains_ready hn
  have hl : l.Ok := hok.layers _ (List.mem_of_getElem? hc)
  have hlm : l.run_state = .Training := ht.layers _ (List.mem_of_getElem? hc)
  obtain ⟨_, _, q0, l1, rfl, q⟩ := fc_round hl hlm r
  refine ⟨⟨l1, rfl, fun o ho h => ⟨⟨_, (q o ho).1, void_nan_right _ (masked_nan h)⟩, fun i hi =>
    ⟨_, (q o ho).2 i hi, void_nan_right _ (sum_nan ⟨_, List.mem_singleton.mpr rfl, void_mul_nan _ (masked_nan h)⟩)⟩⟩⟩,
    fun i hi => ?_⟩
  rw [q0 i hi]
  exact sum_nan ⟨_, List.mem_map.mpr ⟨o, List.mem_range.mpr ho, rfl⟩, mul_nan_right _ (masked_nan h)⟩

end F32

end Rusty
