import Verif.Spec.Influence
import Verif.Lemmas.IEEEPruning
import Verif.Lemmas.Order

/-! # Helper lemmas: zero weights pass nothing on (C121) -/

namespace Rusty

open F32Ops Spec F32

variable [Libm]

/-- two sums whose terms are the same or both zero -/
theorem sum_same {α : Type} (L : List α) (f g : α → F32)
    (h : ∀ a ∈ L, g a = f a ∨ (f a).code = 0 ∧ (g a).code = 0) :
    Spec.sum (L.map g) = Spec.sum (L.map f) := by
  unfold Spec.sum
  suffices ∀ s : F32, Summed s → (L.map g).foldl F32Ops.add s = (L.map f).foldl F32Ops.add s from
    this _ .zero
  induction L with
  | nil => exact fun _ _ => rfl
  | cons a L ih =>
    intro s hs
    have ih := ih fun a ha => h a (List.mem_cons_of_mem _ ha)
    rw [List.map_cons, List.map_cons, List.foldl_cons, List.foldl_cons]
    rcases h a List.mem_cons_self with e | ⟨e1, e2⟩
    · rw [e]
      exact ih _ (.add _ _ hs)
    · have e1 : F32Ops.add s (f a) = s := summed_add_zero hs e1
      have e2 : F32Ops.add s (g a) = s := summed_add_zero hs e2
      rw [e1, e2]
      exact ih s hs

/-- one layer -/
theorem layer_shields {b : Build} {l : AnyLayer F32} (hl : l.Ok) {D D' : Places3} (h : Shields D D' l)
    {s s' t t' : Tensor F32} (hs : s.shape = l.get_input_shape) (hst : SameOutside D s t) (fs : FiniteAt D s)
    (ft : FiniteAt D t) (h1 : applies b l s s') (h2 : applies b l t t') : SameOutside D' s' t' := by
  refine ⟨by rw [h1.2.1, h2.2.1], fun i j k hin hD => ?_⟩
  rw [h1.2.1] at hin
  rw [applies_val h1 hin, applies_val h2 hin]
  have key : ∀ {i j k}, l.get_input_shape.Inside i j k → ∀ w : F32, (D i j k → w.code = 0) →
      (F32.mul w (val t i j k) = F32.mul w (val s i j k) ∨
        (F32.mul w (val s i j k)).code = 0 ∧ (F32.mul w (val t i j k)).code = 0) ∧
      (F32.mul (val t i j k) w = F32.mul (val s i j k) w ∨
        (F32.mul (val s i j k) w).code = 0 ∧ (F32.mul (val t i j k) w).code = 0) := by
    intro i j k hin w hw
    by_cases hd : D i j k
    · have f1 := fs i j k (hs ▸ hin) hd
      have f2 := ft i j k (by rw [hst.1, hs]; exact hin) hd
      exact ⟨.inr ⟨idle_code (.inl ⟨hw hd, f1⟩), idle_code (.inl ⟨hw hd, f2⟩)⟩,
        .inr ⟨idle_code (.inr ⟨hw hd, f1⟩), idle_code (.inr ⟨hw hd, f2⟩)⟩⟩
    · have e := hst.2 i j k (hs ▸ hin) hd
      exact ⟨.inl (by rw [e]), .inl (by rw [e])⟩
  cases l with
  | fc l =>
    replace hl : l.Ok := hl
    have ho : i < l.weights.shape.di.toNat := by
      change l.get_output_shape.Inside i j k at hin
      unfold FullyConnectedLayer.get_output_shape at hin
      rw [hl.rows] at hin
      exact hin.1
    have hD : ¬D' i 0 0 := by
      change l.get_output_shape.Inside i j k at hin
      unfold FullyConnectedLayer.get_output_shape at hin
      rw [hl.rows] at hin
      obtain rfl : j = 0 := Nat.lt_one_iff.mp hin.2.1
      obtain rfl : k = 0 := Nat.lt_one_iff.mp hin.2.2
      exact hD
    change act l.run_state (preact l t i) = act l.run_state (preact l s i)
    congr 1
    unfold preact
    congr 1
    refine sum_same _ _ _ fun c hc => ?_
    have hc := List.mem_range.mp hc
    exact (key (i := c) (j := 0) (k := 0) ⟨hc, Nat.zero_lt_one, Nat.zero_lt_one⟩ _ (h i c ho hc hD)).1
  | conv l =>
    replace hl : l.Ok := hl
    replace hin : l.output_shape.Inside i j k := hin
    have hkl : k < l.kernels.length := by rw [hl.count]; exact hin.2.2
    have hbl : k < l.biases.length := by rw [hl.biasCount]; exact hkl
    obtain ⟨_, hkd, hkt⟩ := hl.kernels _ (List.getElem_mem hkl)
    change act l.run_state (convPre l t i j k) = act l.run_state (convPre l s i j k)
    congr 1
    unfold convPre
    rw [List.getElem?_eq_getElem hkl, List.getElem?_eq_getElem hbl]
    change F32Ops.add (conv t l.kernels[k] l.stride.toNat i j) _ =
      F32Ops.add (conv s l.kernels[k] l.stride.toNat i j) _
    congr 1
    unfold conv
    refine sum_same _ _ _ fun p hp => ?_
    obtain ⟨m1, m2, m3⟩ := mem_indices.mp hp
    exact (key (i := i * l.stride.toNat + p.1) (j := j * l.stride.toNat + p.2.1) (k := p.2.2)
      ⟨tiles_lt hkt.1 hin.1 m1, tiles_lt hkt.2 hin.2.1 m2, hkd ▸ m3⟩ _
      (h i j k _ hin hD (List.getElem?_eq_getElem hkl) _ _ _ ⟨m1, m2, m3⟩)).2
  | mp l =>
    replace hl : l.Ok := hl
    replace hin : l.output_shape.Inside i j k := hin
    change maxOf (window t l.mask_shape l.stride.toNat i j k) = maxOf (window s l.mask_shape l.stride.toNat i j k)
    congr 1
    unfold window
    refine List.map_congr_left fun p hp => ?_
    obtain ⟨m1, m2⟩ := mem_idx2.mp hp
    exact hst.2 _ _ _ (by
      rw [hs]
      exact ⟨tiles_lt hl.tiles.1 hin.1 m1, tiles_lt hl.tiles.2 hin.2.1 m2, hl.depth ▸ hin.2.2⟩)
      (h i j k hin hD _ _ m1 m2)
  | sm l =>
    replace hin : l.shape.Inside i j k := hin
    replace hs : s.shape = l.shape := hs
    have e : ∀ i j k, l.shape.Inside i j k → val t i j k = val s i j k := fun i j k hin =>
      hst.2 i j k (hs ▸ hin) (h i j k hin)
    change softmaxAt t i j k = softmaxAt s i j k
    unfold softmaxAt
    rw [e i j k hin, hst.1, hs]
    congr 2
    refine List.map_congr_left fun p hp => ?_
    rw [e _ _ _ (mem_indices.mp hp)]

end Rusty
