import Verif.Lemmas.IEEELaws
import Verif.Lemmas.Geometry
import Verif.Lemmas.Tensor
import Verif.Spec.SignedZero
import Verif.Spec.Network

/-! # Helper lemmas: the sign of a zero input does not reach the sums -/

namespace Rusty

open F32Ops Spec

namespace F32

theorem zeq_iff {x y : F32} : SameNumber x y ↔ x.isNaN = y.isNaN ∧ (x.isNaN = false → x.key = y.key) ∧
    (x = y ∨ x.code = 0 ∧ y.code = 0) := by
  unfold SameNumber
  constructor
  · rintro (rfl | ⟨h1, h2⟩)
    · exact ⟨rfl, fun _ => rfl, .inl rfl⟩
    · refine ⟨?_, fun _ => ?_, .inr ⟨h1, h2⟩⟩
      · unfold isNaN; rw [h1, h2]
      · unfold key; rw [h1, h2]; simp
  · exact fun h => h.2.2

/-- `==` means: the same number, and not NaN -/
theorem feq_iff {x y : F32} : F32.feq x y = true ↔ SameNumber x y ∧ x.isNaN = false := by
  constructor
  · intro h
    unfold F32.feq at h
    simp only [Bool.and_eq_true, Bool.not_eq_true', decide_eq_true_eq] at h
    obtain ⟨⟨h1, h2⟩, h3⟩ := h
    refine ⟨?_, h1⟩
    unfold key at h3
    cases hx : x.sign <;> cases hy : y.sign <;> rw [hx, hy] at h3 <;>
      simp only [if_true, Bool.false_eq_true, if_false] at h3
    · exact .inl (ext_fields (hx.trans hy.symm) (by omega))
    · exact .inr ⟨by omega, by omega⟩
    · exact .inr ⟨by omega, by omega⟩
    · exact .inl (ext_fields (hx.trans hy.symm) (by omega))
  · rintro ⟨h, hn⟩
    obtain ⟨h1, h2, _⟩ := zeq_iff.mp h
    unfold F32.feq
    rw [← h1, hn, h2 hn]
    simp

theorem gt_zeq {x x' y y' : F32} (hx : SameNumber x x') (hy : SameNumber y y') :
    F32.gt x y = F32.gt x' y' := by
  obtain ⟨h1, h2, _⟩ := zeq_iff.mp hx
  obtain ⟨h3, h4, _⟩ := zeq_iff.mp hy
  unfold F32.gt
  rw [← h1, ← h3]
  cases hn : x.isNaN
  · cases hm : y.isNaN
    · rw [h2 hn, h4 hm]
    · simp
  · simp

theorem zero_tests {x : F32} (h : x.code = 0) : x.isNaN = false ∧ x.isInf = false ∧ x.toInt = 0 := by
  refine ⟨?_, ?_, ?_⟩
  · unfold isNaN; rw [h]; decide
  · unfold isInf; rw [h]; decide
  · unfold toInt; rw [h, units_zero]; simp

theorem mul_zeq_right (w : F32) {x y : F32} (h : SameNumber x y) :
    SameNumber (F32.mul w x) (F32.mul w y) := by
  rcases h with rfl | ⟨h1, h2⟩
  · exact .inl rfl
  · obtain ⟨a1, a2, _⟩ := zero_tests h1
    obtain ⟨b1, b2, _⟩ := zero_tests h2
    unfold F32.mul
    rw [a1, a2, b1, b2, h1, h2, units_zero, Nat.mul_zero, roundCode_zero]
    simp only [Bool.or_false, Bool.false_eq_true, if_false, if_true]
    split
    · exact .inl rfl
    · split
      · exact .inl rfl
      · exact .inr ⟨mk'_code (by decide), mk'_code (by decide)⟩

theorem mul_zeq_left (w : F32) {x y : F32} (h : SameNumber x y) :
    SameNumber (F32.mul x w) (F32.mul y w) := by
  rcases h with rfl | ⟨h1, h2⟩
  · exact .inl rfl
  · obtain ⟨a1, a2, _⟩ := zero_tests h1
    obtain ⟨b1, b2, _⟩ := zero_tests h2
    unfold F32.mul
    rw [a1, a2, b1, b2, h1, h2, units_zero, Nat.zero_mul, roundCode_zero]
    simp only [Bool.false_or, Bool.false_eq_true, if_false, if_true]
    split
    · exact .inl rfl
    · split
      · exact .inl rfl
      · exact .inr ⟨mk'_code (by decide), mk'_code (by decide)⟩

theorem add_zeq {s : F32} (hs : s ≠ mk' true 0) {x y : F32} (h : SameNumber x y) :
    F32.add s x = F32.add s y := by
  rcases h with rfl | ⟨h1, h2⟩
  · rfl
  · obtain ⟨a1, a2, a3⟩ := zero_tests h1
    obtain ⟨b1, b2, b3⟩ := zero_tests h2
    unfold F32.add
    rw [a1, a2, b1, b2, a3, b3]
    simp only [Bool.or_false, Bool.false_eq_true, if_false, Bool.false_and, Int.add_zero]
    split
    · rfl
    · split
      · rfl
      · split
        · next hz =>
          have hc : s.code = 0 := by
            unfold toInt at hz
            have : units s.code = 0 := by split at hz <;> omega
            rcases Nat.eq_zero_or_pos s.code with h | h
            · exact h
            · have := units_pos.mpr h; omega
          have hsg : s.sign = false := by
            cases h : s.sign
            · rfl
            · refine absurd (ext_fields ?_ ?_) hs
              · rw [h]; decide
              · rw [hc]; decide
          rw [hsg, Bool.false_and, Bool.false_and]
        · rfl

variable [Libm]

theorem summed_ne {s : F32} (h : Summed s) : s ≠ mk' true 0 := by
  induction h with
  | zero => change mk' false 0 ≠ mk' true 0; decide
  | add x y _ ih => exact fun h => ih (add_not_negZero x y h)

theorem foldl_zeq {α : Type} (L : List α) (f g : α → F32) (h : ∀ a ∈ L, SameNumber (f a) (g a)) :
    ∀ s : F32, Summed s → (L.map f).foldl F32Ops.add s = (L.map g).foldl F32Ops.add s := by
  induction L with
  | nil => exact fun _ _ => rfl
  | cons a L ih =>
    intro s hs
    simp only [List.map_cons, List.foldl_cons]
    have e : F32Ops.add s (f a) = F32Ops.add s (g a) := add_zeq (summed_ne hs) (h a List.mem_cons_self)
    rw [e]
    exact ih (fun a ha => h a (List.mem_cons_of_mem _ ha)) _ (.add _ _ hs)

theorem sum_zeq {α : Type} (L : List α) (f g : α → F32) (h : ∀ a ∈ L, SameNumber (f a) (g a)) :
    Spec.sum (L.map f) = Spec.sum (L.map g) := foldl_zeq L f g h _ .zero

theorem maxOf_zeq {α : Type} (L : List α) (f g : α → F32) (h : ∀ a ∈ L, SameNumber (f a) (g a)) :
    SameNumber (maxOf (L.map f)) (maxOf (L.map g)) := by
  unfold maxOf
  generalize (F32Ops.negInf : F32) = m
  suffices ∀ m m' : F32, SameNumber m m' →
      SameNumber ((L.map f).foldl (fun m e => if F32Ops.gt e m then e else m) m)
        ((L.map g).foldl (fun m e => if F32Ops.gt e m then e else m) m') from this m m (.inl rfl)
  induction L with
  | nil => exact fun _ _ h => h
  | cons a L ih =>
    intro m m' hm
    simp only [List.map_cons, List.foldl_cons]
    refine ih (fun a ha => h a (List.mem_cons_of_mem _ ha)) _ _ ?_
    have ha := h a List.mem_cons_self
    have e : F32Ops.gt (f a) m = F32Ops.gt (g a) m' := gt_zeq ha hm
    rw [e]
    split
    · exact ha
    · exact hm

/-- fully connected and convolutional layers give the same bits -/
theorem weighted_zeq {l : AnyLayer F32} (hok : l.Ok) (hl : Weighted l) {x x' : Tensor F32}
    (hx : ∀ i j k, l.get_input_shape.Inside i j k → SameNumber (val x i j k) (val x' i j k))
    {i j k : Nat} (hin : l.get_output_shape.Inside i j k) :
    layerAt l x i j k = layerAt l x' i j k := by
  cases l with
  | fc l =>
    simp only [layerAt]
    congr 1
    unfold preact
    congr 1
    refine sum_zeq _ _ _ fun a ha => mul_zeq_right _ (hx a 0 0 ?_)
    exact ⟨List.mem_range.mp ha, Nat.one_pos, Nat.one_pos⟩
  | conv l =>
    have hok : l.Ok := hok
    simp only [layerAt]
    congr 1
    unfold convPre
    split
    · rename_i kernel bias hkernel hbias
      congr 1
      unfold conv
      refine sum_zeq _ _ _ ?_
      rintro ⟨ki, kj, kk⟩ hm
      obtain ⟨m1, m2, m3⟩ := mem_idx3.mp hm
      obtain ⟨_, e1, e2, e3⟩ := hok.kernels kernel (List.mem_of_getElem? hkernel)
      refine mul_zeq_left _ (hx _ _ _ ⟨tiles_lt e2 hin.1 m1, tiles_lt e3 hin.2.1 m2, ?_⟩)
      rw [e1] at m3
      exact m3
    · rfl
  | mp l => exact hl.elim
  | sm l => exact hl.elim

/-- max pooling may pass on a zero of the other sign -/
theorem pooled_zeq {l : MaxPoolLayer} (hok : l.Ok) {x x' : Tensor F32}
    (hx : ∀ i j k, l.input_shape.Inside i j k → SameNumber (val x i j k) (val x' i j k))
    {i j k : Nat} (hin : l.output_shape.Inside i j k) :
    SameNumber (layerAt (.mp l) x i j k) (layerAt (.mp l) x' i j k) := by
  simp only [layerAt]
  unfold window
  refine maxOf_zeq _ _ _ ?_
  rintro ⟨ii, jj⟩ hm
  obtain ⟨m1, m2⟩ := mem_idx2.mp hm
  refine hx _ _ _ ⟨tiles_lt hok.tiles.1 hin.1 m1, tiles_lt hok.tiles.2 hin.2.1 m2, ?_⟩
  rw [← hok.depth]
  exact hin.2.2

end F32

end Rusty
