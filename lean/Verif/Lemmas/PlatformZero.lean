import Verif.Lemmas.PlatformNaN
import Verif.Lemmas.IEEEZero

/-! # Platforms that also differ in the sign of zero -/

namespace Rusty

open Spec F32

namespace Spec.UpToZero

theorem rfl' (x : F32) : UpToZero x x := .inl (.inl rfl)

theorem of_nan {x y : F32} (h : UpToNaN x y) : UpToZero x y :=
  h.elim (fun h => .inl (.inl h)) .inr

theorem symm {x y : F32} (h : UpToZero x y) : UpToZero y x :=
  h.elim (fun h => .inl (h.elim (fun h => .inl h.symm) fun h => .inr h.symm)) fun h => .inr h.symm

theorem isNaN {x y : F32} (h : UpToZero x y) : x.isNaN = y.isNaN := by
  rcases h with h | ⟨h1, h2⟩
  · exact (zeq_iff.mp h).1
  · rw [h1, h2]

theorem key {x y : F32} (h : UpToZero x y) (hx : x.isNaN = false) : x.key = y.key := by
  rcases h with h | ⟨h1, h2⟩
  · exact (zeq_iff.mp h).2.1 hx
  · rw [hx] at h1
    exact absurd h1 (by decide)

/-- numbers with the same key are the same up to the sign of zero -/
theorem of_key {x y : F32} (hx : x.isNaN = false) (hy : y.isNaN = false) (h : x.key = y.key) : UpToZero x y := by
  refine .inl (feq_iff.mp ?_).1
  unfold F32.feq
  rw [hx, hy, h]
  simp

theorem same {x y : F32} (h : UpToZero x y) (hx : x.isNaN = false) : SameNumber x y := by
  rcases h with h | ⟨h1, h2⟩
  · exact h
  · rw [hx] at h1
    exact absurd h1 (by decide)

theorem trans {x y z : F32} (h : UpToZero x y) (k : UpToZero y z) : UpToZero x z := by
  cases hx : x.isNaN
  · have hy : y.isNaN = false := h.isNaN ▸ hx
    have hz : z.isNaN = false := k.isNaN ▸ hy
    exact of_key hx hz ((h.key hx).trans (k.key hy))
  · have hy : y.isNaN = true := h.isNaN ▸ hx
    have hz : z.isNaN = true := k.isNaN ▸ hy
    exact .inr ⟨hx, hz⟩

end Spec.UpToZero

theorem add_same_left {w x y : F32} (h : SameNumber x y) : SameNumber (F32.add x w) (F32.add y w) := by
  rcases h with rfl | ⟨h1, h2⟩
  · exact .inl rfl
  obtain ⟨a1, a2, a3⟩ := zero_tests h1
  obtain ⟨c1, c2, c3⟩ := zero_tests h2
  have hm : ∀ s, (mk' s 0).code = 0 := by decide
  unfold F32.add
  simp only [a1, a2, a3, c1, c2, c3, Bool.false_or, Bool.false_eq_true, if_false]
  split
  · exact .inl rfl
  split
  · exact .inl rfl
  split
  · exact .inr ⟨hm _, hm _⟩
  · exact .inl rfl

theorem add_same_right {w x y : F32} (h : SameNumber x y) : SameNumber (F32.add w x) (F32.add w y) := by
  rcases h with rfl | ⟨h1, h2⟩
  · exact .inl rfl
  obtain ⟨a1, a2, a3⟩ := zero_tests h1
  obtain ⟨c1, c2, c3⟩ := zero_tests h2
  have hm : ∀ s, (mk' s 0).code = 0 := by decide
  unfold F32.add
  simp only [a1, a2, a3, c1, c2, c3, Bool.or_false, Bool.false_and, Bool.false_eq_true, if_false]
  split
  · exact .inl rfl
  split
  · exact .inl rfl
  split
  · exact .inr ⟨hm _, hm _⟩
  · exact .inl rfl

theorem sqrt_same {x y : F32} (h : SameNumber x y) : SameNumber (F32.sqrt x) (F32.sqrt y) := by
  rcases h with rfl | ⟨h1, h2⟩
  · exact .inl rfl
  · unfold F32.sqrt
    rw [(zero_tests h1).1, (zero_tests h2).1, h1, h2]
    exact .inr ⟨h1, h2⟩

/-- two-place functions that send NaN to NaN and respect the sign of zero -/
theorem UpToZero.map₂ {f : F32 → F32 → F32} (h : ∀ x y, (x.isNaN || y.isNaN) = true → (f x y).isNaN = true)
    (hl : ∀ {w x y}, SameNumber x y → SameNumber (f x w) (f y w))
    (hr : ∀ {w x y}, SameNumber x y → SameNumber (f w x) (f w y)) {x x' y y' : F32}
    (hx : UpToZero x x') (hy : UpToZero y y') : UpToZero (f x y) (f x' y') := by
  cases h1 : x.isNaN
  · cases h2 : y.isNaN
    · exact UpToZero.trans (.inl (hl (hx.same h1))) (.inl (hr (hy.same h2)))
    · exact .inr ⟨h _ _ (by rw [h2, Bool.or_true]), h _ _ (by rw [← hy.isNaN, h2, Bool.or_true])⟩
  · exact .inr ⟨h _ _ (by rw [h1, Bool.true_or]), h _ _ (by rw [← hx.isNaN, h1, Bool.true_or])⟩

theorem UpToZero.test {f : F32 → F32 → Bool} (h : ∀ x y, (x.isNaN || y.isNaN) = true → f x y = false)
    (hk : ∀ {x x' y y'}, SameNumber x x' → SameNumber y y' → f x y = f x' y') {x x' y y' : F32}
    (hx : UpToZero x x') (hy : UpToZero y y') : f x y = f x' y' := by
  cases h1 : x.isNaN
  · cases h2 : y.isNaN
    · exact hk (hx.same h1) (hy.same h2)
    · rw [h _ _ (by rw [h2, Bool.or_true]), h _ _ (by rw [← hy.isNaN, h2, Bool.or_true])]
  · rw [h _ _ (by rw [h1, Bool.true_or]), h _ _ (by rw [← hx.isNaN, h1, Bool.true_or])]

/-- two platforms compute the same without their mathematical libraries, up to NaN and the sign of zero -/
theorem noLibm_respect {o p : F32Ops F32} (ho : NoLibm o) (hp : NoLibm p) :
    @RespectsIf F32 F32 o p False UpToZero := by
  have nn : F32.nan.isNaN = true := by decide
  have hadd : ∀ x y : F32, (x.isNaN || y.isNaN) = true → (F32.add x y).isNaN = true := fun x y h => by
    unfold F32.add; rw [if_pos h]; exact nn
  have hmul : ∀ x y : F32, (x.isNaN || y.isNaN) = true → (F32.mul x y).isNaN = true := fun x y h => by
    unfold F32.mul; rw [if_pos h]; exact nn
  have hm : ∀ {x x' y y'}, UpToZero x x' → UpToZero y y' → UpToZero (F32.mul x y) (F32.mul x' y') :=
    UpToZero.map₂ hmul (mul_zeq_left _) (mul_zeq_right _)
  refine @RespectsIf.mk _ _ o p _ _ ?_ ?_ ?_ ?_ ?_ ?_ ?_ ?_ ?_ ?_ ?_ ?_ ?_
  · exact .inl (.inl (ho.zero.trans hp.zero.symm))
  · exact .inl (.inl (ho.one.trans hp.one.symm))
  · exact .inl (.inl (ho.negOne.trans hp.negOne.symm))
  · exact .inl (.inl (ho.negInf.trans hp.negInf.symm))
  · exact fun hx hy => (UpToZero.of_nan (ho.add _ _)).trans
      ((UpToZero.map₂ hadd add_same_left add_same_right hx hy).trans (UpToZero.of_nan (hp.add _ _)).symm)
  · exact fun hx hy => (UpToZero.of_nan (ho.mul _ _)).trans
      ((hm hx hy).trans (UpToZero.of_nan (hp.mul _ _)).symm)
  · exact fun h => h.elim
  · intro x x' y y' hx hy
    cases h1 : x.isNaN
    · have h1' : x'.isNaN = false := hx.isNaN ▸ h1
      cases h2 : y.isNaN
      · have h2' : y'.isNaN = false := hy.isNaN ▸ h2
        have kx := hx.key h1
        have ky := hy.key h2
        rcases ho.max x y h1 h2 with ⟨e, k⟩ | ⟨e, k⟩ <;> rcases hp.max x' y' h1' h2' with ⟨e', k'⟩ | ⟨e', k'⟩ <;>
          rw [e, e']
        · exact hx
        · exact .of_key h1 h2' (by omega)
        · exact .of_key h2 h1' (by omega)
        · exact hy
      · exact (UpToZero.of_nan (ho.max_nan' _ _ h2)).trans
          (hx.trans (UpToZero.of_nan (hp.max_nan' _ _ (hy.isNaN ▸ h2))).symm)
    · exact (UpToZero.of_nan (ho.max_nan _ _ h1)).trans
        (hy.trans (UpToZero.of_nan (hp.max_nan _ _ (hx.isNaN ▸ h1))).symm)
  · intro x x' y y' hx hy
    rw [ho.gt, hp.gt]
    refine UpToZero.test (fun x y h => ?_) gt_zeq hx hy
    unfold F32.gt
    revert h
    cases x.isNaN <;> cases y.isNaN <;> simp
  · intro x x' y y' hx hy
    rw [ho.feq, hp.feq]
    refine UpToZero.test (fun x y h => ?_) (fun {x x' y y'} hx hy => ?_) hx hy
    · unfold F32.feq
      revert h
      cases x.isNaN <;> cases y.isNaN <;> simp
    · obtain ⟨h1, h2, _⟩ := zeq_iff.mp hx
      obtain ⟨h3, h4, _⟩ := zeq_iff.mp hy
      unfold F32.feq
      rw [← h1, ← h3]
      cases hn : x.isNaN
      · cases hm : y.isNaN
        · rw [h2 hn, h4 hm]
        · simp
      · simp
  · exact fun h => h.elim
  · intro x x' hx
    refine (UpToZero.of_nan (ho.sqrt _)).trans (UpToZero.trans ?_ (UpToZero.of_nan (hp.sqrt _)).symm)
    cases h1 : x.isNaN
    · exact .inl (sqrt_same (hx.same h1))
    · right
      unfold F32.sqrt
      rw [h1, ← hx.isNaN, h1]
      exact ⟨nn, nn⟩
  · exact fun hx => (UpToZero.of_nan (ho.square _)).trans
      ((hm hx hx).trans (UpToZero.of_nan (hp.square _)).symm)

end Rusty
