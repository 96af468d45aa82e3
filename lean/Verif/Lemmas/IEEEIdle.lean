import Verif.Lemmas.IEEEZero
import Verif.Lemmas.IEEEGate

/-! # Single precision: multiplying by zero and adding zero -/

namespace Rusty.F32

open Spec

/-- zero times a finite number is zero -/
theorem zero_mul_code {z x : F32} (hz : z.code = 0) (h : x.isFinite = true) : (F32.mul z x).code = 0 := by
  unfold F32.mul
  obtain ⟨h1, h2, _⟩ := zero_tests hz
  rw [finite_nan h, finite_inf h, h1, h2, hz, units_zero]
  simp only [Bool.or_self, Bool.false_eq_true, if_false, Nat.zero_mul]
  rw [show roundCode 0 (2 ^ 149) = 0 by unfold roundCode rne excess; simp, mk'_code (by decide)]

/-- adding zero to a finite number does not change it -/
theorem add_zero_same {s z : F32} (hs : s.isFinite = true) (hz : z.code = 0) : SameNumber (F32.add s z) s := by
  unfold F32.add
  obtain ⟨h1, h2, h3⟩ := zero_tests hz
  rw [finite_nan hs, finite_inf hs, h1, h2, h3]
  simp only [Bool.or_self, Bool.false_eq_true, if_false, add_zero]
  have hc := finite_iff.mp hs
  by_cases h0 : s.code = 0
  · obtain ⟨_, _, h4⟩ := zero_tests h0
    rw [if_pos h4]
    exact .inr ⟨mk'_code (by decide), h0⟩
  · have hu : 0 < units s.code := by
      rw [← units_zero]
      exact units_strictMono (Nat.pos_of_ne_zero h0)
    left
    have e : s.toInt.natAbs = units s.code ∧ s.toInt ≠ 0 ∧ decide (s.toInt < 0) = s.sign := by
      unfold toInt
      cases s.sign <;> simp <;> omega
    rw [if_neg e.2.1, e.1, e.2.2]
    have := roundCode_units (c := s.code) Nat.one_pos hc.le
    rw [Nat.mul_one] at this
    rw [this, mk'_eta]

theorem sum_zero_code [Libm] {z : F32} (hz : z.code = 0) : (Spec.sum [z]).code = 0 := by
  change (F32.add (mk' false 0) z).code = 0
  rcases add_zero_same (s := mk' false 0) (by decide) hz with h | h
  · rw [h]; decide
  · exact h.1

/-- adding zeros over and over does not change a finite number -/
theorem foldl_zeros [Libm] (L : List F32) (h : ∀ z ∈ L, z.code = 0) (s : F32) (hs : s.isFinite = true) :
    (L.foldl F32Ops.add s).isFinite = true ∧ SameNumber (L.foldl F32Ops.add s) s := by
  induction L generalizing s with
  | nil => exact ⟨hs, .inl rfl⟩
  | cons z L ih =>
    have e := add_zero_same hs (h z (List.mem_cons_self ..))
    have hf : (F32.add s z).isFinite = true := by
      rcases e with e | e
      · rw [e]; exact hs
      · rw [finite_iff, e.1]; decide
    obtain ⟨a, c⟩ := ih (fun z hz => h z (List.mem_cons_of_mem _ hz)) _ hf
    refine ⟨a, ?_⟩
    change SameNumber (L.foldl F32Ops.add (F32.add s z)) s
    rcases c with c | c
    · rw [c]; exact e
    · rcases e with e | e
      · rw [e] at c ⊢; exact .inr c
      · exact .inr ⟨c.1, e.2⟩

end Rusty.F32
