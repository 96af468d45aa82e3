import Verif.Spec.Opposite
import Verif.Lemmas.Linear
import Verif.Lemmas.IEEEZero

/-! # Lemmas: `f32` arithmetic and signs -/

namespace Rusty

open F32Ops Spec

namespace F32

theorem opposite_facts {x y : F32} (h : Opposite x y) : y.isNaN = x.isNaN ∧
    (x.isNaN = false → y.isInf = x.isInf ∧ y.code = x.code ∧ y.toInt = -x.toInt ∧
      (x.isInf = true → y.sign = !x.sign) ∧ (x.code = 0 ∨ y.sign = !x.sign)) := by
  rcases h with ⟨h1, h2⟩ | ⟨h1, h2⟩
  · exact ⟨by rw [h1, h2], fun h => by rw [h1] at h; cases h⟩
  · refine ⟨by unfold isNaN; rw [h1], fun _ => ⟨by unfold isInf; rw [h1], h1.symm, ?_, fun hi => ?_, h2⟩⟩
    · unfold toInt
      rw [← h1]
      rcases h2 with h2 | h2
      · rw [h2, units_zero]; simp
      · rw [h2]; cases x.sign <;> simp
    · rcases h2 with h2 | h2
      · unfold isInf at hi; rw [h2] at hi; exact absurd hi (by decide)
      · exact h2

theorem opposite_nan : Opposite nan nan := .inl ⟨nan_isNaN, nan_isNaN⟩

theorem opposite_mk {s t : Bool} {c : Nat} (hc : c < 2 ^ 31) (h : c = 0 ∨ t = !s) :
    Opposite (mk' s c) (mk' t c) := by
  refine .inr ?_
  rw [mk'_code hc, mk'_code hc, mk'_sign hc, mk'_sign hc]
  exact ⟨rfl, h⟩

theorem opposite_mul_left (v : F32) {x y : F32} (h : Opposite x y) :
    Opposite (F32.mul v x) (F32.mul v y) := by
  obtain ⟨h1, h2⟩ := opposite_facts h
  unfold F32.mul
  rw [h1]
  cases hn : x.isNaN
  · obtain ⟨a1, a2, _, a4, a5⟩ := h2 hn
    rw [a1, a2]
    cases hv : v.isNaN
    · simp only [Bool.or_self, Bool.false_eq_true, if_false]
      cases hvi : v.isInf
      · simp only [Bool.false_eq_true, if_false]
        cases hi : x.isInf
        · simp only [Bool.false_eq_true, if_false]
          refine opposite_mk (roundCode_lt _ _) ?_
          rcases a5 with a5 | a5
          · left; rw [a5, units_zero, Nat.mul_zero, roundCode_zero]
          · right; rw [a5]; cases v.sign <;> cases x.sign <;> rfl
        · simp only [if_true]
          split
          · exact opposite_nan
          · refine opposite_mk infCode_lt (.inr ?_)
            rw [a4 hi]; cases v.sign <;> cases x.sign <;> rfl
      · simp only [if_true]
        split
        · exact opposite_nan
        · refine opposite_mk infCode_lt (.inr ?_)
          rcases a5 with a5 | a5
          · contradiction
          · rw [a5]; cases v.sign <;> cases x.sign <;> rfl
    · simpa using opposite_nan
  · simpa using opposite_nan

theorem mul_comm' (x y : F32) : F32.mul x y = F32.mul y x := by
  unfold F32.mul
  rw [Bool.or_comm, Nat.mul_comm (units x.code)]
  have hs : (x.sign != y.sign) = (y.sign != x.sign) := by cases x.sign <;> cases y.sign <;> rfl
  simp only [hs]
  have hi : ∀ z : F32, z.isInf = true → z.code ≠ 0 := by
    intro z hz h
    unfold isInf at hz
    rw [h] at hz
    revert hz
    decide
  split
  · rfl
  · cases hx : x.isInf <;> cases hy : y.isInf <;> simp only [Bool.false_eq_true, if_false, if_true]
    rw [if_neg (hi _ hx), if_neg (hi _ hy)]

theorem opposite_mul_right (v : F32) {x y : F32} (h : Opposite x y) :
    Opposite (F32.mul x v) (F32.mul y v) := by
  rw [mul_comm' x, mul_comm' y]
  exact opposite_mul_left v h

theorem opposite_add {x y x' y' : F32} (h : Opposite x y) (h' : Opposite x' y') :
    Opposite (F32.add x x') (F32.add y y') := by
  obtain ⟨h1, h2⟩ := opposite_facts h
  obtain ⟨h1', h2'⟩ := opposite_facts h'
  unfold F32.add
  rw [h1, h1']
  cases hn : x.isNaN
  · cases hn' : x'.isNaN
    · obtain ⟨a1, a2, a3, a4, _⟩ := h2 hn
      obtain ⟨b1, b2, b3, b4, _⟩ := h2' hn'
      simp only [Bool.or_self, Bool.false_eq_true, if_false]
      rw [a1, b1]
      cases hi : x.isInf
      · cases hi' : x'.isInf
        · simp only [Bool.false_eq_true, if_false]
          have e : y.toInt + y'.toInt = -(x.toInt + x'.toInt) := by rw [a3, b3]; omega
          rw [e]
          by_cases hz : x.toInt + x'.toInt = 0
          · rw [if_pos hz, if_pos (by omega)]
            exact opposite_mk (by decide) (.inl rfl)
          · rw [if_neg hz, if_neg (by omega), Int.natAbs_neg]
            refine opposite_mk (roundCode_lt _ _) (.inr ?_)
            by_cases hlt : x.toInt + x'.toInt < 0
            · simp only [hlt, decide_true, Bool.not_true, decide_eq_false_iff_not]; omega
            · simp only [hlt, decide_false, Bool.not_false, decide_eq_true_eq]; omega
        · simp only [Bool.false_eq_true, if_false, if_true]
          exact h'
      · simp only [if_true]
        rw [a4 hi]
        cases hi' : x'.isInf
        · simp only [Bool.false_and, Bool.false_eq_true, if_false]
          exact h
        · rw [b4 hi']
          have : ((!x.sign) != !x'.sign) = (x.sign != x'.sign) := by cases x.sign <;> cases x'.sign <;> rfl
          rw [this]
          split
          · exact opposite_nan
          · exact h
    · simpa using opposite_nan
  · simpa using opposite_nan

variable [Libm]

theorem opposite_respected : Respected (fun x y _ : F32 => Opposite x y) where
  zero := .inr ⟨rfl, .inl (mk'_code (by decide))⟩
  add := fun _ _ _ _ _ _ h h' => opposite_add h h'
  left := fun v _ _ _ h => opposite_mul_left v h
  right := fun v _ _ _ h => opposite_mul_right v h

end F32

end Rusty
