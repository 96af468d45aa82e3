import Verif.Lemmas.IEEEMono
import Verif.Lemmas.SoftmaxGradient
import Verif.Lemmas.Matrix
import Verif.Lemmas.Leak

/-! # Helper lemmas: laws of the arithmetic of `f32` -/

namespace Rusty.F32

/-- addition is commutative -/
theorem add_comm' (x y : F32) : F32.add x y = F32.add y x := by
  unfold F32.add
  rw [Bool.or_comm, Int.add_comm, Bool.and_comm x.sign]
  by_cases hx : x.isInf = true <;> by_cases hy : y.isInf = true
  · have cx : x.code = infCode := by unfold isInf at hx; simpa using hx
    have cy : y.code = infCode := by unfold isInf at hy; simpa using hy
    simp only [hx, hy, if_true, Bool.true_and]
    by_cases hs : x.sign = y.sign
    · have : x = y := by rw [← mk'_eta x, ← mk'_eta y, hs, cx, cy]
      rw [this]
    · have h1 : (x.sign != y.sign) = true := by simpa using hs
      have h2 : (y.sign != x.sign) = true := by simpa using fun h => hs h.symm
      simp only [h1, h2, if_true]
  · simp only [hx, hy, if_true, if_false, Bool.false_eq_true, Bool.false_and]
  · simp only [hx, hy, if_true, if_false, Bool.false_eq_true, Bool.false_and]
  · simp only [hx, hy, if_false, Bool.false_eq_true]

/-- one times a number -/
theorem mul_unit {x : F32} (h : x.isNaN = false) (s : Bool) :
    F32.mul x (mk' s (127 * 2 ^ 23)) = mk' (x.sign != s) x.code := by
  have hc : x.code ≤ infCode := by unfold isNaN at h; simpa using h
  unfold F32.mul
  rw [h, mk'_code (by decide), mk'_sign (by decide), units_one,
    show (mk' s (127 * 2 ^ 23)).isNaN = false by cases s <;> decide,
    show (mk' s (127 * 2 ^ 23)).isInf = false by cases s <;> decide]
  simp only [Bool.or_self, Bool.false_eq_true, if_false]
  by_cases hi : x.isInf = true
  · have cx : x.code = infCode := by unfold isInf at hi; simpa using hi
    rw [if_pos hi, if_neg (by decide), cx]
  · rw [if_neg hi, roundCode_units (by positivity) hc]

variable [Libm]

theorem mul_one' {x : F32} (h : x.isNaN = false) : F32.mul x (F32Ops.one : F32) = x := by
  have e := mul_unit h false
  rw [Bool.bne_false, mk'_eta] at e
  exact e

theorem negative {x : F32} (h : x.isNaN = false) : F32.mul x (F32Ops.negOne : F32) = mk' (!x.sign) x.code := by
  have e := mul_unit h true
  rw [Bool.bne_true] at e
  exact e

theorem negative_twice {x : F32} (h : x.isNaN = false) :
    F32.mul (F32.mul x (F32Ops.negOne : F32)) (F32Ops.negOne : F32) = x := by
  have hc : x.code ≤ infCode := by unfold isNaN at h; simpa using h
  have hlt : x.code < 2 ^ 31 := hc.trans_lt (by decide)
  have hn : (mk' (!x.sign) x.code).isNaN = false := by
    unfold isNaN
    rw [mk'_code hlt]
    simpa using hc
  rw [negative h, negative hn, mk'_code hlt, mk'_sign hlt, Bool.not_not, mk'_eta]

theorem add_negative {x : F32} (h : x.isFinite = true) :
    F32.add x (F32.mul x (F32Ops.negOne : F32)) = (F32Ops.zero : F32) := by
  have hlt : x.code < 2 ^ 31 := (finite_iff.mp h).trans (by decide)
  have hf : (mk' (!x.sign) x.code).isFinite = true := by
    rw [finite_iff, mk'_code hlt]
    exact finite_iff.mp h
  have hi : x.toInt + (mk' (!x.sign) x.code).toInt = 0 := by
    unfold toInt
    rw [mk'_code hlt, mk'_sign hlt]
    cases x.sign <;> simp
  rw [negative (finite_nan h)]
  unfold F32.add
  rw [finite_nan h, finite_nan hf, finite_inf h, finite_inf hf, hi, mk'_sign hlt]
  simp only [Bool.or_self, Bool.false_eq_true, if_false, if_true, Bool.and_not_self]
  rfl

end Rusty.F32
