import Verif.Model.IEEE
import Mathlib.Analysis.SpecialFunctions.Exp

/-! # Specification: the real number a float stands for, and what is assumed of `exp` -/

namespace Rusty.F32

/-- the real number a finite float stands for -/
noncomputable def toReal (x : F32) : ℝ := x.toInt / 2 ^ 149

/-- `x` is a number between `0` and `1`: finite (so not NaN), and `0 ≤ x ≤ 1` -/
def InUnit (x : F32) : Prop := x.isFinite = true ∧ 0 ≤ x.toReal ∧ x.toReal ≤ 1

/-- What is assumed of the platform's `f32::exp` on finite arguments.  Rust specifies no accuracy;
every implementation in use is far better than this. -/
class ExpAccurate [Libm] : Prop where
  /-- never NaN and never negative -/
  nonneg : ∀ x : F32, x.isFinite = true → (Libm.exp x).isNaN = false ∧ (Libm.exp x).sign = false
  /-- infinite when the exact value is beyond the range of `f32` -/
  overflow : ∀ x : F32, x.isFinite = true → 2 ^ 128 ≤ Real.exp x.toReal → (Libm.exp x).isInf = true
  /-- zero when the exact value is less than half the smallest positive `f32` -/
  underflow : ∀ x : F32, x.isFinite = true → Real.exp x.toReal < 1 / 2 ^ 150 → (Libm.exp x).code = 0
  /-- relative error at most one in a million in the normal range -/
  close : ∀ x : F32, x.isFinite = true → 1 / 2 ^ 126 ≤ Real.exp x.toReal →
    Real.exp x.toReal ≤ 2 ^ 127 → (Libm.exp x).isFinite = true ∧
      |(Libm.exp x).toReal - Real.exp x.toReal| ≤ Real.exp x.toReal / 2 ^ 20

/-- the unit roundoff of binary32 -/
noncomputable abbrev u : ℝ := 1 / 2 ^ 24

/-- half the smallest positive binary32 number -/
noncomputable abbrev eta : ℝ := 1 / 2 ^ 150

/-- the classical forward error bound of a sum of `n` products whose absolute values add up to `A` -/
noncomputable def errBound (n : Nat) (A : ℝ) : ℝ :=
  ((1 + u) ^ (n + 1) - 1) * A + n * (1 + u) ^ n * eta

end Rusty.F32
