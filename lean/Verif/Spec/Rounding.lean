import Verif.Spec.IEEE

/-! # Specification: rounding to nearest, ties to even (IEEE 754-2019, 4.3.1)

Used to validate `Verif/Model/IEEE.lean`: that file computes with bit fields and integers, here a rounded
result is described without any computation. -/

namespace Rusty.F32

/-- `v` is the binary32 result of an operation whose exact result is `r`. -/
structure Rounds (r : ℝ) (v : F32) : Prop where
  /-- below the overflow threshold (half a unit in the last place above the largest float) the result is
  finite, no finite float is closer to `r`, and if another one is equally close, the last bit of the
  result is 0 -/
  nearest : |r| < 2 ^ 128 - 2 ^ 103 → v.isFinite = true ∧
    ∀ y : F32, y.isFinite = true → |v.toReal - r| ≤ |y.toReal - r| ∧
      (|v.toReal - r| = |y.toReal - r| → v.toReal = y.toReal ∨ v.code % 2 = 0)
  /-- from the threshold on, the result is infinite -/
  overflow : 2 ^ 128 - 2 ^ 103 ≤ |r| → v.isInf = true
  /-- the sign is the sign of the exact result, also if the result is a zero or an infinity -/
  sign : r ≠ 0 → v.sign = decide (r < 0)

end Rusty.F32
