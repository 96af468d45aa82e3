import Verif.Spec.Layers
import Mathlib.Analysis.SpecialFunctions.Exp
import Mathlib.Analysis.Real.Sqrt

/-!
# The real numbers as exact `f32`

"In exact arithmetic" means: with this instance.  `f32::NEG_INFINITY` is replaced by `-2^128`, which
is below every finite `f32`.
-/

namespace Rusty.Exact

open Rusty F32Ops

/-- exact arithmetic -/
noncomputable scoped instance realOps : F32Ops ℝ where
  zero := 0
  one := 1
  negOne := -1
  negInf := -2 ^ 128
  add := (· + ·)
  mul := (· * ·)
  div := (· / ·)
  fmax := max
  gt := fun x y => @decide (y < x) (Classical.dec _)
  feq := fun x y => @decide (x = y) (Classical.dec _)
  exp := Real.exp
  sqrt := Real.sqrt
  square := fun x => x ^ 2

end Rusty.Exact
