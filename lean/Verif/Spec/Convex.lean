import Verif.Spec.Monotone

/-! # Specification: layers that compute convex functions of the input (C116) -/

namespace Rusty.Spec

variable [Libm]

/-- the layer is not a softmax layer -/
def NotSoftmax : AnyLayer F32 → Prop
  | .sm _ => False
  | _ => True

/-- the first layer may have any weights, the others have no negative ones, and there is no softmax layer -/
def ConvexLayers : List (AnyLayer F32) → Prop
  | [] => True
  | l :: ls => NotSoftmax l ∧ ∀ m ∈ ls, Nonneg m

/-- the point that divides the way from `y` to `x` in the ratio `a` -/
def between (a : ℝ) (x y : Nat → Nat → Nat → ℝ) (i j k : Nat) : ℝ := a * x i j k + (1 - a) * y i j k

end Rusty.Spec
