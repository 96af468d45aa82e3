import Verif.Spec.Network
import Verif.Spec.Real

/-! # Layers without biases -/

namespace Rusty.Spec

open Rusty Exact

/-- a fully connected or convolutional layer whose biases are zero, or a max-pool layer with a mask that is not empty -/
def Unbiased : AnyLayer ℝ → Prop
  | .fc l => ∀ v ∈ l.bias.data, v = 0
  | .conv l => ∀ t ∈ l.biases, ∀ v ∈ t.data, v = 0
  | .mp l => l.mask_shape.di ≠ 0 ∧ l.mask_shape.dj ≠ 0
  | .sm _ => False

/-- `y` is `x` with every entry multiplied by `c` -/
def Scaled (c : ℝ) (x y : Tensor ℝ) : Prop :=
  y.shape = x.shape ∧ ∀ i j k, x.shape.Inside i j k → val y i j k = c * val x i j k

end Rusty.Spec
