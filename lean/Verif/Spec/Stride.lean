import Verif.Spec.Locality

/-! # Specification: a stride written as a pooling layer -/

namespace Rusty.Spec

variable {F : Type} [F32Ops F]

/-- `l'` is the convolutional or max-pool layer `l` with stride 1 -/
def Unstrided : AnyLayer F → AnyLayer F → Prop
  | .conv l, .conv l' => l'.stride = 1 ∧ l'.kernels = l.kernels ∧ l'.biases = l.biases ∧
      l'.input_shape = l.input_shape ∧ l.kernels ≠ []
  | .mp l, .mp l' => l'.stride = 1 ∧ l'.mask_shape = l.mask_shape ∧ l'.input_shape = l.input_shape
  | _, _ => False

/-- a max-pool layer with a 1x1 mask that takes every `s`-th row and column -/
def TakesEvery (s : Nat) : AnyLayer F → Prop
  | .mp l => l.stride.toNat = s ∧ l.mask_shape.di = 1 ∧ l.mask_shape.dj = 1
  | _ => False

end Rusty.Spec
