import Verif.Spec.Monotone

/-! # Specification: layers with larger parameters -/

namespace Rusty.Spec

open F32

variable [Libm]

/-- a tensor of the same shape whose entries are not smaller -/
def Larger (t t' : Tensor F32) : Prop := t'.shape = t.shape ∧ Below t t'

/-- `l'` is a layer like `l`, no parameter of which is smaller; not a softmax layer -/
def Raised : AnyLayer F32 → AnyLayer F32 → Prop
  | .fc l, .fc l' => Larger l.weights l'.weights ∧ Larger l.bias l'.bias
  | .conv l, .conv l' => l'.stride = l.stride ∧ l'.input_shape = l.input_shape ∧
      l'.output_shape = l.output_shape ∧ List.Forall₂ Larger l.kernels l'.kernels ∧
      List.Forall₂ Larger l.biases l'.biases
  | .mp l, .mp l' => l'.stride = l.stride ∧ l'.mask_shape = l.mask_shape ∧
      l'.input_shape = l.input_shape ∧ l'.output_shape = l.output_shape
  | _, _ => False

/-- the two layers have the same weights or kernels; the biases may differ -/
def EqualWeights : AnyLayer F32 → AnyLayer F32 → Prop
  | .fc l, .fc l' => l'.weights = l.weights
  | .conv l, .conv l' => l'.kernels = l.kernels
  | _, _ => True

/-- no entry is negative -/
def NoneNegative (t : Tensor F32) : Prop := ∀ i j k, t.shape.Inside i j k → 0 ≤ (val t i j k).toReal

end Rusty.Spec
