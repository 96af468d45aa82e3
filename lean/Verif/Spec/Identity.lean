import Verif.Spec.AnyLayer
import Verif.Spec.IEEE

/-! # Specification: layers that do nothing -/

namespace Rusty.Spec

open F32

variable [Libm]

/-- the number 1 if `c`, otherwise 0 (of either sign) -/
def Indicator (c : Prop) [Decidable c] (v : F32) : Prop :=
  v.isFinite = true ∧ v.toReal = if c then 1 else 0

/-- A fully connected layer with the identity matrix and without biases; a convolutional layer whose 1x1
kernels, one for every channel, copy their channel; a max-pool layer with a 1x1 mask and stride 1. -/
def Identity : AnyLayer F32 → Prop
  | .fc l => l.weights.shape.di = l.weights.shape.dj ∧
      (∀ o i, o < l.weights.shape.di.toNat → i < l.weights.shape.dj.toNat →
        Indicator (o = i) (val l.weights o i 0)) ∧
      ∀ o, o < l.weights.shape.di.toNat → Indicator False (val l.bias o 0 0)
  | .conv l => l.kernels ≠ [] ∧ l.stride = 1 ∧ l.output_shape.dk = l.input_shape.dk ∧
      (∀ k kernel, l.kernels[k]? = some kernel → kernel.shape.di = 1 ∧ kernel.shape.dj = 1 ∧
        ∀ d, d < kernel.shape.dk.toNat → Indicator (d = k) (val kernel 0 0 d)) ∧
      ∀ bias ∈ l.biases, Indicator False (val bias 0 0 0)
  | .mp l => l.stride = 1 ∧ l.mask_shape.di = 1 ∧ l.mask_shape.dj = 1
  | .sm _ => False

/-- Entries that such a layer keeps: finite ones whose sign bit is 0, such as a ReLU puts out; in the case
of max pooling all that are not NaN. -/
def Keeps : AnyLayer F32 → F32 → Prop
  | .mp _, v => v.isNaN = false
  | _, v => v.isFinite = true ∧ v.sign = false

end Rusty.Spec
