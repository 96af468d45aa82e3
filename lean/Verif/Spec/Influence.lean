import Verif.Spec.AnyLayer
import Verif.Model.IEEE

/-! # Specification: how the entries of a state influence the next one (C121) -/

namespace Rusty.Spec

open F32

/-- Whether an entry belongs to a set of places in a tensor. -/
abbrev Places3 := Nat → Nat → Nat → Prop

variable [Libm]

/-- The layer keeps what happens at the places `D` of its input from all places of its output outside of `D'`: the
weights between them are zero (of either sign), and there are none of them in the windows of max pooling or in front of
softmax. -/
def Shields (D D' : Places3) : AnyLayer F32 → Prop
  | .fc l => ∀ o i, o < l.weights.shape.di.toNat → i < l.weights.shape.dj.toNat → ¬D' o 0 0 → D i 0 0 →
      (val l.weights o i 0).code = 0
  | .conv l => ∀ i j k kernel, l.output_shape.Inside i j k → ¬D' i j k → l.kernels[k]? = some kernel →
      ∀ p q r, kernel.shape.Inside p q r → D (i * l.stride.toNat + p) (j * l.stride.toNat + q) r →
        (val kernel p q r).code = 0
  | .mp l => ∀ i j k, l.output_shape.Inside i j k → ¬D' i j k →
      ∀ p q, p < l.mask_shape.di.toNat → q < l.mask_shape.dj.toNat →
        ¬D (i * l.stride.toNat + p) (j * l.stride.toNat + q) k
  | .sm l => ∀ i j k, l.shape.Inside i j k → ¬D i j k

/-- The entries of `t` at the places `D` are finite. -/
def FiniteAt (D : Places3) (t : Tensor F32) : Prop :=
  ∀ i j k, t.shape.Inside i j k → D i j k → (val t i j k).isFinite = true

/-- The tensors have the same shape and the same entries, bit for bit, outside of `D`. -/
def SameOutside (D : Places3) (t t' : Tensor F32) : Prop :=
  t'.shape = t.shape ∧ ∀ i j k, t.shape.Inside i j k → ¬D i j k → val t' i j k = val t i j k

end Rusty.Spec
