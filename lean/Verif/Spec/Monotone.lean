import Verif.Spec.Accuracy

/-! # Specification: layers with nonnegative weights, and tensors that are entrywise at most others -/

namespace Rusty.Spec

open F32

variable [Libm]

/-- no weight of the layer is negative; biases may be; a softmax layer does not qualify -/
def Nonneg : AnyLayer F32 → Prop
  | .fc l => ∀ o i, o < l.weights.shape.di.toNat → i < l.weights.shape.dj.toNat →
      0 ≤ (val l.weights o i 0).toReal
  | .conv l => ∀ kernel ∈ l.kernels, ∀ i j k, kernel.shape.Inside i j k → 0 ≤ (val kernel i j k).toReal
  | .mp _ => True
  | .sm _ => False

/-- the entries are finite and at most `M` in absolute value -/
def Within (t : Tensor F32) (M : ℝ) : Prop :=
  ∀ i j k, t.shape.Inside i j k → (val t i j k).isFinite = true ∧ |(val t i j k).toReal| ≤ M

/-- every entry of `t` is at most that of `t'` -/
def Below (t t' : Tensor F32) : Prop :=
  ∀ i j k, t.shape.Inside i j k → (val t i j k).toReal ≤ (val t' i j k).toReal

end Rusty.Spec
