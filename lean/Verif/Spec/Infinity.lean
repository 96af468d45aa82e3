import Verif.Spec.Layers
import Verif.Spec.IEEE

/-! # Vocabulary of C149 -/

namespace Rusty

open Spec F32

variable [Libm]

/-- everything that unit `o` of a fully connected layer reads on input `x`, except for entry `i` of the input and its
weight, is finite, and the products add up to at most `2^125` in absolute value -/
def TameBut (l : FullyConnectedLayer F32) (x : Tensor F32) (o i : Nat) : Prop :=
  (∀ n, n < l.weights.shape.dj.toNat → n ≠ i →
    (val l.weights o n 0).isFinite = true ∧ (val x n 0 0).isFinite = true) ∧
  (val l.bias o 0 0).isFinite = true ∧
  (((List.range l.weights.shape.dj.toNat).filter fun n => n ≠ i).map fun n =>
    |(val l.weights o n 0).toReal * (val x n 0 0).toReal|).sum ≤ 2 ^ 125

end Rusty
