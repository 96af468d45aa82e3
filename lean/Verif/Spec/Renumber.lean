import Verif.Spec.Accuracy

/-! # Specification: renumbering the units of fully connected layers -/

namespace Rusty.Spec

open F32Ops

variable {F : Type} [F32Ops F]

/-- `σ` renumbers `0, ..., n-1` -/
def Renumbers (n : Nat) (σ : Nat → Nat) : Prop :=
  (∀ o, o < n → σ o < n) ∧ ∀ o p, o < n → p < n → σ o = σ p → o = p

/-- unit `o` of the second layer has the weights and the bias of unit `σ o` of the first -/
structure RowsBy (σ : Nat → Nat) (l l' : FullyConnectedLayer F) : Prop where
  shape : l'.weights.shape = l.weights.shape
  mode : l'.run_state = l.run_state
  bias : ∀ o, o < l.weights.shape.di.toNat → val l'.bias o 0 0 = val l.bias (σ o) 0 0
  weights : ∀ o i, o < l.weights.shape.di.toNat → i < l.weights.shape.dj.toNat →
    val l'.weights o i 0 = val l.weights (σ o) i 0

/-- input `i` of the second layer is treated as input `σ i` of the first -/
structure ColumnsBy (σ : Nat → Nat) (l l' : FullyConnectedLayer F) : Prop where
  shape : l'.weights.shape = l.weights.shape
  mode : l'.run_state = l.run_state
  bias : l'.bias = l.bias
  weights : ∀ o i, o < l.weights.shape.di.toNat → i < l.weights.shape.dj.toNat →
    val l'.weights o i 0 = val l.weights o (σ i) 0

end Rusty.Spec
