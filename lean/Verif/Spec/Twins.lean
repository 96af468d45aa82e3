import Verif.Spec.Batch

/-! # Specification: units with equal parameters (C114) -/

namespace Rusty.Spec

variable {F : Type} [F32Ops F]

/-- units `u` and `v` of `l` have the same weights and bias, and `m`, the next layer, weights them in the same way -/
structure Twins (l m : FullyConnectedLayer F) (u v : Nat) : Prop where
  left : u < l.weights.shape.di.toNat
  right : v < l.weights.shape.di.toNat
  bias : val l.bias u 0 0 = val l.bias v 0 0
  row : ∀ i, i < l.weights.shape.dj.toNat → val l.weights u i 0 = val l.weights v i 0
  column : ∀ o, o < m.weights.shape.di.toNat → val m.weights o u 0 = val m.weights o v 0

/-- the gradients recorded so far for the parameters of units `u` and `v` of `l` are the same -/
structure TwinGradients (l m : FullyConnectedLayer F) (u v : Nat) : Prop where
  bias : val l.bias_gradients u 0 0 = val l.bias_gradients v 0 0
  row : ∀ i, i < l.weights.shape.dj.toNat → val l.weights_gradients u i 0 = val l.weights_gradients v i 0
  column : ∀ o, o < m.weights.shape.di.toNat → val m.weights_gradients o u 0 = val m.weights_gradients o v 0

end Rusty.Spec
