import Verif.Spec.Accuracy

/-! # Specification: several copies of a unit instead of one (C119) -/

namespace Rusty.Spec

open F32

variable [Libm]

/-- Unit `c` of the layer `l1'` is a copy of unit `f c` of `l1`.  The next layer, `l2'` instead of `l2`, weights the
copies of a unit so that their weights sum up, in exact arithmetic, to the weight of that unit. -/
structure Copies (f : Nat → Nat) (l1 l2 l1' l2' : FullyConnectedLayer F32) : Prop where
  range : ∀ c, c < l1'.weights.shape.di.toNat → f c < l1.weights.shape.di.toNat
  inputs : l1'.weights.shape.dj = l1.weights.shape.dj
  outputs : l2'.weights.shape.di = l2.weights.shape.di
  bias : ∀ c, c < l1'.weights.shape.di.toNat → (val l1'.bias c 0 0).toReal = (val l1.bias (f c) 0 0).toReal
  row : ∀ c i, c < l1'.weights.shape.di.toNat → i < l1.weights.shape.dj.toNat →
    (val l1'.weights c i 0).toReal = (val l1.weights (f c) i 0).toReal
  last : ∀ o, o < l2.weights.shape.di.toNat → (val l2'.bias o 0 0).toReal = (val l2.bias o 0 0).toReal
  shares : ∀ o u, o < l2.weights.shape.di.toNat → u < l1.weights.shape.di.toNat →
    ∑ c ∈ (Finset.range l1'.weights.shape.di.toNat).filter fun c => f c = u, (val l2'.weights o c 0).toReal =
      (val l2.weights o u 0).toReal

end Rusty.Spec
