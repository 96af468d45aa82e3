import Verif.Spec.Pruning

/-! # Specification: two networks side by side in one (C118) -/

namespace Rusty.Spec

open F32

variable [Libm]

/-- the column `t` is the column `t1` followed by the column `t2` -/
structure Joined (t1 t2 t : Tensor F32) : Prop where
  first : t1.shape.dj = 1 ∧ t1.shape.dk = 1
  second : t2.shape.dj = 1 ∧ t2.shape.dk = 1
  column : t.shape.dj = 1 ∧ t.shape.dk = 1
  length : t.shape.di.toNat = t1.shape.di.toNat + t2.shape.di.toNat
  left : ∀ i, i < t1.shape.di.toNat → val t i 0 0 = val t1 i 0 0
  right : ∀ i, i < t2.shape.di.toNat → val t (t1.shape.di.toNat + i) 0 0 = val t2 i 0 0

/-- The units of `l` are those of `l1` followed by those of `l2`.  Both work on the same inputs if `shared`, otherwise
the inputs of `l1` are followed by those of `l2`, and all other weights of `l` are zeros of any sign. -/
structure Beside (shared : Bool) (l1 l2 l : FullyConnectedLayer F32) : Prop where
  units : l.weights.shape.di.toNat = l1.weights.shape.di.toNat + l2.weights.shape.di.toNat
  inputs : if shared then l.weights.shape.dj = l1.weights.shape.dj ∧ l.weights.shape.dj = l2.weights.shape.dj
    else l.weights.shape.dj.toNat = l1.weights.shape.dj.toNat + l2.weights.shape.dj.toNat
  bias1 : ∀ o, o < l1.weights.shape.di.toNat → val l.bias o 0 0 = val l1.bias o 0 0
  bias2 : ∀ o, o < l2.weights.shape.di.toNat →
    val l.bias (l1.weights.shape.di.toNat + o) 0 0 = val l2.bias o 0 0
  weights1 : ∀ o i, o < l1.weights.shape.di.toNat → i < l1.weights.shape.dj.toNat →
    val l.weights o i 0 = val l1.weights o i 0
  weights2 : ∀ o i, o < l2.weights.shape.di.toNat → i < l2.weights.shape.dj.toNat →
    val l.weights (l1.weights.shape.di.toNat + o) (if shared then i else l1.weights.shape.dj.toNat + i) 0 =
      val l2.weights o i 0
  zeros1 : shared = false → ∀ o i, o < l1.weights.shape.di.toNat → i < l2.weights.shape.dj.toNat →
    (val l.weights o (l1.weights.shape.dj.toNat + i) 0).code = 0
  zeros2 : shared = false → ∀ o i, o < l2.weights.shape.di.toNat → i < l1.weights.shape.dj.toNat →
    (val l.weights (l1.weights.shape.di.toNat + o) i 0).code = 0

end Rusty.Spec
