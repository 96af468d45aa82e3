import Verif.Spec.NaNParameter

/-! # Specification: networks of fully connected layers, possibly with a softmax layer at the end -/

namespace Rusty.Spec

open F32

variable [Libm]

/-- The first `N` layers are fully connected and read at least one number each; behind them there is nothing, or a
softmax layer over a column. -/
structure Dense (N : Nat) (n : Net F32) : Prop where
  pos : 0 < N
  fc : ∀ c < N, ∃ l, n.get_layers[c]? = some (.fc l) ∧ 0 < l.weights.shape.dj.toNat
  last : n.get_layers.length = N ∨ n.get_layers.length = N + 1 ∧
    ∃ l, n.get_layers[N]? = some (.sm l) ∧ l.shape.dj = 1 ∧ l.shape.dk = 1

end Rusty.Spec
