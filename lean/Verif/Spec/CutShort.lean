import Verif.Model.UnwindRun

/-! # Tensors whose data end early, and what an operation that meets such a tensor may leave (C133) -/

namespace Rusty.Spec

variable {F : Type}

/-- `Cut t t'`: `t` is the tensor `t'` without some of its last data.  Reading from a file makes such tensors: the
number of data is not compared with the shape. -/
def Cut (t t' : Tensor F) : Prop :=
  t.shape = t'.shape ∧ t.strides = t'.strides ∧ ∃ n, t.data = t'.data.take n

/-- `AsFull r out full`: an operation that writes to `r` has the outcome `full`, or it panics and leaves in `r` the first
`m` data of `full`, for some `m`, and behind them what was in `r` before. -/
def AsFull {α : Type} (r : Tensor F) (out full : Except PanicKind α × Tensor F) : Prop :=
  out = full ∨ ∃ p m, out = (.error p, { r with data := full.2.data.take m ++ r.data.drop m })

end Rusty.Spec
