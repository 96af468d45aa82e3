import Verif.Spec.Network

/-! # Specification: training on several examples (C91) -/

namespace Rusty.Spec

open F32Ops

variable {F : Type} [F32Ops F]

/-- a training example: the input and the gradient of the loss by the output -/
structure Example (F : Type) where
  x : Tensor F
  g : Tensor F

/-- the tensors of an example are well formed and have the shapes the network asks for -/
structure Example.Fits (e : Example F) (n : Net F) : Prop where
  x : e.x.WF ∧ e.x.shape = n.get_input_shape
  g : e.g.WF ∧ e.g.shape = n.get_output_shape

/-- The client calls `infer` and `backward` once per example; all calls return `Ok` and the last network is the one
afterwards. -/
inductive Batch (b : Build) : Net F → List (Example F) → Net F → Prop
  | done (n) : Batch b n [] n
  | step (n n1 n2 n' e es) : n.infer b e.x = .ok (.ok (), n1) → n1.backward b e.g = .ok (.ok (), n2) →
      Batch b n2 es n' → Batch b n (e :: es) n'

end Rusty.Spec
