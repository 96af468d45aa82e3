import Verif.Spec.Layers

/-!
# Specification of calling `backward` several times after one `forward`
-/

namespace Rusty.Spec

open F32Ops

variable {F : Type} [F32Ops F]

/-- the arguments of one `backward` besides the input: the output, the gradient and the tensor to overwrite -/
structure BackCall (F : Type) where
  y : Tensor F
  g : Tensor F
  og : Tensor F

/-- the tensors of a call have the shapes the fully connected layer asks for -/
structure BackCall.FitsFC (c : BackCall F) (l : FullyConnectedLayer F) : Prop where
  g : c.g.WF ∧ c.g.shape = l.get_output_shape
  og : c.og.WF ∧ c.og.shape = l.get_input_shape

/-- The client calls `backward` once per element of the list, with the input `x`, and `forward` not at all; all
calls return `Ok`, give the listed outgoing gradients and leave the layer `l'`. -/
inductive BackCalls (b : Build) (x : Tensor F) :
    FullyConnectedLayer F → List (BackCall F) → List (Tensor F) → FullyConnectedLayer F → Prop
  | done (l) : BackCalls b x l [] [] l
  | call (l l1 l') (c : BackCall F) (cs) (og ogs) :
      l.backward b x c.y c.g c.og = .ok (.ok (), l1, og) →
      BackCalls b x l1 cs ogs l' → BackCalls b x l (c :: cs) (og :: ogs) l'

/-- what arrives behind the relu of output `o` in call number `n`: the stored mask times the gradients of all
calls up to that one -/
def arrives (l : FullyConnectedLayer F) (cs : List (BackCall F)) (n o : Nat) : F :=
  (cs.take (n + 1)).foldl (fun m c => mul m (val c.g o 0 0)) (val l.relu_mask o 0 0)

end Rusty.Spec
