import Verif.Spec.CutShort
import Verif.Model.Network
import Mathlib.Data.List.Forall2

/-! # Networks whose parameters are incomplete -/

namespace Rusty.Spec

open Rusty

variable {F : Type}

/-- `l` is `l'`, except that tensors among its parameters may lack data, and a convolutional layer biases, at the
end -/
inductive CutLayer : AnyLayer F → AnyLayer F → Prop
  | conv (l : ConvolutionalLayer F) (ks bs : List (Tensor F)) (n : Nat) : List.Forall₂ Cut l.kernels ks →
      List.Forall₂ Cut l.biases (bs.take n) → CutLayer (.conv l) (.conv { l with kernels := ks, biases := bs })
  | fc (l : FullyConnectedLayer F) (w v : Tensor F) : Cut l.weights w → Cut l.bias v →
      CutLayer (.fc l) (.fc { l with weights := w, bias := v })
  | mp (l : MaxPoolLayer) : CutLayer (.mp l) (.mp l)
  | sm (l : SoftmaxLayer F) : CutLayer (.sm l) (.sm l)

/-- two fully connected layers have the same bias -/
def SameBias : AnyLayer F → AnyLayer F → Prop
  | .fc l, .fc l' => l.bias = l'.bias
  | _, _ => True

/-- `n` is `n'`, except that parameters may lack data; but not biases of fully connected layers in training mode -/
def CutNet (n n' : Network F (AnyLayer F)) : Prop :=
  List.Forall₂ (fun l l' => CutLayer l l' ∧ (l.get_run_mode = .Training → SameBias l l')) n.layers n'.layers ∧
    n' = { n with layers := n'.layers }

end Rusty.Spec
