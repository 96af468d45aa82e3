import Verif.Spec.Accuracy
import Verif.Spec.Renumber

/-! # Specification: images and layers with renumbered channels (C157) -/

namespace Rusty.Spec

/-- channel `k` of `x'` is channel `π k` of `x`; `s` is the shape of both -/
def SameChannels {α : Type} (π : Nat → Nat) (s : TensorShape) (x x' : Nat → Nat → Nat → α) : Prop :=
  ∀ i j k, s.Inside i j k → x' i j k = x i j (π k)

/-- `l'` is `l` for inputs whose channels are renumbered by `π`, with outputs whose channels are renumbered by `τ`.  A
convolutional layer has its kernels and biases renumbered by `τ` and the channels of the kernels by `π`; the other layers
leave the channels where they are.  Fully connected layers have no channels. -/
def ChannelsLayer {F : Type} [F32Ops F] (π τ : Nat → Nat) : AnyLayer F → AnyLayer F → Prop
  | .conv l, .conv l' => l'.input_shape = l.input_shape ∧ l'.output_shape = l.output_shape ∧ l'.stride = l.stride ∧
      l'.kernels.length = l.kernels.length ∧ l'.biases.length = l.biases.length ∧
      Renumbers l.input_shape.dk.toNat π ∧ Renumbers l.output_shape.dk.toNat τ ∧
      ∀ o K K' B B', l.kernels[τ o]? = some K → l'.kernels[o]? = some K' → l.biases[τ o]? = some B →
        l'.biases[o]? = some B' → K'.shape = K.shape ∧ SameChannels π K.shape (val K) (val K') ∧ B' = B
  | .mp l, .mp l' => l'.input_shape = l.input_shape ∧ l'.output_shape = l.output_shape ∧
      l'.mask_shape = l.mask_shape ∧ l'.stride = l.stride ∧ τ = π
  | .sm l, .sm l' => l'.shape = l.shape ∧ Renumbers l.shape.dk.toNat π ∧ τ = π
  | _, _ => False

/-- the same for all layers, with any numbering between the layers -/
inductive ChannelsLayers {F : Type} [F32Ops F] :
    (Nat → Nat) → (Nat → Nat) → List (AnyLayer F) → List (AnyLayer F) → Prop
  | nil (π) : ChannelsLayers π π [] []
  | cons (π τ υ l l' ls ls') : ChannelsLayer π τ l l' → ChannelsLayers τ υ ls ls' →
      ChannelsLayers π υ (l :: ls) (l' :: ls')

end Rusty.Spec
