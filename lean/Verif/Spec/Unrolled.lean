import Verif.Spec.AnyLayer
import Verif.Model.IEEE

/-! # Specification: convolutional layers written out as fully connected layers (C124) -/

namespace Rusty.Spec

open F32

variable [Libm]

/-- The window of width `w` that starts at `s * i` contains `a`. -/
def covers (s w i a : Nat) : Prop := i * s ≤ a ∧ a < i * s + w

/-- The inputs of `f` are the entries of the image of `l` and its units the outputs of `l`, both in storage order. The
weights from the entries under the window of an output are those of its kernel, all others are zeros of any sign. -/
structure Unrolled (l : ConvolutionalLayer F32) (f : FullyConnectedLayer F32) : Prop where
  inputs : f.weights.shape.dj.toNat = l.input_shape.count
  units : f.weights.shape.di.toNat = l.output_shape.count
  bias : ∀ i j k c, l.output_shape.Inside i j k → l.biases[k]? = some c →
    val f.bias (pos l.output_shape i j k) 0 0 = val c 0 0 0
  under : ∀ i j k t, l.output_shape.Inside i j k → l.kernels[k]? = some t → ∀ p q r, t.shape.Inside p q r →
    val f.weights (pos l.output_shape i j k)
      (pos l.input_shape (i * l.stride.toNat + p) (j * l.stride.toNat + q) r) 0 = val t p q r
  zeros : ∀ i j k t, l.output_shape.Inside i j k → l.kernels[k]? = some t →
    ∀ p q r, l.input_shape.Inside p q r →
      ¬ (covers l.stride.toNat t.shape.di.toNat i p ∧ covers l.stride.toNat t.shape.dj.toNat j q) →
      (val f.weights (pos l.output_shape i j k) (pos l.input_shape p q r) 0).code = 0

/-- the column `u` holds the entries of `t` in storage order -/
structure Flat (t u : Tensor F32) : Prop where
  column : u.shape.dj = 1 ∧ u.shape.dk = 1
  length : u.shape.di.toNat = t.shape.count
  data : u.data = t.data

/-- `l'` is `l` for columns: a convolutional layer is unrolled, a fully connected layer has the same weights and biases,
and a softmax layer as many entries. -/
inductive Flattened : AnyLayer F32 → AnyLayer F32 → Prop
  | conv (l f) : Unrolled l f → Flattened (.conv l) (.fc f)
  | fc (l f : FullyConnectedLayer F32) : f.weights = l.weights → f.bias = l.bias → Flattened (.fc l) (.fc f)
  | sm (l f : SoftmaxLayer F32) : f.shape.di.toNat = l.shape.count → f.shape.dj = 1 → f.shape.dk = 1 →
      Flattened (.sm l) (.sm f)

end Rusty.Spec
