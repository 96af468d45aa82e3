import Verif.Spec.Layers

/-!
# Convolutional and fully connected layers with the same weights
-/

namespace Rusty.Spec

open F32Ops

variable {F : Type} [F32Ops F]

/-- the entries of `x` under the window of shape `s` at output position `(i, j)`, in storage order -/
def windowOf (x : Tensor F) (s : TensorShape) (stride i j : Nat) : List F :=
  s.indices.map fun (a, b, c) => val x (i * stride + a) (j * stride + b) c

/-- row `o` of the weights of `f` holds the entries of kernel `o` of `l` in storage order, and the biases are
the same -/
structure SameWeights (l : ConvolutionalLayer F) (f : FullyConnectedLayer F) : Prop where
  rows : f.weights.shape.di.toNat = l.kernels.length
  weights : ∀ o k, l.kernels[o]? = some k →
    (List.range f.weights.shape.dj.toNat).map (fun p => val f.weights o p 0) = k.data
  biases : ∀ o c, l.biases[o]? = some c → val f.bias o 0 0 = val c 0 0 0

end Rusty.Spec
