import Verif.Spec.AnyLayer

/-! # Specification: the same unit in two layers -/

namespace Rusty.Spec

variable {F : Type} [F32Ops F]

/-- unit `o'` of `l'` has the weights and the bias of unit `o` of `l`; the layers may differ in all other units
and in how many there are -/
structure SameUnit (l : FullyConnectedLayer F) (o : Nat) (l' : FullyConnectedLayer F) (o' : Nat) : Prop where
  inside : o < l.weights.shape.di.toNat
  inside' : o' < l'.weights.shape.di.toNat
  inputs : l'.weights.shape.dj = l.weights.shape.dj
  bias : val l'.bias o' 0 0 = val l.bias o 0 0
  weights : ∀ i, i < l.weights.shape.dj.toNat → val l'.weights o' i 0 = val l.weights o i 0

/-- kernel and bias `c'` of `l'` are kernel and bias `c` of `l`, and both slide over the same images with the same
stride; the layers may differ in all other kernels and in how many there are -/
structure SameChannel (l : ConvolutionalLayer F) (c : Nat) (l' : ConvolutionalLayer F) (c' : Nat) : Prop where
  inside : c < l.kernels.length
  inside' : c' < l'.kernels.length
  input : l'.input_shape = l.input_shape
  stride : l'.stride = l.stride
  kernel : l'.kernels[c']? = l.kernels[c]?
  bias : ∀ t t', l.biases[c]? = some t → l'.biases[c']? = some t' → val t' 0 0 0 = val t 0 0 0

end Rusty.Spec
