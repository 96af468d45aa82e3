import Verif.Spec.Network
import Verif.Model.IEEE

/-! # Units that parameters switch off -/

namespace Rusty.Spec

open Rusty F32

variable [Libm]

/-- unit `o` has NaN among its weights or as its bias -/
def NaNUnit (l : FullyConnectedLayer F32) (o : Nat) : Prop :=
  (∃ i, i < l.weights.shape.dj.toNat ∧ (val l.weights o i 0).isNaN = true) ∨ (val l.bias o 0 0).isNaN = true

/-- the weights and the bias of unit `o` are zero -/
def ZeroUnit (l : FullyConnectedLayer F32) (o : Nat) : Prop :=
  (∀ i, i < l.weights.shape.dj.toNat → (val l.weights o i 0).code = 0) ∧ (val l.bias o 0 0).code = 0

/-- unit `o` has the same weights and the same bias in both layers -/
def EqualUnit (l l' : FullyConnectedLayer F32) (o : Nat) : Prop :=
  (∀ i, i < l.weights.shape.dj.toNat → val l'.weights o i 0 = val l.weights o i 0) ∧
    val l'.bias o 0 0 = val l.bias o 0 0

/-- kernel `k` contains NaN or its bias is NaN -/
def NaNChannel (l : ConvolutionalLayer F32) (k : Nat) : Prop :=
  (∃ kernel ki kj kk, l.kernels[k]? = some kernel ∧ kernel.shape.Inside ki kj kk ∧
    (val kernel ki kj kk).isNaN = true) ∨ ∃ bias, l.biases[k]? = some bias ∧ (val bias 0 0 0).isNaN = true

/-- the gradients of all weights and of the bias of unit `o` are NaN -/
def NaNGradients (b : Build) (l : FullyConnectedLayer F32) (o : Nat) : Prop :=
  (∃ v, l.bias_gradients.get_item b (ix o 0 0) = .ok v ∧ v.isNaN = true) ∧
    ∀ i, i < l.weights.shape.dj.toNat → ∃ v, l.weights_gradients.get_item b (ix o i 0) = .ok v ∧ v.isNaN = true

end Rusty.Spec
