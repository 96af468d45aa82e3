import Verif.Spec.Robust

/-! # Specification: how far a change of the parameters can change the exact output of a network (C126) -/

namespace Rusty.Spec

open F32

variable [Libm]

/-- `Drift ls ls' M d M' d'`: the layers `ls'` have other parameters than the layers `ls`.  If the inputs of `ls` are
at most `M` in absolute value and those of `ls'` differ from them by at most `d`, then what `ls` compute in exact
arithmetic is at most `M'` in absolute value, and what `ls'` compute differs from it by at most `d'`.

In layers with weights, `A` bounds the absolute row sums of the weights (of a kernel: the absolute sum) of the first
layer and `B` its biases; `δ` bounds the same sums for the differences of the weights, and `η` the differences of the
biases.  Max-pool layers have the same mask and stride, softmax layers the same shape. -/
inductive Drift : List (AnyLayer F32) → List (AnyLayer F32) → ℝ → ℝ → ℝ → ℝ → Prop
  | nil (M d) : Drift [] [] M d M d
  | fc (l l' : FullyConnectedLayer F32) (ls ls') (A B δ η M d M' d' : ℝ) :
      l'.weights.shape = l.weights.shape →
      (∀ o, o < l.weights.shape.di.toNat →
        ((List.range l.weights.shape.dj.toNat).map fun i => |(val l.weights o i 0).toReal|).sum ≤ A ∧
        |(val l.bias o 0 0).toReal| ≤ B ∧
        ((List.range l.weights.shape.dj.toNat).map fun i =>
          |(val l'.weights o i 0).toReal - (val l.weights o i 0).toReal|).sum ≤ δ ∧
        |(val l'.bias o 0 0).toReal - (val l.bias o 0 0).toReal| ≤ η) →
      0 ≤ A → 0 ≤ B → 0 ≤ δ → 0 ≤ η →
      Drift ls ls' (A * M + B) ((A + δ) * d + δ * M + η) M' d' → Drift (.fc l :: ls) (.fc l' :: ls') M d M' d'
  | conv (l l' : ConvolutionalLayer F32) (ls ls') (A B δ η M d M' d' : ℝ) :
      l'.stride = l.stride → l'.kernels.length = l.kernels.length →
      (∀ (c : Nat) kernel kernel', l.kernels[c]? = some kernel → l'.kernels[c]? = some kernel' →
        kernel'.shape = kernel.shape ∧
        (kernel.shape.indices.map fun p => |(val kernel p.1 p.2.1 p.2.2).toReal|).sum ≤ A ∧
        (kernel.shape.indices.map fun p =>
          |(val kernel' p.1 p.2.1 p.2.2).toReal - (val kernel p.1 p.2.1 p.2.2).toReal|).sum ≤ δ) →
      (∀ (c : Nat) bias bias', l.biases[c]? = some bias → l'.biases[c]? = some bias' →
        |(val bias 0 0 0).toReal| ≤ B ∧ |(val bias' 0 0 0).toReal - (val bias 0 0 0).toReal| ≤ η) →
      0 ≤ A → 0 ≤ B → 0 ≤ δ → 0 ≤ η →
      Drift ls ls' (A * M + B) ((A + δ) * d + δ * M + η) M' d' → Drift (.conv l :: ls) (.conv l' :: ls') M d M' d'
  | mp (l l' : MaxPoolLayer) (ls ls') (M d M' d' : ℝ) : l.mask_shape.di ≠ 0 → l.mask_shape.dj ≠ 0 →
      l'.mask_shape = l.mask_shape → l'.stride = l.stride →
      Drift ls ls' M d M' d' → Drift (.mp l :: ls) (.mp l' :: ls') M d M' d'
  | sm (l l' : SoftmaxLayer F32) (ls ls') (M d M' d' : ℝ) : l'.shape = l.shape →
      Drift ls ls' 1 (Real.exp (2 * d) - 1) M' d' → Drift (.sm l :: ls) (.sm l' :: ls') M d M' d'

end Rusty.Spec
