import Verif.Spec.Accuracy

/-! # Specification: how far a change of the input can change the exact output of a network -/

namespace Rusty.Spec

open F32

variable [Libm]

/-- `Gain ls d d'`: a change of the inputs of the layers `ls` by at most `d` changes what they compute in exact
arithmetic by at most `d'`.  Layers with weights multiply by the largest absolute row sum (of a kernel: absolute
sum) `A`, max pooling keeps the distance, softmax gives `exp(2d) - 1`. -/
inductive Gain : List (AnyLayer F32) → ℝ → ℝ → Prop
  | nil (d) : Gain [] d d
  | fc (l : FullyConnectedLayer F32) (ls) (A d d' : ℝ) :
      (∀ o, o < l.weights.shape.di.toNat →
        ((List.range l.weights.shape.dj.toNat).map fun i => |(val l.weights o i 0).toReal|).sum ≤ A) → 0 ≤ A →
      Gain ls (A * d) d' → Gain (.fc l :: ls) d d'
  | conv (l : ConvolutionalLayer F32) (ls) (A d d' : ℝ) :
      (∀ kernel ∈ l.kernels,
        (kernel.shape.indices.map fun p => |(val kernel p.1 p.2.1 p.2.2).toReal|).sum ≤ A) → 0 ≤ A →
      Gain ls (A * d) d' → Gain (.conv l :: ls) d d'
  | mp (l : MaxPoolLayer) (ls) (d d' : ℝ) : l.mask_shape.di ≠ 0 → l.mask_shape.dj ≠ 0 →
      Gain ls d d' → Gain (.mp l :: ls) d d'
  | sm (l : SoftmaxLayer F32) (ls) (d d' : ℝ) :
      Gain ls (Real.exp (2 * d) - 1) d' → Gain (.sm l :: ls) d d'

/-- the entries of the two tensors are finite, at most `M` in absolute value and differ by at most `d` -/
def NearBy (t u : Tensor F32) (M d : ℝ) : Prop :=
  ∀ i j k, t.shape.Inside i j k → ((val t i j k).isFinite = true ∧ |(val t i j k).toReal| ≤ M) ∧
    ((val u i j k).isFinite = true ∧ |(val u i j k).toReal| ≤ M) ∧
    |(val t i j k).toReal - (val u i j k).toReal| ≤ d

end Rusty.Spec
