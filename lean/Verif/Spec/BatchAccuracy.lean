import Verif.Spec.Batch
import Verif.Spec.RealGradient
import Verif.Spec.CrossEntropy

/-! # Specification: labelled examples for the cross entropy in `f32` (C127) -/

namespace Rusty.Spec

open F32Ops F32

/-- backpropagation of the cross entropy of class `c`, with `m` classes: the gradient for the weight from input `i`
to output `o` in layer `k` -/
noncomputable def lossWeightGrad (m : Nat) (ls : List RealLayer) (x : Nat → ℝ) (c k o i : Nat) : ℝ :=
  realWeightGrad ls x (fun j => softmaxOf m (realNet ls x) j - oneHot c j) k o i

/-- backpropagation of the cross entropy of class `c`, with `m` classes: the gradient for the bias of output `o` in
layer `k` -/
noncomputable def lossBiasGrad (m : Nat) (ls : List RealLayer) (x : Nat → ℝ) (c k o : Nat) : ℝ :=
  realBiasGrad ls x (fun j => softmaxOf m (realNet ls x) j - oneHot c j) k o

variable [Libm]

/-- a labelled example: the tensors passed to the program, the exact numbers the input stands for, and the right
class -/
structure Labelled where
  ex : Example F32
  ξ : Nat → ℝ
  class_ : Nat

/-- The example is ready for a classifier `n` with the fully connected layers `fs`: its tensors fit, its input is
within `e` of the exact numbers, which are at most `M`, the errors of the gradients are bounded by `bs`, and its
gradient is the one of the cross entropy, `-1 / p_c` at the right class `c`, computed in `f32` from the output of
`infer`, and zero elsewhere. -/
structure Labelled.Ready (s : Labelled) (b : Build) (n : Net F32) (fs : List (FullyConnectedLayer F32))
    (M e e' G' d' : ℝ) (bs : List (ℝ × ℝ)) : Prop where
  fits : s.ex.Fits n
  near : Near s.ex.x (fun i _ _ => s.ξ i) M e
  bounds : GradBounds 1 (Real.exp (2 * e') - 1 + (4 * n.get_output_shape.di.toNat + 54) / 2 ^ 23)
    (fs.map realLayer) s.ξ M e G' d' bs
  label : s.class_ < n.get_output_shape.di.toNat
  gradient : ∀ n1 p, n.infer b s.ex.x = .ok (.ok (), n1) → n1.get_output = .ok p →
    1 / 2 ^ 126 ≤ (val p s.class_ 0 0).toReal ∧ ∀ o < n.get_output_shape.di.toNat,
      val s.ex.g o 0 0 = if o = s.class_ then F32.div negOne (val p s.class_ 0 0) else zero

end Rusty.Spec
