import Verif.Spec.Accuracy
import Mathlib.Algebra.BigOperators.Group.Finset.Basic

/-! # Specification: networks of fully connected relu layers over the real numbers, their gradients, and
error bounds for the gradients in `f32` (C89)

Nothing in the first part refers to the program: layers are matrices, vectors are functions. -/

namespace Rusty.Spec

open F32

/-- a fully connected relu layer: a matrix and a bias -/
structure RealLayer where
  rows : Nat
  cols : Nat
  weight : Nat → Nat → ℝ
  bias : Nat → ℝ

namespace RealLayer

/-- `Wx + b` -/
noncomputable def pre (l : RealLayer) (x : Nat → ℝ) (o : Nat) : ℝ :=
  (∑ i ∈ Finset.range l.cols, l.weight o i * x i) + l.bias o

/-- `max(0, Wx + b)` -/
noncomputable def out (l : RealLayer) (x : Nat → ℝ) (o : Nat) : ℝ := max 0 (l.pre x o)

/-- the part of a gradient that passes the relu -/
noncomputable def through (l : RealLayer) (x g : Nat → ℝ) (o : Nat) : ℝ := if 0 < l.pre x o then g o else 0

/-- the layer with another weight from input `i` to output `o` -/
noncomputable def withWeight (l : RealLayer) (o i : Nat) (t : ℝ) : RealLayer :=
  { l with weight := fun o' i' => if o' = o ∧ i' = i then t else l.weight o' i' }

/-- the layer with another bias for output `o` -/
noncomputable def withBias (l : RealLayer) (o : Nat) (t : ℝ) : RealLayer :=
  { l with bias := fun o' => if o' = o then t else l.bias o' }

end RealLayer

/-- the function computed by a list of layers -/
noncomputable def realNet : List RealLayer → (Nat → ℝ) → Nat → ℝ
  | [], x => x
  | l :: ls, x => realNet ls (l.out x)

/-- the layers fit together: `n` inputs, `m` outputs -/
inductive Dims : Nat → List RealLayer → Nat → Prop
  | nil (n : Nat) : Dims n [] n
  | cons (l : RealLayer) (ls : List RealLayer) (m : Nat) : Dims l.rows ls m → Dims l.cols (l :: ls) m

/-- no relu is at its kink -/
def NoKink : List RealLayer → (Nat → ℝ) → Prop
  | [], _ => True
  | l :: ls, x => (∀ o < l.rows, l.pre x o ≠ 0) ∧ NoKink ls (l.out x)

/-- backpropagation: the gradient at the input of the layers, `g` being the gradient at their output -/
noncomputable def realBack : List RealLayer → (Nat → ℝ) → (Nat → ℝ) → Nat → ℝ
  | [], _, g => g
  | l :: ls, x, g => fun i =>
    ∑ o ∈ Finset.range l.rows, l.weight o i * l.through x (realBack ls (l.out x) g) o

/-- backpropagation: the gradient for the bias of output `o` in layer `c` -/
noncomputable def realBiasGrad : List RealLayer → (Nat → ℝ) → (Nat → ℝ) → Nat → Nat → ℝ
  | [], _, _, _, _ => 0
  | l :: ls, x, g, 0, o => l.through x (realBack ls (l.out x) g) o
  | l :: ls, x, g, c + 1, o => realBiasGrad ls (l.out x) g c o

/-- backpropagation: the gradient for the weight from input `i` to output `o` in layer `c` -/
noncomputable def realWeightGrad : List RealLayer → (Nat → ℝ) → (Nat → ℝ) → Nat → Nat → Nat → ℝ
  | [], _, _, _, _, _ => 0
  | l :: ls, x, g, 0, o, i => l.through x (realBack ls (l.out x) g) o * x i
  | l :: ls, x, g, c + 1, o, i => realWeightGrad ls (l.out x) g c o i

/-! ## Error bounds in `f32` -/

/-- bound on the error of the outputs of a layer with `n` inputs: `A` bounds the absolute row sums, `B` the
biases, `M` the exact inputs and `e` their errors -/
noncomputable def outError (n : Nat) (A B M e : ℝ) : ℝ :=
  A * e + ((n + 2) / 2 ^ 23 * (A * (M + e) + B) + (n + 1) / 2 ^ 149)

/-- `GradBounds G d ls x M e G' d' bs`: with exact inputs `x` of at most `M` in absolute value that are known up
to `e`, and gradients at the output of at most `G` that are known up to `d`, the layers `ls` stay in range, every
relu is decided with a margin above its error, the exact gradients at the input are at most `G'`, the ones in
`f32` within `d'` of them, and `bs` bounds, layer by layer, the errors of the recorded weight gradients and bias
gradients.  `C` bounds the absolute column sums of the weights. -/
inductive GradBounds (G d : ℝ) : List RealLayer → (Nat → ℝ) → ℝ → ℝ → ℝ → ℝ → List (ℝ × ℝ) → Prop
  | nil (x : Nat → ℝ) (M e : ℝ) : GradBounds G d [] x M e G d []
  | cons (l : RealLayer) (ls : List RealLayer) (x : Nat → ℝ) (M e A B C G1 d1 : ℝ) (bs : List (ℝ × ℝ))
      (rows : ∀ o < l.rows, (∑ i ∈ Finset.range l.cols, |l.weight o i|) ≤ A ∧ |l.bias o| ≤ B)
      (cols : ∀ i < l.cols, (∑ o ∈ Finset.range l.rows, |l.weight o i|) ≤ C)
      (size : l.rows < 2 ^ 22 ∧ l.cols < 2 ^ 22)
      (pos : 0 ≤ A ∧ 0 ≤ B ∧ 0 ≤ C)
      (forward : A * (M + e) + B ≤ 2 ^ 125)
      (backward : C * (G1 + d1) ≤ 2 ^ 125)
      (record : (G1 + d1) * (M + e) ≤ 2 ^ 125 ∧ G1 + d1 ≤ 2 ^ 125)
      (margin : ∀ o < l.rows, outError l.cols A B M e < |l.pre x o|)
      (rest : GradBounds G d ls (l.out x) (A * M + B) (outError l.cols A B M e) G1 d1 bs) :
      GradBounds G d (l :: ls) x M e (C * G1)
        (C * d1 + ((l.rows + 1) / 2 ^ 23 * (C * (G1 + d1)) + l.rows / 2 ^ 149))
        ((d1 * (M + e) + G1 * e + ((G1 + d1) * (M + e) / 2 ^ 21 + 1 / 2 ^ 148), d1 + (G1 + d1) / 2 ^ 24) :: bs)

/-- the exact layer with the parameters of a layer of the program -/
noncomputable def realLayer [Libm] (l : FullyConnectedLayer F32) : RealLayer :=
  ⟨l.weights.shape.di.toNat, l.weights.shape.dj.toNat, fun o i => (val l.weights o i 0).toReal,
    fun o => (val l.bias o 0 0).toReal⟩

end Rusty.Spec
