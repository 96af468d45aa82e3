import Verif.Spec.IEEE
import Verif.Spec.Network

/-! # Specification: networks in exact arithmetic, and error bounds that pass from layer to layer -/

namespace Rusty.Spec

open F32

variable [Libm]

/-- What a layer with `f32` parameters computes in exact arithmetic, of real numbers `x i j k`. -/
noncomputable def exactLayer : AnyLayer F32 → (Nat → Nat → Nat → ℝ) → Nat → Nat → Nat → ℝ
  | .conv l, x, i, j, k =>
    match l.kernels[k]?, l.biases[k]? with
    | some kernel, some bias => max 0 ((kernel.shape.indices.map fun p =>
        x (i * l.stride.toNat + p.1) (j * l.stride.toNat + p.2.1) p.2.2 *
          (val kernel p.1 p.2.1 p.2.2).toReal).sum + (val bias 0 0 0).toReal)
    | _, _ => 0
  | .fc l, x, o, _, _ => max 0 (((List.range l.weights.shape.dj.toNat).map fun i =>
      (val l.weights o i 0).toReal * x i 0 0).sum + (val l.bias o 0 0).toReal)
  | .mp l, x, i, j, k => ⨆ p : Fin l.mask_shape.di.toNat × Fin l.mask_shape.dj.toNat,
      x (i * l.stride.toNat + p.1) (j * l.stride.toNat + p.2) k
  | .sm l, x, i, j, k =>
      Real.exp (x i j k) / (l.shape.indices.map fun p => Real.exp (x p.1 p.2.1 p.2.2)).sum

/-- the composition of the layers in exact arithmetic -/
noncomputable def exactNet (ls : List (AnyLayer F32)) (x : Nat → Nat → Nat → ℝ) :
    Nat → Nat → Nat → ℝ :=
  ls.foldl (fun x l => exactLayer l x) x

/-- The entries of `t` are finite and differ from `x` by at most `e`; the numbers `x` are at most `M` in
absolute value. -/
def Near (t : Tensor F32) (x : Nat → Nat → Nat → ℝ) (M e : ℝ) : Prop :=
  ∀ i j k, t.shape.Inside i j k → (val t i j k).isFinite = true ∧
    |(val t i j k).toReal - x i j k| ≤ e ∧ |x i j k| ≤ M

/-- `Accuracy ls M e M' e'`: with exact inputs of at most `M` in absolute value that are known up to
`e`, the layers `ls` stay in range, their exact outputs are at most `M'` in absolute value, and their
`f32` outputs are within `e'` of them.

In a layer of the first two types, `A` bounds the absolute row sums of the weights (the absolute sum of
each kernel), `B` the biases, `n` the number of terms. A softmax layer needs an accurate `exp`
(`ExpAccurate`); nothing is asked of the library when there is none. -/
inductive Accuracy : List (AnyLayer F32) → ℝ → ℝ → ℝ → ℝ → Prop
  | nil (M e) : Accuracy [] M e M e
  | fc (l : FullyConnectedLayer F32) (ls) (A B M e M' e' : ℝ) :
      (∀ o i, o < l.weights.shape.di.toNat → i < l.weights.shape.dj.toNat →
        (val l.weights o i 0).isFinite = true) →
      (∀ o, o < l.weights.shape.di.toNat → (val l.bias o 0 0).isFinite = true ∧
        ((List.range l.weights.shape.dj.toNat).map fun i => |(val l.weights o i 0).toReal|).sum ≤ A ∧
        |(val l.bias o 0 0).toReal| ≤ B) →
      0 ≤ A → 0 ≤ B → l.weights.shape.dj.toNat < 2 ^ 22 → A * (M + e) + B ≤ 2 ^ 125 →
      Accuracy ls (A * M + B) (A * e + ((l.weights.shape.dj.toNat + 2) / 2 ^ 23 *
        (A * (M + e) + B) + (l.weights.shape.dj.toNat + 1) / 2 ^ 149)) M' e' →
      Accuracy (.fc l :: ls) M e M' e'
  | conv (l : ConvolutionalLayer F32) (ls) (n : Nat) (A B M e M' e' : ℝ) :
      (∀ kernel ∈ l.kernels, kernel.shape.count ≤ n ∧
        (∀ i j k, kernel.shape.Inside i j k → (val kernel i j k).isFinite = true) ∧
        (kernel.shape.indices.map fun p => |(val kernel p.1 p.2.1 p.2.2).toReal|).sum ≤ A) →
      (∀ bias ∈ l.biases, (val bias 0 0 0).isFinite = true ∧ |(val bias 0 0 0).toReal| ≤ B) →
      0 ≤ A → 0 ≤ B → n < 2 ^ 22 → A * (M + e) + B ≤ 2 ^ 125 →
      Accuracy ls (A * M + B)
        (A * e + ((n + 2) / 2 ^ 23 * (A * (M + e) + B) + (n + 1) / 2 ^ 149)) M' e' →
      Accuracy (.conv l :: ls) M e M' e'
  | mp (l : MaxPoolLayer) (ls) (M e M' e' : ℝ) : l.mask_shape.di ≠ 0 → l.mask_shape.dj ≠ 0 →
      Accuracy ls M e M' e' → Accuracy (.mp l :: ls) M e M' e'
  | sm (l : SoftmaxLayer F32) (ls) (M e M' e' : ℝ) : ExpAccurate → M + e ≤ 71 → l.shape.count < 2 ^ 22 →
      Accuracy ls 1
        (Real.exp (2 * e) - 1 + ((3 * l.shape.count + 40) / 2 ^ 23 + 1 / 2 ^ 150)) M' e' →
      Accuracy (.sm l :: ls) M e M' e'

end Rusty.Spec
