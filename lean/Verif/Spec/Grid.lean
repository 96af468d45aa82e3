import Verif.Spec.Accuracy

/-! # Specification: fixed-point numbers in `f32`, and layers that compute with them exactly -/

namespace Rusty.Spec

open F32

variable [Libm]

omit [Libm] in
/-- a finite number with `p` binary places: an integer divided by `2^p` -/
def Grid (p : Nat) (v : F32) : Prop := v.isFinite = true ∧ ∃ z : Int, v.toReal = z / 2 ^ p

omit [Libm] in
/-- The entries of `t` have `p` binary places, are the numbers `x`, and at most `M` in absolute value. -/
def OnGrid (t : Tensor F32) (x : Nat → Nat → Nat → ℝ) (p : Nat) (M : ℝ) : Prop :=
  ∀ i j k, t.shape.Inside i j k → Grid p (val t i j k) ∧ (val t i j k).toReal = x i j k ∧ |x i j k| ≤ M

omit [Libm] in
/-- `Exact ls p M p' M'`: with inputs that have `p` binary places and are at most `M` in absolute value,
no sum in the layers `ls` exceeds `2^24` in the units of its last place, and the outputs have `p'` binary
places and are at most `M'`.

In a layer of the first two types, the weights have `q` binary places and the biases `p + q`; `A` bounds
the absolute row sums of the weights (the absolute sum of each kernel), `B` the biases. -/
inductive Exact : List (AnyLayer F32) → Nat → ℝ → Nat → ℝ → Prop
  | nil (p M) : Exact [] p M p M
  | fc (l : FullyConnectedLayer F32) (ls) (q : Nat) (A B : ℝ) (p : Nat) (M : ℝ) (p' : Nat) (M' : ℝ) :
      (∀ o i, o < l.weights.shape.di.toNat → i < l.weights.shape.dj.toNat →
        Grid q (val l.weights o i 0)) →
      (∀ o, o < l.weights.shape.di.toNat → Grid (p + q) (val l.bias o 0 0) ∧
        ((List.range l.weights.shape.dj.toNat).map fun i => |(val l.weights o i 0).toReal|).sum ≤ A ∧
        |(val l.bias o 0 0).toReal| ≤ B) →
      0 ≤ A → 0 ≤ B → p + q ≤ 149 → A * M + B ≤ 2 ^ 24 / 2 ^ (p + q) →
      Exact ls (p + q) (A * M + B) p' M' → Exact (.fc l :: ls) p M p' M'
  | conv (l : ConvolutionalLayer F32) (ls) (q : Nat) (A B : ℝ) (p : Nat) (M : ℝ) (p' : Nat) (M' : ℝ) :
      (∀ kernel ∈ l.kernels,
        (∀ i j k, kernel.shape.Inside i j k → Grid q (val kernel i j k)) ∧
        (kernel.shape.indices.map fun r => |(val kernel r.1 r.2.1 r.2.2).toReal|).sum ≤ A) →
      (∀ bias ∈ l.biases, Grid (p + q) (val bias 0 0 0) ∧ |(val bias 0 0 0).toReal| ≤ B) →
      0 ≤ A → 0 ≤ B → p + q ≤ 149 → A * M + B ≤ 2 ^ 24 / 2 ^ (p + q) →
      Exact ls (p + q) (A * M + B) p' M' → Exact (.conv l :: ls) p M p' M'
  | mp (l : MaxPoolLayer) (ls) (p : Nat) (M : ℝ) (p' : Nat) (M' : ℝ) : l.mask_shape.di ≠ 0 →
      l.mask_shape.dj ≠ 0 → Exact ls p M p' M' → Exact (.mp l :: ls) p M p' M'

end Rusty.Spec
