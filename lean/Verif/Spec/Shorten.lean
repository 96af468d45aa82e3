import Verif.Spec.Drift

/-! # Specification: parameters in a shorter format (C131) -/

namespace Rusty.Spec

open F32

variable [Libm]

/-- The float whose lowest `k` bits are set to zero.  With `k = 16` this is the truncation to the format bfloat16. -/
def shorten (k : Nat) (x : F32) : F32 := ⟨UInt32.ofNat (x.bits.toNat / 2 ^ k * 2 ^ k)⟩

/-- `t'` has the shape of `t`, and its entries are those of `t`, shortened. -/
def ShortTensor (k : Nat) (t t' : Tensor F32) : Prop :=
  t'.shape = t.shape ∧ ∀ i j m, t.shape.Inside i j m → val t' i j m = shorten k (val t i j m)

/-- The layer with shortened parameters. -/
def ShortLayer (k : Nat) : AnyLayer F32 → AnyLayer F32 → Prop
  | .fc l, .fc l' => ShortTensor k l.weights l'.weights ∧ ShortTensor k l.bias l'.bias
  | .conv l, .conv l' => l'.stride = l.stride ∧ List.Forall₂ (ShortTensor k) l.kernels l'.kernels ∧
      List.Forall₂ (ShortTensor k) l.biases l'.biases
  | .mp l, .mp l' => l'.mask_shape = l.mask_shape ∧ l'.stride = l.stride
  | .sm l, .sm l' => l'.shape = l.shape
  | _, _ => False

/-- how far the sum of the absolute values of `n` numbers can be from the sum for the shortened numbers, if it is `A` -/
noncomputable def shortError (k n : Nat) (A : ℝ) : ℝ := 2 ^ k / 2 ^ 23 * A + n * (2 ^ k / 2 ^ 149)

/-- `ShortDrift k ls M d M' d'`: if the inputs of `ls` are at most `M` in absolute value and differ from the inputs of
the shortened layers by at most `d`, then the outputs are at most `M'` and differ by at most `d'`, in exact
arithmetic.  As before, `A` bounds the absolute row sums of the weights, `B` the biases, `n` the number of terms. -/
inductive ShortDrift (k : Nat) : List (AnyLayer F32) → ℝ → ℝ → ℝ → ℝ → Prop
  | nil (M d) : ShortDrift k [] M d M d
  | fc (l : FullyConnectedLayer F32) (ls) (A B M d M' d' : ℝ) :
      (∀ o, o < l.weights.shape.di.toNat →
        ((List.range l.weights.shape.dj.toNat).map fun i => |(val l.weights o i 0).toReal|).sum ≤ A ∧
        |(val l.bias o 0 0).toReal| ≤ B) →
      0 ≤ A → 0 ≤ B →
      ShortDrift k ls (A * M + B) ((A + shortError k l.weights.shape.dj.toNat A) * d +
        shortError k l.weights.shape.dj.toNat A * M + shortError k 1 B) M' d' →
      ShortDrift k (.fc l :: ls) M d M' d'
  | conv (l : ConvolutionalLayer F32) (ls) (n : Nat) (A B M d M' d' : ℝ) :
      (∀ kernel ∈ l.kernels, kernel.shape.count ≤ n ∧
        (kernel.shape.indices.map fun p => |(val kernel p.1 p.2.1 p.2.2).toReal|).sum ≤ A) →
      (∀ bias ∈ l.biases, |(val bias 0 0 0).toReal| ≤ B) →
      0 ≤ A → 0 ≤ B →
      ShortDrift k ls (A * M + B) ((A + shortError k n A) * d + shortError k n A * M + shortError k 1 B) M' d' →
      ShortDrift k (.conv l :: ls) M d M' d'
  | mp (l : MaxPoolLayer) (ls) (M d M' d' : ℝ) : l.mask_shape.di ≠ 0 → l.mask_shape.dj ≠ 0 →
      ShortDrift k ls M d M' d' → ShortDrift k (.mp l :: ls) M d M' d'
  | sm (l : SoftmaxLayer F32) (ls) (M d M' d' : ℝ) :
      ShortDrift k ls 1 (Real.exp (2 * d) - 1) M' d' → ShortDrift k (.sm l :: ls) M d M' d'

end Rusty.Spec
