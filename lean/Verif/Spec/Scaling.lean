import Verif.Spec.Grid
import Verif.Spec.Monotone

/-! # Specification: tensors that are multiples of others by a power of two, and layers without biases
whose products do not underflow and whose sums do not overflow -/

namespace Rusty.Spec

open F32

variable [Libm]

/-- The entries of both are finite, and those of `t'` are `2^k` times those of `t`. -/
def ScaledBy (k : Nat) (t t' : Tensor F32) : Prop :=
  t'.shape = t.shape ∧ ∀ a c d, t.shape.Inside a c d → (val t a c d).isFinite = true ∧
    (val t' a c d).isFinite = true ∧ (val t' a c d).toReal = 2 ^ k * (val t a c d).toReal

/-- not below the least normal `f32`, or a multiple of the least positive one -/
def NoUnderflow (r : ℝ) : Prop := 1 / 2 ^ 126 ≤ |r| ∨ ∃ z : Int, r = z / 2 ^ 149

/-- The layer has no biases; on the input `s` no product underflows, and no sum overflows, even if the
input is multiplied by `2^k`.  A softmax layer does not qualify. -/
def Gentle (k : Nat) : AnyLayer F32 → Tensor F32 → Prop
  | .fc l, s => l.weights.shape.dj.toNat < 2 ^ 22 ∧ ∀ o, o < l.weights.shape.di.toNat →
      ((val l.bias o 0 0).isFinite = true ∧ (val l.bias o 0 0).toReal = 0) ∧
      (∀ i, i < l.weights.shape.dj.toNat → (val l.weights o i 0).isFinite = true ∧
        NoUnderflow ((val l.weights o i 0).toReal * (val s i 0 0).toReal)) ∧
      2 ^ k * ((List.range l.weights.shape.dj.toNat).map fun i =>
        |(val l.weights o i 0).toReal * (val s i 0 0).toReal|).sum ≤ 2 ^ 125
  | .conv l, s => (∀ bias ∈ l.biases, (val bias 0 0 0).isFinite = true ∧ (val bias 0 0 0).toReal = 0) ∧
      ∀ kernel ∈ l.kernels, kernel.shape.count < 2 ^ 22 ∧
        (∀ a c d, kernel.shape.Inside a c d → (val kernel a c d).isFinite = true) ∧
        ∀ i j, i < l.output_shape.di.toNat → j < l.output_shape.dj.toNat →
          (∀ a c d, kernel.shape.Inside a c d → NoUnderflow
            ((val s (i * l.stride.toNat + a) (j * l.stride.toNat + c) d).toReal *
              (val kernel a c d).toReal)) ∧
          2 ^ k * (kernel.shape.indices.map fun r =>
            |(val s (i * l.stride.toNat + r.1) (j * l.stride.toNat + r.2.1) r.2.2).toReal *
              (val kernel r.1 r.2.1 r.2.2).toReal|).sum ≤ 2 ^ 125
  | .mp l, _ => l.mask_shape.di ≠ 0 ∧ l.mask_shape.dj ≠ 0
  | .sm _, _ => False

/-- `Places ls p`: the layers have no biases, and on inputs with `p` binary places every product, in every
layer, has at most 149 of them. -/
inductive Places : List (AnyLayer F32) → Nat → Prop
  | nil (p) : Places [] p
  | fc (l : FullyConnectedLayer F32) (ls) (q p : Nat) :
      (∀ o i, o < l.weights.shape.di.toNat → i < l.weights.shape.dj.toNat →
        Grid q (val l.weights o i 0)) →
      (∀ o, o < l.weights.shape.di.toNat → (val l.bias o 0 0).toReal = 0) →
      p + q ≤ 149 → Places ls (p + q) → Places (.fc l :: ls) p
  | conv (l : ConvolutionalLayer F32) (ls) (q p : Nat) :
      (∀ kernel ∈ l.kernels, ∀ i j k, kernel.shape.Inside i j k → Grid q (val kernel i j k)) →
      (∀ bias ∈ l.biases, (val bias 0 0 0).toReal = 0) →
      p + q ≤ 149 → Places ls (p + q) → Places (.conv l :: ls) p
  | mp (l : MaxPoolLayer) (ls) (p : Nat) : Places ls p → Places (.mp l :: ls) p

end Rusty.Spec
