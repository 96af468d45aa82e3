import Verif.Spec.Accuracy

/-! # Specification: mirrored and transposed images, kernels and layers (C117) -/

namespace Rusty.Spec

/-- mirror the first coordinate, or exchange the first two coordinates; the two generate all symmetries of a square -/
inductive Turn
  | mirror
  | transpose

/-- the shape of a turned image -/
def Turn.shape : Turn → TensorShape → TensorShape
  | .mirror, s => s
  | .transpose, s => ⟨s.dj, s.di, s.dk⟩

/-- where an entry of the turned image comes from, `s` is the shape of the image -/
def Turn.source (σ : Turn) (s : TensorShape) (i j : Nat) : Nat × Nat :=
  match σ with
  | .mirror => (s.di.toNat - 1 - i, j)
  | .transpose => (j, i)

/-- `x'` is `x`, turned; `s` is the shape of `x` -/
def TurnedFunction {α : Type} (σ : Turn) (s : TensorShape) (x x' : Nat → Nat → Nat → α) : Prop :=
  ∀ i j k, (σ.shape s).Inside i j k → x' i j k = x (σ.source s i j).1 (σ.source s i j).2 k

/-- `t'` is `t`, turned -/
structure TurnedTensor {F : Type} [F32Ops F] (σ : Turn) (t t' : Tensor F) : Prop where
  shape : t'.shape = σ.shape t.shape
  entries : TurnedFunction σ t.shape (val t) (val t')

/-- `l'` is `l` with turned shapes and kernels.  Fully connected layers do not work on images. -/
def TurnedLayer {F : Type} [F32Ops F] (σ : Turn) : AnyLayer F → AnyLayer F → Prop
  | .conv l, .conv l' => l'.input_shape = σ.shape l.input_shape ∧
      l'.output_shape = σ.shape l.output_shape ∧ l'.stride = l.stride ∧
      List.Forall₂ (TurnedTensor σ) l.kernels l'.kernels ∧ l'.biases = l.biases
  | .mp l, .mp l' => l'.input_shape = σ.shape l.input_shape ∧
      l'.output_shape = σ.shape l.output_shape ∧ l'.mask_shape = σ.shape l.mask_shape ∧
      l'.stride = l.stride
  | .sm l, .sm l' => l'.shape = σ.shape l.shape
  | _, _ => False

end Rusty.Spec
