import Verif.Spec.Convex

/-! # Specification: two inputs that take the same branches in every layer (C120) -/

namespace Rusty.Spec

variable [Libm]

/-- The inputs `x` and `y` take the same branches in the layer: the same units are active, and in every window of
max pooling there is a place where both have their maximum. -/
def SameBranch (l : AnyLayer F32) (x y : Nat → Nat → Nat → ℝ) : Prop :=
  match l with
  | .mp l => ∀ i j k, l.output_shape.Inside i j k → ∃ p q, p < l.mask_shape.di.toNat ∧ q < l.mask_shape.dj.toNat ∧
      ∀ p' q', p' < l.mask_shape.di.toNat → q' < l.mask_shape.dj.toNat →
        x (i * l.stride.toNat + p') (j * l.stride.toNat + q') k ≤
          x (i * l.stride.toNat + p) (j * l.stride.toNat + q) k ∧
        y (i * l.stride.toNat + p') (j * l.stride.toNat + q') k ≤
          y (i * l.stride.toNat + p) (j * l.stride.toNat + q) k
  | .sm _ => False
  | l => ∀ i j k, l.get_output_shape.Inside i j k → (0 < exactLayer l x i j k ↔ 0 < exactLayer l y i j k)

/-- they do so in all layers -/
def SameBranches : List (AnyLayer F32) → (Nat → Nat → Nat → ℝ) → (Nat → Nat → Nat → ℝ) → Prop
  | [], _, _ => True
  | l :: ls, x, y => SameBranch l x y ∧ SameBranches ls (exactLayer l x) (exactLayer l y)

end Rusty.Spec
