import Verif.Spec.Scaling

/-! # Specification: layers whose parameters are multiplied by powers of two, in `f32` -/

namespace Rusty.Spec

open F32

variable [Libm]

/-- The entries of both are finite, and those of `t'` are `2^z` times those of `t`; `z` may be negative. -/
def ShiftedBy (z : ℤ) (t t' : Tensor F32) : Prop :=
  t'.shape = t.shape ∧ ∀ a c d, t.shape.Inside a c d → (val t a c d).isFinite = true ∧
    (val t' a c d).isFinite = true ∧ (val t' a c d).toReal = (2 : ℝ) ^ z * (val t a c d).toReal

/-- `t'` is `2^z` times `t`; for `z = 0` both are the same, bit for bit, whatever their entries are. -/
def Multiple2 (z : ℤ) (t t' : Tensor F32) : Prop := if z = 0 then t' = t else ShiftedBy z t t'

/-- `l'` is the layer `l`, changed so that it gives `2^z'` times the output for `2^z` times the input: the
weights are multiplied by `2^(z' - z)`, the biases by `2^z'`.  Max-pool layers stay as they are. -/
def Shifts (z z' : ℤ) : AnyLayer F32 → AnyLayer F32 → Prop
  | .fc l, .fc l' => ShiftedBy (z' - z) l.weights l'.weights ∧ ShiftedBy z' l.bias l'.bias
  | .conv l, .conv l' => l'.stride = l.stride ∧ l'.input_shape = l.input_shape ∧
      l'.output_shape = l.output_shape ∧ List.Forall₂ (ShiftedBy (z' - z)) l.kernels l'.kernels ∧
      List.Forall₂ (ShiftedBy z') l.biases l'.biases
  | .mp l, .mp l' => z' = z ∧ l'.input_shape = l.input_shape ∧ l'.mask_shape = l.mask_shape ∧
      l'.output_shape = l.output_shape ∧ l'.stride = l.stride ∧ l.mask_shape.di ≠ 0 ∧ l.mask_shape.dj ≠ 0
  | _, _ => False

/-- The products `r` and the bias `β` can be added up without overflow, before and after they are multiplied
by `2^z`, and none of the products underflows where it is smaller. -/
def Room (z : ℤ) (r : List ℝ) (β : ℝ) : Prop :=
  r.length < 2 ^ 22 ∧ (∀ p ∈ r, (0 < z → NoUnderflow p) ∧ (z < 0 → NoUnderflow (2 ^ z * p))) ∧
  (r.map fun p => |p|).sum + |β| ≤ 2 ^ 125 ∧ 2 ^ z * ((r.map fun p => |p|).sum + |β|) ≤ 2 ^ 125

/-- There is such room for every output of the layer on the input `s`. -/
def Roomy (z : ℤ) : AnyLayer F32 → Tensor F32 → Prop
  | .fc l, s => ∀ o, o < l.weights.shape.di.toNat →
      Room z ((List.range l.weights.shape.dj.toNat).map fun i =>
        (val l.weights o i 0).toReal * (val s i 0 0).toReal) (val l.bias o 0 0).toReal
  | .conv l, s => ∀ i j k kernel bias, l.output_shape.Inside i j k → l.kernels[k]? = some kernel →
      l.biases[k]? = some bias → Room z (kernel.shape.indices.map fun p =>
        (val s (i * l.stride.toNat + p.1) (j * l.stride.toNat + p.2.1) p.2.2).toReal *
          (val kernel p.1 p.2.1 p.2.2).toReal) (val bias 0 0 0).toReal
  | _, _ => True

/-- Layer `l'` on `2^z` times the input `s` does `2^z'` times what `l` does on `s`: the layers are the same and
both factors are 1, or the parameters are shifted as needed and there is room. -/
def Follows (z z' : ℤ) (l l' : AnyLayer F32) (s : Tensor F32) : Prop :=
  (z = 0 ∧ z' = 0 ∧ params l' = params l) ∨
  (Shifts z z' l l' ∧ Roomy z' l s ∧ ∀ a c d, s.shape.Inside a c d → (val s a c d).isFinite = true)

end Rusty.Spec
