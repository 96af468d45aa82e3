import Verif.Spec.Real
import Verif.Spec.Network
import Mathlib.Analysis.Calculus.FDeriv.Basic

/-! # Sums over tensors and derivatives in exact arithmetic -/

namespace Rusty.Spec

open Exact

/-- the sum of `f i j k` over all inside indices of a shape -/
def total {M : Type} [AddCommMonoid M] (s : TensorShape) (f : Nat → Nat → Nat → M) : M :=
  ∑ k ∈ Finset.range s.dk.toNat, ∑ j ∈ Finset.range s.dj.toNat, ∑ i ∈ Finset.range s.di.toNat,
    f i j k

/-- the inner product of two tensors of shape `s` -/
noncomputable def inner (s : TensorShape) (t u : Tensor ℝ) : ℝ :=
  total s fun i j k => val t i j k * val u i j k

variable {E : Type} [NormedAddCommGroup E] [NormedSpace ℝ E]

/-- A tensor that varies with a parameter is differentiable at `e0`, entry by entry; `x' i j k` is the
derivative of entry `(i,j,k)`. -/
def DiffAt (s : TensorShape) (x : E → Tensor ℝ) (x' : Nat → Nat → Nat → (E →L[ℝ] ℝ)) (e0 : E) :
    Prop :=
  ∀ i j k, s.Inside i j k → HasFDerivAt (fun e => val (x e) i j k) (x' i j k) e0

/-- The layer's function is differentiable at `x` because nothing is decided by a tie: no
pre-activation is zero, and every max-pool window has one largest entry, above negative infinity. -/
def smoothAt : AnyLayer ℝ → Tensor ℝ → Prop
  | .conv l, x => ∀ i j k, l.output_shape.Inside i j k → convPre l x i j k ≠ 0
  | .fc l, x => ∀ o, o < l.weights.shape.di.toNat → preact l x o ≠ 0
  | .mp l, x => ∀ i j k, l.output_shape.Inside i j k →
      ∃ ii jj, ii < l.mask_shape.di.toNat ∧ jj < l.mask_shape.dj.toNat ∧
        F32Ops.negInf < val x (i * l.stride.toNat + ii) (j * l.stride.toNat + jj) k ∧
        ∀ ii' jj', ii' < l.mask_shape.di.toNat → jj' < l.mask_shape.dj.toNat →
          (ii', jj') ≠ (ii, jj) →
          val x (i * l.stride.toNat + ii') (j * l.stride.toNat + jj') k <
            val x (i * l.stride.toNat + ii) (j * l.stride.toNat + jj) k
  | .sm _, _ => True

/-- a layer with other weights and biases, if it is fully connected; any other layer unchanged -/
def replaceParams : AnyLayer ℝ → Tensor ℝ → Tensor ℝ → AnyLayer ℝ
  | .fc l, W, bi => .fc { l with weights := W, bias := bi }
  | l, _, _ => l

/-- `W` and `bi` are weights and biases for `l` that vary differentiably; no condition on layers
that are not fully connected -/
def ParamsVary (l : AnyLayer ℝ) (W bi : E → Tensor ℝ) (W' b' : Nat → Nat → Nat → (E →L[ℝ] ℝ))
    (e0 : E) : Prop :=
  match l with
  | .fc l => (∀ e, (W e).WF ∧ (W e).shape = l.weights.shape) ∧
      (∀ e, (bi e).WF ∧ (bi e).shape = l.bias.shape) ∧
      DiffAt l.weights.shape W W' e0 ∧ DiffAt l.bias.shape bi b' e0
  | _ => True

/-- what was added to the stored gradients between `l` and `l2`, applied to the derivatives `W'` and
`b'` of the weights and biases; zero for layers that are not fully connected -/
noncomputable def gradTerm (W' b' : Nat → Nat → Nat → (E →L[ℝ] ℝ))
    (l l2 : Option (AnyLayer ℝ)) : E →L[ℝ] ℝ :=
  match l, l2 with
  | some (.fc l), some (.fc l2) =>
    (total l.weights.shape fun i j k =>
      (val l2.weights_gradients i j k - val l.weights_gradients i j k) • W' i j k) +
    (total l.bias.shape fun i j k =>
      (val l2.bias_gradients i j k - val l.bias_gradients i j k) • b' i j k)
  | _, _ => 0

/-- a network with other weights `W i` and biases `bi i` in every fully connected layer `i` -/
def replaceNet (n : Net ℝ) (W bi : Nat → Tensor ℝ) : Net ℝ :=
  { n with layers := n.layers.mapIdx fun i l => replaceParams l (W i) (bi i) }

end Rusty.Spec
