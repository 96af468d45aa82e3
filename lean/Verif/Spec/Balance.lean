import Verif.Spec.Homogeneous
import Mathlib.Algebra.BigOperators.Group.Finset.Basic

/-! # The balance of values and gradients -/

namespace Rusty.Spec

open Rusty Exact

/-- the sum of the products of the entries of two tensors -/
noncomputable def dot (t u : Tensor ℝ) : ℝ :=
  ∑ k ∈ Finset.range t.shape.dk.toNat, ∑ j ∈ Finset.range t.shape.dj.toNat, ∑ i ∈ Finset.range t.shape.di.toNat,
    val t i j k * val u i j k

/-- the weights of `l` times what `l2` has collected for them since `l` -/
noncomputable def weightFlow (l l2 : FullyConnectedLayer ℝ) : ℝ :=
  ∑ o ∈ Finset.range l.weights.shape.di.toNat, ∑ i ∈ Finset.range l.weights.shape.dj.toNat,
    val l.weights o i 0 * (val l2.weights_gradients o i 0 - val l.weights_gradients o i 0)

/-- the biases of a layer times what has been collected for them; 0 for layers without biases -/
noncomputable def biasFlow : AnyLayer ℝ × AnyLayer ℝ → ℝ
  | (.fc l, .fc l2) => ∑ o ∈ Finset.range l.weights.shape.di.toNat,
      val l.bias o 0 0 * (val l2.bias_gradients o 0 0 - val l.bias_gradients o 0 0)
  | _ => 0

/-- a fully connected layer, or a max-pool layer whose windows are not empty -/
def Piecewise : AnyLayer ℝ → Prop
  | .fc _ => True
  | .mp l => l.mask_shape.di ≠ 0 ∧ l.mask_shape.dj ≠ 0
  | _ => False

end Rusty.Spec
