import Verif.Spec.AnyLayer
import Verif.Spec.Derivative

/-! # Specification: an affine preparation of the input taken over by the first layer -/

namespace Rusty.Spec

open Exact

/-- `y` is `x`, every entry multiplied and shifted -/
def Prepared (a c : Nat → Nat → Nat → ℝ) (x y : Tensor ℝ) : Prop :=
  y.shape = x.shape ∧ ∀ i j k, x.shape.Inside i j k → val y i j k = a i j k * val x i j k + c i j k

/-- The layer `l'` takes over the preparation with `a` and `c` from `l`: the weights are multiplied, the biases get
what the weights make of the shift.  For a convolutional layer, `a` and `c` may depend on the channel only. -/
def TakesOver (a c : Nat → Nat → Nat → ℝ) : AnyLayer ℝ → AnyLayer ℝ → Prop
  | .fc l, .fc l' => l'.weights.shape = l.weights.shape ∧ ∀ o, o < l.weights.shape.di.toNat →
      val l'.bias o 0 0 = val l.bias o 0 0 +
        ∑ i ∈ Finset.range l.weights.shape.dj.toNat, val l.weights o i 0 * c i 0 0 ∧
      ∀ i, i < l.weights.shape.dj.toNat → val l'.weights o i 0 = val l.weights o i 0 * a i 0 0
  | .conv l, .conv l' => (∀ i j k, a i j k = a 0 0 k ∧ c i j k = c 0 0 k) ∧ l'.stride = l.stride ∧
      l'.input_shape = l.input_shape ∧ l'.output_shape = l.output_shape ∧
      ∀ (q : Nat) (w w' β β' : Tensor ℝ), l.kernels[q]? = some w → l'.kernels[q]? = some w' →
        l.biases[q]? = some β → l'.biases[q]? = some β' → w'.shape = w.shape ∧
        val β' 0 0 0 = val β 0 0 0 + total w.shape (fun i j k => val w i j k * c 0 0 k) ∧
        ∀ i j k, w.shape.Inside i j k → val w' i j k = val w i j k * a 0 0 k
  | _, _ => False

/-- A layer that can take over the preparation with `a` and `c`: fully connected, or convolutional if `a` and `c`
depend on the channel only -/
def CanTakeOver (a c : Nat → Nat → Nat → ℝ) : AnyLayer ℝ → Prop
  | .fc _ => True
  | .conv _ => ∀ i j k, a i j k = a 0 0 k ∧ c i j k = c 0 0 k
  | _ => False

end Rusty.Spec
