import Verif.Spec.Derivative
import Mathlib.Analysis.Calculus.Deriv.Basic
import Mathlib.Analysis.SpecialFunctions.Log.Basic

/-! # Vocabulary for gradient descent -/

namespace Rusty.Spec

open F32Ops Exact

/-- `g` is the gradient of the loss `L` at the prediction `y0`: along every differentiable path of predictions
through `y0` the loss changes at the rate `<g, y'>` -/
def GradientOf (L : Tensor ℝ → ℝ) (s : TensorShape) (y0 g : Tensor ℝ) : Prop :=
  ∀ (y : ℝ → Tensor ℝ) (y' : Nat → Nat → Nat → ℝ), y 0 = y0 → (∀ t, (y t).WF ∧ (y t).shape = s) →
    (∀ i j k, s.Inside i j k → HasDerivAt (fun t => val (y t) i j k) (y' i j k) 0) →
    HasDerivAt (fun t => L (y t)) (total s fun i j k => val g i j k * y' i j k) 0

/-- `t` is `u - η (g2 - g1)`, entry by entry -/
def MovedBy (η : ℝ) (u g1 g2 t : Tensor ℝ) : Prop :=
  t.WF ∧ t.shape = u.shape ∧ ∀ i j k, u.shape.Inside i j k →
    val t i j k = val u i j k - η * (val g2 i j k - val g1 i j k)

/-- `W` and `bi` are the parameters of the fully connected layers of `n`, moved by `η` against what was added to
the recorded gradients between `n` and `n2` -/
def Moved (η : ℝ) (n n2 : Net ℝ) (W bi : Nat → Tensor ℝ) : Prop :=
  ∀ (c : Nat) l l2, n.get_layers[c]? = some (.fc l) → n2.get_layers[c]? = some (.fc l2) →
    MovedBy η l.weights l.weights_gradients l2.weights_gradients (W c) ∧
    MovedBy η l.bias l.bias_gradients l2.bias_gradients (bi c)

/-- the square sum of what was added to the recorded gradients of a layer -/
noncomputable def gradSq : Option (AnyLayer ℝ) → Option (AnyLayer ℝ) → ℝ
  | some (.fc l), some (.fc l2) =>
    (total l.weights.shape fun i j k =>
      (val l2.weights_gradients i j k - val l.weights_gradients i j k) ^ 2) +
    (total l.bias.shape fun i j k =>
      (val l2.bias_gradients i j k - val l.bias_gradients i j k) ^ 2)
  | _, _ => 0

/-- half the squared distance to a target -/
noncomputable def squaredError (s : TensorShape) (target y : Tensor ℝ) : ℝ :=
  total s fun i j k => (val y i j k - val target i j k) ^ 2 / 2

/-- the cross entropy with a target distribution -/
noncomputable def crossEntropy (s : TensorShape) (target y : Tensor ℝ) : ℝ :=
  total s fun i j k => -(val target i j k * Real.log (val y i j k))

end Rusty.Spec
