import Verif.Spec.SignedZero
import Verif.Spec.Network
import Verif.Model.IEEE

/-! # What it means that a unit records nothing -/

namespace Rusty.Spec

open Rusty F32

/-- the recorded gradient of a weight or bias turned from `u` into `v`: the same number, or NaN -/
def SameOrNaN (v u : F32) : Prop := v.isNaN = true ∨ SameNumber v u

variable [Libm]

/-- the recorded gradients of unit `o` of layer `l` and `l1`, bias and weights, are related by `R` -/
def UnitGradients (b : Build) (R : F32 → F32 → Prop) (l l1 : FullyConnectedLayer F32) (o : Nat) : Prop :=
  (∃ u v, l.bias_gradients.get_item b (ix o 0 0) = .ok u ∧ l1.bias_gradients.get_item b (ix o 0 0) = .ok v ∧ R v u) ∧
  ∀ i, i < l.weights.shape.dj.toNat → ∃ u v, l.weights_gradients.get_item b (ix o i 0) = .ok u ∧
    l1.weights_gradients.get_item b (ix o i 0) = .ok v ∧ R v u

/-- every number of the intermediate state `q` is finite -/
def StateFinite (n : Net F32) (q : Nat) : Prop :=
  ∀ s, n.get_intermediate_state q = .ok s → ∀ i j k, s.shape.Inside i j k → (val s i j k).isFinite = true

/-- every number of the gradient that reaches place `q` is finite -/
def GradientFinite (n : Net F32) (q : Nat) : Prop :=
  ∀ t, n.intermediate_gradients[q]? = some t → ∀ i j k, t.shape.Inside i j k → (val t i j k).isFinite = true

/-- unit `o` of layer `c` gave zero in the last `infer` -/
def Dead (n : Net F32) (c o : Nat) : Prop :=
  ∃ s, n.get_intermediate_state (c + 1) = .ok s ∧ (val s o 0 0).code = 0

end Rusty.Spec
