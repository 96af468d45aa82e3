import Verif.Spec.Network
import Verif.Spec.Real

/-! # Specification: networks of the program in which the same units are active (C130) -/

namespace Rusty.Spec

open F32Ops Exact

/-- `infer` of `n` for `x` and of `m` for `y` leave states that are positive in the same places. -/
def SameActive (b : Build) (n : Net ℝ) (x : Tensor ℝ) (m : Net ℝ) (y : Tensor ℝ) : Prop :=
  ∀ n1 m1, n.infer b x = .ok (.ok (), n1) → m.infer b y = .ok (.ok (), m1) → ∀ k s t,
    n1.get_intermediate_state (k + 1) = .ok s → m1.get_intermediate_state (k + 1) = .ok t →
    ∀ o, o < s.shape.di.toNat → (0 < val s o 0 0 ↔ 0 < val t o 0 0)

/-- the layers `fs` and `fs'` have parameters of the same shapes, which are equal except in layer `c` -/
def OnlyLayer (c : Nat) (fs fs' : List (FullyConnectedLayer ℝ)) : Prop :=
  fs'.length = fs.length ∧ ∀ (k : Nat) l l', fs[k]? = some l → fs'[k]? = some l' →
    l'.weights.shape = l.weights.shape ∧ (k ≠ c → l'.weights = l.weights ∧ l'.bias = l.bias)

end Rusty.Spec
