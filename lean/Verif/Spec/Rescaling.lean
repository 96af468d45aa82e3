import Verif.Spec.Homogeneous

/-! # Networks with rescaled parameters -/

namespace Rusty.Spec

open Rusty Exact

/-- `Rescaled c c' l l'`: the parameters of `l'` are those of `l`, changed such that `l'` gives `c'` times the
output of `l` for `c` times the input.  Weights and kernels are multiplied by `c' / c`, biases by `c'`; a
max-pool layer has no parameters, so `c' = c`; around a softmax layer nothing is scaled. -/
def Rescaled (c c' : ℝ) : AnyLayer ℝ → AnyLayer ℝ → Prop
  | .fc l, .fc l' => Scaled (c' / c) l.weights l'.weights ∧ Scaled c' l.bias l'.bias
  | .conv l, .conv l' => l'.stride = l.stride ∧ l'.input_shape = l.input_shape ∧
      l'.output_shape = l.output_shape ∧ List.Forall₂ (Scaled (c' / c)) l.kernels l'.kernels ∧
      List.Forall₂ (Scaled c') l.biases l'.biases
  | .mp l, .mp l' => c' = c ∧ l'.stride = l.stride ∧ l'.mask_shape = l.mask_shape ∧
      l'.input_shape = l.input_shape ∧ l'.output_shape = l.output_shape ∧
      l.mask_shape.di ≠ 0 ∧ l.mask_shape.dj ≠ 0
  | .sm l, .sm l' => c = 1 ∧ c' = 1 ∧ l'.shape = l.shape
  | _, _ => False

/-- the layers of two networks, with the factors `c i` of the states before layer `i` -/
def RescaledBy (c : Nat → ℝ) (ls ls' : List (AnyLayer ℝ)) : Prop :=
  (∀ i, 0 < c i) ∧ ls'.length = ls.length ∧
    ∀ i l l', ls[i]? = some l → ls'[i]? = some l' → Rescaled (c i) (c (i + 1)) l l'

end Rusty.Spec
