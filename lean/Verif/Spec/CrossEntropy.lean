import Mathlib.Analysis.SpecialFunctions.Log.Basic

/-! # Specification: softmax and cross entropy of real vectors (C122, C123) -/

namespace Rusty.Spec

/-- the softmax of the first `n` entries of `z` -/
noncomputable def softmaxOf (n : Nat) (z : Nat → ℝ) (i : Nat) : ℝ :=
  Real.exp (z i) / ∑ o ∈ Finset.range n, Real.exp (z o)

/-- the cross entropy loss of the scores `z` when the right class is `c` -/
noncomputable def classLoss (n : Nat) (z : Nat → ℝ) (c : Nat) : ℝ := -Real.log (softmaxOf n z c)

/-- the target: one for the right class, zero for the others -/
noncomputable def oneHot (c i : Nat) : ℝ := if i = c then 1 else 0

end Rusty.Spec
