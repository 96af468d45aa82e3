import Verif.Spec.CrossEntropy
import Mathlib.Analysis.SpecialFunctions.Log.Deriv
import Mathlib.Analysis.SpecialFunctions.ExpDeriv
import Mathlib.Algebra.BigOperators.Field

/-! # Helper lemmas: the derivative of the cross entropy -/

namespace Rusty

open Spec

theorem exp_sum_pos {n : Nat} (z : Nat → ℝ) {c : Nat} (hc : c < n) :
    0 < ∑ o ∈ Finset.range n, Real.exp (z o) :=
  Finset.sum_pos (fun _ _ => Real.exp_pos _) ⟨c, Finset.mem_range.mpr hc⟩

theorem softmaxOf_unit {n : Nat} (z : Nat → ℝ) {i : Nat} (hi : i < n) :
    0 ≤ softmaxOf n z i ∧ softmaxOf n z i ≤ 1 := by
  have hpos := exp_sum_pos z hi
  refine ⟨div_nonneg (Real.exp_pos _).le hpos.le, ?_⟩
  unfold softmaxOf
  rw [div_le_one hpos]
  exact Finset.single_le_sum (f := fun o => Real.exp (z o)) (fun _ _ => (Real.exp_pos _).le)
    (Finset.mem_range.mpr hi)

/-- the chain rule for the cross entropy: its gradient is softmax minus target -/
theorem classLoss_deriv {n c : Nat} (hc : c < n) {z : ℝ → Nat → ℝ} {z' : Nat → ℝ} {u : ℝ}
    (h : ∀ o < n, HasDerivAt (fun t => z t o) (z' o) u) :
    HasDerivAt (fun t => classLoss n (z t) c)
      (∑ o ∈ Finset.range n, (softmaxOf n (z u) o - oneHot c o) * z' o) u := by
  have hsd : HasDerivAt (fun t => ∑ o ∈ Finset.range n, Real.exp (z t o))
      (∑ o ∈ Finset.range n, Real.exp (z u o) * z' o) u :=
    HasDerivAt.fun_sum fun o ho => (h o (Finset.mem_range.mp ho)).exp
  have hlog := hsd.log (exp_sum_pos (z u) hc).ne'
  have e : ∑ o ∈ Finset.range n, (softmaxOf n (z u) o - oneHot c o) * z' o =
      (∑ o ∈ Finset.range n, Real.exp (z u o) * z' o) / (∑ o ∈ Finset.range n, Real.exp (z u o)) -
        z' c := by
    simp only [sub_mul]
    rw [Finset.sum_sub_distrib]
    congr 1
    · rw [Finset.sum_div]
      refine Finset.sum_congr rfl fun o _ => ?_
      unfold softmaxOf
      ring
    · unfold oneHot
      simp only [ite_mul, one_mul, zero_mul]
      rw [Finset.sum_ite_eq' _ c, if_pos (Finset.mem_range.mpr hc)]
  rw [e]
  refine (hlog.sub (h c hc)).congr_of_eventuallyEq (Filter.Eventually.of_forall fun t => ?_)
  simp only [Pi.sub_apply]
  unfold classLoss softmaxOf
  rw [Real.log_div (Real.exp_pos _).ne' (exp_sum_pos (z t) hc).ne', Real.log_exp]
  ring

end Rusty
