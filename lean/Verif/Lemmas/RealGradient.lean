import Verif.Spec.RealGradient
import Mathlib.Analysis.Calculus.Deriv.Add
import Mathlib.Analysis.Calculus.Deriv.Mul
import Mathlib.Algebra.BigOperators.Ring.Finset

/-! # Helper lemmas: backpropagation computes derivatives -/

namespace Rusty.Spec

theorem hasDerivAt_max_zero {f : ℝ → ℝ} {f' t0 : ℝ} (h : HasDerivAt f f' t0) (h0 : f t0 ≠ 0) :
    HasDerivAt (fun t => max 0 (f t)) (if 0 < f t0 then f' else 0) t0 := by
  rcases lt_or_gt_of_ne h0 with hlt | hgt
  · rw [if_neg (by linarith)]
    refine (hasDerivAt_const t0 (0 : ℝ)).congr_of_eventuallyEq ?_
    filter_upwards [h.continuousAt.eventually (gt_mem_nhds hlt)] with t ht
    exact max_eq_left ht.le
  · rw [if_pos hgt]
    refine h.congr_of_eventuallyEq ?_
    filter_upwards [h.continuousAt.eventually (lt_mem_nhds hgt)] with t ht
    exact max_eq_right ht.le

/-- the chain rule for a list of layers whose input moves -/
theorem back_deriv {n m : Nat} {ls : List RealLayer} (hd : Dims n ls m) (g : Nat → ℝ) {x : ℝ → Nat → ℝ}
    {x' : Nat → ℝ} {t0 : ℝ} (hk : NoKink ls (x t0)) (hx : ∀ i < n, HasDerivAt (fun t => x t i) (x' i) t0) :
    HasDerivAt (fun t => ∑ k ∈ Finset.range m, g k * realNet ls (x t) k)
      (∑ i ∈ Finset.range n, realBack ls (x t0) g i * x' i) t0 := by
  induction hd generalizing x x' with
  | nil n =>
    exact HasDerivAt.fun_sum fun i hi => (hx i (Finset.mem_range.mp hi)).const_mul (g i)
  | cons l ls m _ ih =>
    have hpre : ∀ o, HasDerivAt (fun t => l.pre (x t) o)
        (∑ i ∈ Finset.range l.cols, l.weight o i * x' i) t0 := fun o =>
      (HasDerivAt.fun_sum fun i hi => (hx i (Finset.mem_range.mp hi)).const_mul (l.weight o i)).add_const _
    have := ih (x := fun t => l.out (x t))
      (x' := fun o => if 0 < l.pre (x t0) o then ∑ i ∈ Finset.range l.cols, l.weight o i * x' i else 0)
      hk.2 (fun o ho => hasDerivAt_max_zero (hpre o) (hk.1 o ho))
    refine this.congr_deriv ?_
    simp only [realBack, Finset.sum_mul]
    rw [Finset.sum_comm]
    refine Finset.sum_congr rfl fun o _ => ?_
    unfold RealLayer.through
    by_cases h : 0 < l.pre (x t0) o
    · simp only [if_pos h]
      rw [Finset.mul_sum]
      exact Finset.sum_congr rfl fun i _ => by ring
    · simp only [if_neg h]
      simp

/-- the first layer's outputs move because its parameters do -/
theorem head_deriv {m : Nat} {l : RealLayer} {ls : List RealLayer} (hd : Dims l.rows ls m) (g x : Nat → ℝ)
    {L : ℝ → RealLayer} {t0 : ℝ} (h0 : L t0 = l) (hk : NoKink (l :: ls) x) {p : Nat → ℝ}
    (hp : ∀ o < l.rows, HasDerivAt (fun t => (L t).pre x o) (p o) t0) :
    HasDerivAt (fun t => ∑ k ∈ Finset.range m, g k * realNet (L t :: ls) x k)
      (∑ o ∈ Finset.range l.rows, l.through x (realBack ls (l.out x) g) o * p o) t0 := by
  have := back_deriv hd g (x := fun t => (L t).out x) (t0 := t0)
    (x' := fun o => if 0 < l.pre x o then p o else 0) (by rw [h0]; exact hk.2)
    (fun o ho => by
      have := hasDerivAt_max_zero (hp o ho) (by rw [h0]; exact hk.1 o ho)
      rw [h0] at this
      exact this)
  refine this.congr_deriv (Finset.sum_congr rfl fun o _ => ?_)
  unfold RealLayer.through
  rw [h0]
  by_cases h : 0 < l.pre x o
  · rw [if_pos h, if_pos h]
  · rw [if_neg h, if_neg h]
    ring

theorem weight_deriv (l : RealLayer) (x : Nat → ℝ) {o i : Nat} (hi : i < l.cols) (o' : Nat) (t0 : ℝ) :
    HasDerivAt (fun t => (l.withWeight o i t).pre x o') (if o' = o then x i else 0) t0 := by
  have : (fun t => (l.withWeight o i t).pre x o') = fun t =>
      (∑ i' ∈ Finset.range l.cols, (if o' = o ∧ i' = i then t else l.weight o' i') * x i') + l.bias o' := rfl
  rw [this]
  have h1 : ∀ i' ∈ Finset.range l.cols, HasDerivAt
      (fun t => (if o' = o ∧ i' = i then t else l.weight o' i') * x i')
      (if o' = o ∧ i' = i then x i' else 0) t0 := by
    intro i' _
    by_cases h : o' = o ∧ i' = i
    · simp only [if_pos h]
      simpa using (hasDerivAt_id t0).mul_const (x i')
    · simp only [if_neg h]
      exact hasDerivAt_const _ _
  refine ((HasDerivAt.fun_sum h1).add_const _).congr_deriv ?_
  by_cases h : o' = o
  · simp only [h, true_and, if_true]
    rw [Finset.sum_ite_eq' (Finset.range l.cols) i x, if_pos (Finset.mem_range.mpr hi)]
  · simp [h]

theorem bias_deriv (l : RealLayer) (x : Nat → ℝ) (o o' : Nat) (t0 : ℝ) :
    HasDerivAt (fun t => (l.withBias o t).pre x o') (if o' = o then 1 else 0) t0 := by
  have : (fun t => (l.withBias o t).pre x o') = fun t =>
      (∑ i' ∈ Finset.range l.cols, l.weight o' i' * x i') + (if o' = o then t else l.bias o') := rfl
  rw [this]
  by_cases h : o' = o
  · simp only [if_pos h]
    exact (hasDerivAt_id t0).const_add _
  · simp only [if_neg h]
    exact hasDerivAt_const _ _

theorem withWeight_self (l : RealLayer) (o i : Nat) : l.withWeight o i (l.weight o i) = l := by
  unfold RealLayer.withWeight
  have : (fun o' i' => if o' = o ∧ i' = i then l.weight o i else l.weight o' i') = l.weight := by
    funext o' i'
    split
    · rename_i h
      rw [h.1, h.2]
    · rfl
  rw [this]

theorem withBias_self (l : RealLayer) (o : Nat) : l.withBias o (l.bias o) = l := by
  unfold RealLayer.withBias
  have : (fun o' => if o' = o then l.bias o else l.bias o') = l.bias := by
    funext o'
    split
    · rename_i h
      rw [h]
    · rfl
  rw [this]

theorem net_weight_deriv {n m : Nat} {ls : List RealLayer} (hd : Dims n ls m) (g : Nat → ℝ) {x : Nat → ℝ}
    (hk : NoKink ls x) {c o i : Nat} {l : RealLayer} (hc : ls[c]? = some l) (ho : o < l.rows) (hi : i < l.cols) :
    HasDerivAt (fun t => ∑ k ∈ Finset.range m, g k * realNet (ls.modify c fun l => l.withWeight o i t) x k)
      (realWeightGrad ls x g c o i) (l.weight o i) := by
  induction hd generalizing x c with
  | nil n => cases hc
  | cons l0 ls m hd ih =>
    cases c with
    | zero =>
      cases hc
      simp only [List.modify_zero_cons]
      refine (head_deriv hd g x (L := fun t => l.withWeight o i t) (withWeight_self l o i) hk
        (fun o' _ => weight_deriv l x hi o' _)).congr_deriv ?_
      simp only [mul_ite, mul_zero]
      rw [Finset.sum_ite_eq' (Finset.range l.rows) o, if_pos (Finset.mem_range.mpr ho)]
      rfl
    | succ c =>
      simp only [List.modify_succ_cons]
      exact ih hk.2 hc

theorem net_bias_deriv {n m : Nat} {ls : List RealLayer} (hd : Dims n ls m) (g : Nat → ℝ) {x : Nat → ℝ}
    (hk : NoKink ls x) {c o : Nat} {l : RealLayer} (hc : ls[c]? = some l) (ho : o < l.rows) :
    HasDerivAt (fun t => ∑ k ∈ Finset.range m, g k * realNet (ls.modify c fun l => l.withBias o t) x k)
      (realBiasGrad ls x g c o) (l.bias o) := by
  induction hd generalizing x c with
  | nil n => cases hc
  | cons l0 ls m hd ih =>
    cases c with
    | zero =>
      cases hc
      simp only [List.modify_zero_cons]
      refine (head_deriv hd g x (L := fun t => l.withBias o t) (withBias_self l o) hk
        (fun o' _ => bias_deriv l x o o' _)).congr_deriv ?_
      simp only [mul_ite, mul_zero, mul_one]
      rw [Finset.sum_ite_eq' (Finset.range l.rows) o, if_pos (Finset.mem_range.mpr ho)]
      rfl
    | succ c =>
      simp only [List.modify_succ_cons]
      exact ih hk.2 hc

end Rusty.Spec
