import Mathlib.Algebra.BigOperators.Ring.Finset
import Mathlib.Algebra.Order.BigOperators.Group.Finset
import Mathlib.Algebra.Order.BigOperators.Ring.Finset
import Mathlib.Algebra.Order.Field.Basic
import Mathlib.Data.Real.Basic
import Mathlib.Tactic.Linarith
import Mathlib.Tactic.Ring
import Mathlib.Tactic.FieldSimp

/-! # Weighted means

For weights `p` that sum to one, with the mean `m` of numbers `g` between `lo` and `hi`. -/

namespace Rusty

section
variable {s : Finset Nat} {p g : Nat → ℝ} {lo hi : ℝ}

theorem dev_eq (h1 : ∑ i ∈ s, p i = 1) (i : Nat) :
    g i - ∑ o ∈ s, p o * g o = ∑ o ∈ s, p o * (g i - g o) := by
  simp only [mul_sub]
  rw [Finset.sum_sub_distrib, ← Finset.sum_mul, h1, one_mul]

/-- no number is further from the mean than the weight of the others allows -/
theorem dev_le (hp : ∀ i ∈ s, 0 ≤ p i) (h1 : ∑ i ∈ s, p i = 1) (hg : ∀ i ∈ s, lo ≤ g i ∧ g i ≤ hi) {i : Nat}
    (hi' : i ∈ s) : |g i - ∑ o ∈ s, p o * g o| ≤ (1 - p i) * (hi - lo) := by
  rw [dev_eq h1]
  refine (Finset.abs_sum_le_sum_abs _ _).trans ?_
  rw [← Finset.add_sum_erase s _ hi', sub_self, mul_zero, abs_zero, zero_add]
  have e : 1 - p i = ∑ o ∈ s.erase i, p o := by rw [← h1, ← Finset.add_sum_erase s p hi']; ring
  rw [e, Finset.sum_mul]
  refine Finset.sum_le_sum fun o ho => ?_
  have ho' := Finset.mem_of_mem_erase ho
  rw [abs_mul, abs_of_nonneg (hp o ho')]
  refine mul_le_mul_of_nonneg_left ?_ (hp o ho')
  obtain ⟨a1, a2⟩ := hg i hi'
  obtain ⟨b1, b2⟩ := hg o ho'
  exact abs_le.mpr ⟨by linarith, by linarith⟩

theorem weight_le_one (hp : ∀ i ∈ s, 0 ≤ p i) (h1 : ∑ i ∈ s, p i = 1) {i : Nat} (h : i ∈ s) : p i ≤ 1 :=
  h1 ▸ Finset.single_le_sum hp h

/-- the weighted squares of the deviations -/
theorem variance_eq (h1 : ∑ i ∈ s, p i = 1) :
    ∑ i ∈ s, g i * (p i * (g i - ∑ o ∈ s, p o * g o)) = ∑ i ∈ s, p i * (g i - ∑ o ∈ s, p o * g o) ^ 2 := by
  have hm : ∑ i ∈ s, p i * (g i - ∑ o ∈ s, p o * g o) = 0 := by
    simp only [mul_sub]
    rw [Finset.sum_sub_distrib, ← Finset.sum_mul, h1, one_mul, sub_self]
  generalize ∑ o ∈ s, p o * g o = m at hm ⊢
  have : ∑ i ∈ s, g i * (p i * (g i - m)) - ∑ i ∈ s, p i * (g i - m) ^ 2 = m * ∑ i ∈ s, p i * (g i - m) := by
    rw [← Finset.sum_sub_distrib, Finset.mul_sum]
    exact Finset.sum_congr rfl fun i _ => by ring
  rw [hm, mul_zero] at this
  linarith

theorem variance_le (hp : ∀ i ∈ s, 0 ≤ p i) (h1 : ∑ i ∈ s, p i = 1) (hg : ∀ i ∈ s, lo ≤ g i ∧ g i ≤ hi) :
    ∑ i ∈ s, p i * (g i - ∑ o ∈ s, p o * g o) ^ 2 ≤ ((hi - lo) / 2) ^ 2 := by
  have hm : ∑ o ∈ s, p o * g o = ∑ o ∈ s, p o * g o := rfl
  generalize hm' : ∑ o ∈ s, p o * g o = m at hm ⊢
  have h0 : 0 ≤ ∑ i ∈ s, p i * ((g i - lo) * (hi - g i)) := Finset.sum_nonneg fun i h =>
    mul_nonneg (hp i h) (mul_nonneg (by linarith [(hg i h).1]) (by linarith [(hg i h).2]))
  have e : ∑ i ∈ s, p i * (g i - m) ^ 2 + ∑ i ∈ s, p i * ((g i - lo) * (hi - g i)) =
      (lo + hi - 2 * m) * ∑ i ∈ s, p i * g i + (m ^ 2 - lo * hi) * ∑ i ∈ s, p i := by
    rw [← Finset.sum_add_distrib, Finset.mul_sum, Finset.mul_sum, ← Finset.sum_add_distrib]
    exact Finset.sum_congr rfl fun i _ => by ring
  rw [hm', h1] at e
  nlinarith [sq_nonneg (m - (lo + hi) / 2)]

/-- the mean deviation is at most half the range -/
theorem mean_dev_le (hp : ∀ i ∈ s, 0 ≤ p i) (h1 : ∑ i ∈ s, p i = 1) (hg : ∀ i ∈ s, lo ≤ g i ∧ g i ≤ hi) :
    ∑ i ∈ s, |p i * (g i - ∑ o ∈ s, p o * g o)| ≤ (hi - lo) / 2 := by
  have hne : s.Nonempty := by
    by_contra h
    rw [Finset.not_nonempty_iff_eq_empty.mp h] at h1
    simp at h1
  obtain ⟨a, ha⟩ := hne
  have hr : lo ≤ hi := (hg a ha).1.trans (hg a ha).2
  rcases hr.eq_or_lt with e | hlt
  · refine le_of_eq_of_le (Finset.sum_eq_zero fun i h => ?_) (by linarith)
    have := dev_le hp h1 hg h
    rw [e, sub_self, mul_zero] at this
    rw [abs_mul, le_antisymm this (abs_nonneg _), mul_zero]
  · have hv := variance_le hp h1 hg
    generalize ∑ o ∈ s, p o * g o = m at hv ⊢
    have hr : 0 < (hi - lo) / 2 := by linarith
    generalize (hi - lo) / 2 = r at hv hr ⊢
    have h2 : ∑ i ∈ s, |p i * (g i - m)| * (2 * r) ≤ ∑ i ∈ s, (p i * (g i - m) ^ 2 + p i * r ^ 2) :=
      Finset.sum_le_sum fun i h => by
        rw [abs_mul, abs_of_nonneg (hp i h)]
        have h3 := mul_nonneg (hp i h) (sq_nonneg (|g i - m| - r))
        rw [← sq_abs (g i - m)]
        nlinarith
    rw [← Finset.sum_mul, Finset.sum_add_distrib, ← Finset.sum_mul, h1, one_mul] at h2
    nlinarith

/-- where nearly all weight is on one number the deviations are small -/
theorem mean_dev_saturated (hp : ∀ i ∈ s, 0 ≤ p i) (h1 : ∑ i ∈ s, p i = 1)
    (hg : ∀ i ∈ s, lo ≤ g i ∧ g i ≤ hi) {c : Nat} (hc : c ∈ s) :
    ∑ i ∈ s, |p i * (g i - ∑ o ∈ s, p o * g o)| ≤ 2 * (1 - p c) * (hi - lo) := by
  have hr : 0 ≤ hi - lo := by linarith [(hg c hc).1, (hg c hc).2]
  have hb : ∀ i ∈ s, |p i * (g i - ∑ o ∈ s, p o * g o)| ≤ p i * (1 - p i) * (hi - lo) := fun i h => by
    rw [abs_mul, abs_of_nonneg (hp i h), mul_assoc]
    exact mul_le_mul_of_nonneg_left (dev_le hp h1 hg h) (hp i h)
  refine (Finset.sum_le_sum hb).trans ?_
  rw [← Finset.sum_mul, ← Finset.add_sum_erase s _ hc]
  refine mul_le_mul_of_nonneg_right ?_ hr
  have e : 1 - p c = ∑ o ∈ s.erase c, p o := by rw [← h1, ← Finset.add_sum_erase s p hc]; ring
  have h3 : ∑ o ∈ s.erase c, p o * (1 - p o) ≤ ∑ o ∈ s.erase c, p o := Finset.sum_le_sum fun o ho => by
    have := hp o (Finset.mem_of_mem_erase ho)
    nlinarith
  have := weight_le_one hp h1 hc
  have := hp c hc
  nlinarith

end

end Rusty
