import Verif.Props.NetworkDerivative
import Verif.Lemmas.CrossEntropy

/-! # C115: what a softmax layer passes on

The gradient that `SoftmaxLayer::backward` passes on, in exact arithmetic, when it is given the output
that `forward` computed. -/

namespace Rusty

open F32Ops Spec Exact

/-- C115: the gradient that a softmax layer on a column passes on sums to zero. -/
theorem C115_sum (b : Build) (l : SoftmaxLayer ℝ) (hl : l.Ok) (hm : l.run_state = .Training)
    (hj : l.shape.dj = 1) (hk : l.shape.dk = 1) (x out g og : Tensor ℝ) (hx : x.WF)
    (hxs : x.shape = l.shape) (ho : out.WF) (hos : out.shape = l.shape) (hg : g.WF)
    (hgs : g.shape = l.shape) (hog : og.WF) (hogs : og.shape = l.shape) :
    ∃ p l' og', l.forward b x out = .ok (.ok (), l, p) ∧
      l.backward b x p g og = .ok (.ok (), l', og') ∧
      ∑ i ∈ Finset.range l.shape.di.toNat, val og' i 0 0 = 0 := by
  obtain ⟨p, h1, h2, h3, h5⟩ := column_forward b l hj hk x out hx hxs ho hos
  obtain ⟨l', og', r1, r2, r3, r4⟩ := column_backward b hl hm hj hk x h2 h3 hg hgs hog hogs
  refine ⟨p, l', og', h1, r1, ?_⟩
  rw [Finset.sum_congr rfl fun i hi => r4 i (Finset.mem_range.mp hi)]
  rw [Finset.sum_sub_distrib, ← Finset.sum_mul]
  rcases Nat.eq_zero_or_pos l.shape.di.toNat with h0 | h0
  · rw [h0]
    simp
  · rw [(h5 0 h0).2]
    ring

/-- C115: adding a constant to all entries of the gradient changes nothing. -/
theorem C115_shift (b : Build) (l : SoftmaxLayer ℝ) (hl : l.Ok) (hm : l.run_state = .Training)
    (hj : l.shape.dj = 1) (hk : l.shape.dk = 1) (x out g g2 og : Tensor ℝ) (c : ℝ) (hx : x.WF)
    (hxs : x.shape = l.shape) (ho : out.WF) (hos : out.shape = l.shape) (hg : g.WF)
    (hgs : g.shape = l.shape) (hg2 : g2.WF) (hgs2 : g2.shape = l.shape)
    (hc : ∀ i, i < l.shape.di.toNat → val g2 i 0 0 = val g i 0 0 + c)
    (hog : og.WF) (hogs : og.shape = l.shape) :
    ∃ p l' l2 og', l.forward b x out = .ok (.ok (), l, p) ∧
      l.backward b x p g og = .ok (.ok (), l', og') ∧
      l.backward b x p g2 og = .ok (.ok (), l2, og') := by
  obtain ⟨p, h1, h2, h3, h5⟩ := column_forward b l hj hk x out hx hxs ho hos
  obtain ⟨l', og', r1, r2, r3, r4⟩ := column_backward b hl hm hj hk x h2 h3 hg hgs hog hogs
  obtain ⟨l2, og2, s1, s2, s3, s4⟩ := column_backward b hl hm hj hk x h2 h3 hg2 hgs2 hog hogs
  have e : og2 = og' := by
    refine tensor_ext s2 r2 (s3.trans r3.symm) fun i j k hin => ?_
    rw [s3] at hin
    obtain ⟨hi, hj', hk'⟩ := hin
    rw [hj] at hj'
    rw [hk] at hk'
    obtain rfl : j = 0 := by have : j < 1 := hj'; omega
    obtain rfl : k = 0 := by have : k < 1 := hk'; omega
    rw [s4 i hi, r4 i hi]
    have : ∑ o ∈ Finset.range l.shape.di.toNat, val p o 0 0 * val g2 o 0 0 =
        ∑ o ∈ Finset.range l.shape.di.toNat, val p o 0 0 * val g o 0 0 + c := by
      rw [Finset.sum_congr rfl fun o ho => by rw [hc o (Finset.mem_range.mp ho), mul_add],
        Finset.sum_add_distrib, ← Finset.sum_mul, (h5 i hi).2, one_mul]
    rw [this, hc i hi]
    ring
  exact ⟨p, l', l2, og', h1, r1, e ▸ s1⟩

/-- C115: given the derivative of the cross entropy `-∑ t_i log p_i` with respect to the output `p`,
which is `-t_i / p_i`, a softmax layer passes on `p_i - t_i`, whenever the targets sum to one. -/
theorem C115_crossEntropy (b : Build) (l : SoftmaxLayer ℝ) (hl : l.Ok)
    (hm : l.run_state = .Training) (hj : l.shape.dj = 1) (hk : l.shape.dk = 1)
    (x out p og : Tensor ℝ) (t : Nat → ℝ) (hx : x.WF) (hxs : x.shape = l.shape) (ho : out.WF)
    (hos : out.shape = l.shape) (hf : l.forward b x out = .ok (.ok (), l, p))
    (ht : ∑ i ∈ Finset.range l.shape.di.toNat, t i = 1) (g : Tensor ℝ) (hg : g.WF)
    (hgs : g.shape = l.shape)
    (hgv : ∀ i, i < l.shape.di.toNat → val g i 0 0 = - t i / val p i 0 0)
    (hog : og.WF) (hogs : og.shape = l.shape) :
    ∃ l' og', l.backward b x p g og = .ok (.ok (), l', og') ∧
      ∀ i, i < l.shape.di.toNat → og'.get_item b (ix i 0 0) = .ok (val p i 0 0 - t i) := by
  obtain ⟨p', h1, h2, h3, h4⟩ := column_forward b l hj hk x out hx hxs ho hos
  rw [hf] at h1
  cases h1
  obtain ⟨l', og', r1, r2, r3, r4⟩ := column_backward b hl hm hj hk x h2 h3 hg hgs hog hogs
  refine ⟨l', og', r1, fun i hi => ?_⟩
  rw [get_item_ok r2 (by rw [r3]; exact ⟨hi, by rw [hj]; decide, by rw [hk]; decide⟩), r4 i hi]
  have hv : ∀ o, o < l.shape.di.toNat → val p o 0 0 * val g o 0 0 = - t o := fun o ho => by
    rw [hgv o ho]
    field_simp [(h4 o ho).1.ne']
  rw [Finset.sum_congr rfl fun o ho => hv o (Finset.mem_range.mp ho), hv i hi,
    Finset.sum_neg_distrib, ht]
  congr 1
  ring

/-- non-vacuity: the layer of `exSMR` with the first class as target -/
example : ∃ (l : SoftmaxLayer ℝ) (t : Nat → ℝ), l.Ok ∧ l.run_state = .Training ∧ l.shape.dj = 1 ∧
    l.shape.dk = 1 ∧ ∑ i ∈ Finset.range l.shape.di.toNat, t i = 1 :=
  ⟨exSMR, fun i => if i = 0 then 1 else 0, exSMR_ok, rfl, rfl, rfl, by
    show ∑ i ∈ Finset.range 3, (if i = 0 then (1 : ℝ) else 0) = 1
    simp⟩

end Rusty
