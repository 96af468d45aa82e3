import Verif.Props.NetworkDerivative
import Verif.Lemmas.Passing

/-! # C159: how much of a gradient a softmax layer passes on

In exact arithmetic, when `SoftmaxLayer::backward` is given the output `p` that `forward` computed and a gradient `g`. -/

namespace Rusty

open F32Ops Spec Exact

/-- C159: if the entries of the gradient lie between `lo` and `hi`, no entry that is passed on is larger in absolute value
than `p_i (1 - p_i) (hi - lo)`, which is at most a quarter of the range; all of them together are at most half the
range; and if nearly all probability is on the entry `c`, they are at most `2 (1 - p_c) (hi - lo)` together. -/
theorem C159_bound (b : Build) (l : SoftmaxLayer ℝ) (hl : l.Ok) (hm : l.run_state = .Training)
    (hj : l.shape.dj = 1) (hk : l.shape.dk = 1) (x out p g og og' : Tensor ℝ) (l' : SoftmaxLayer ℝ) (hx : x.WF)
    (hxs : x.shape = l.shape) (ho : out.WF) (hos : out.shape = l.shape) (hg : g.WF)
    (hgs : g.shape = l.shape) (hog : og.WF) (hogs : og.shape = l.shape)
    (hf : l.forward b x out = .ok (.ok (), l, p)) (hb : l.backward b x p g og = .ok (.ok (), l', og'))
    (lo hi : ℝ) (hr : ∀ i, i < l.shape.di.toNat → lo ≤ val g i 0 0 ∧ val g i 0 0 ≤ hi) (c : Nat)
    (hc : c < l.shape.di.toNat) :
    |val og' c 0 0| ≤ val p c 0 0 * (1 - val p c 0 0) * (hi - lo) ∧ |val og' c 0 0| ≤ (hi - lo) / 4 ∧
    ∑ i ∈ Finset.range l.shape.di.toNat, |val og' i 0 0| ≤ (hi - lo) / 2 ∧
    ∑ i ∈ Finset.range l.shape.di.toNat, |val og' i 0 0| ≤ 2 * (1 - val p c 0 0) * (hi - lo) := by
  obtain ⟨a1, a2, a3⟩ := passed_column b hl hm hj hk hx hxs ho hos hg hgs hog hogs hf hb
  have hcm := Finset.mem_range.mpr hc
  have h1 := a2 c hcm
  have hp : ∀ i ∈ Finset.range l.shape.di.toNat, 0 ≤ val p i 0 0 := fun i h => (a1 i h).le
  have hr' : ∀ i ∈ Finset.range l.shape.di.toNat, lo ≤ val g i 0 0 ∧ val g i 0 0 ≤ hi :=
    fun i h => hr i (Finset.mem_range.mp h)
  have e : ∑ i ∈ Finset.range l.shape.di.toNat, |val og' i 0 0| = ∑ i ∈ Finset.range l.shape.di.toNat,
      |val p i 0 0 * (val g i 0 0 - ∑ o ∈ Finset.range l.shape.di.toNat, val p o 0 0 * val g o 0 0)| :=
    Finset.sum_congr rfl fun i h => by rw [a3 i h]
  have hd : |val og' c 0 0| ≤ val p c 0 0 * (1 - val p c 0 0) * (hi - lo) := by
    rw [a3 c hcm, abs_mul, abs_of_nonneg (hp c hcm), mul_assoc]
    exact mul_le_mul_of_nonneg_left
      (dev_le (p := fun i => val p i 0 0) (g := fun i => val g i 0 0) hp h1 hr' hcm) (hp c hcm)
  refine ⟨hd, hd.trans ?_, ?_, ?_⟩
  · have : 0 ≤ hi - lo := by linarith [(hr c hc).1, (hr c hc).2]
    nlinarith [mul_nonneg this (sq_nonneg (val p c 0 0 - 1 / 2))]
  · rw [e]
    exact mean_dev_le (p := fun i => val p i 0 0) (g := fun i => val g i 0 0) hp h1 hr'
  · rw [e]
    exact mean_dev_saturated (p := fun i => val p i 0 0) (g := fun i => val g i 0 0) hp h1 hr' hcm

/-- C159: the gradient that is passed on never points against the one that came in: their product is the variance of the
entries of `g` under the probabilities `p`.  It is zero only if all entries of `g` are equal, and then, and only then,
nothing is passed on. -/
theorem C159_direction (b : Build) (l : SoftmaxLayer ℝ) (hl : l.Ok) (hm : l.run_state = .Training)
    (hj : l.shape.dj = 1) (hk : l.shape.dk = 1) (x out p g og og' : Tensor ℝ) (l' : SoftmaxLayer ℝ) (hx : x.WF)
    (hxs : x.shape = l.shape) (ho : out.WF) (hos : out.shape = l.shape) (hg : g.WF)
    (hgs : g.shape = l.shape) (hog : og.WF) (hogs : og.shape = l.shape)
    (hf : l.forward b x out = .ok (.ok (), l, p)) (hb : l.backward b x p g og = .ok (.ok (), l', og')) :
    0 ≤ ∑ i ∈ Finset.range l.shape.di.toNat, val g i 0 0 * val og' i 0 0 ∧
    (∑ i ∈ Finset.range l.shape.di.toNat, val g i 0 0 * val og' i 0 0 = 0 ↔
      ∀ i i', i < l.shape.di.toNat → i' < l.shape.di.toNat → val g i 0 0 = val g i' 0 0) ∧
    ((∀ i, i < l.shape.di.toNat → val og' i 0 0 = 0) ↔
      ∀ i i', i < l.shape.di.toNat → i' < l.shape.di.toNat → val g i 0 0 = val g i' 0 0) := by
  obtain ⟨a1, a2, a3⟩ := passed_column b hl hm hj hk hx hxs ho hos hg hgs hog hogs hf hb
  have e : ∑ i ∈ Finset.range l.shape.di.toNat, val g i 0 0 * val og' i 0 0 =
      ∑ i ∈ Finset.range l.shape.di.toNat, val p i 0 0 * (val g i 0 0 -
        ∑ o ∈ Finset.range l.shape.di.toNat, val p o 0 0 * val g o 0 0) ^ 2 := by
    rcases Nat.eq_zero_or_pos l.shape.di.toNat with h0 | h0
    · rw [h0]; rfl
    · rw [← variance_eq (p := fun i => val p i 0 0) (g := fun i => val g i 0 0) (a2 0 (Finset.mem_range.mpr h0))]
      exact Finset.sum_congr rfl fun i h => by rw [a3 i h]
  have hnn : ∀ i ∈ Finset.range l.shape.di.toNat, 0 ≤ val p i 0 0 * (val g i 0 0 -
      ∑ o ∈ Finset.range l.shape.di.toNat, val p o 0 0 * val g o 0 0) ^ 2 := fun i h =>
    mul_nonneg (a1 i h).le (sq_nonneg _)
  have hz : (∀ i, i < l.shape.di.toNat → val og' i 0 0 = 0) →
      ∀ i i', i < l.shape.di.toNat → i' < l.shape.di.toNat → val g i 0 0 = val g i' 0 0 := fun h i i' h1 h2 => by
    have k : ∀ i, i < l.shape.di.toNat → val g i 0 0 =
        ∑ o ∈ Finset.range l.shape.di.toNat, val p o 0 0 * val g o 0 0 := fun i hi => by
      have := h i hi
      rw [a3 i (Finset.mem_range.mpr hi)] at this
      rcases mul_eq_zero.mp this with q | q
      · exact absurd q (a1 i (Finset.mem_range.mpr hi)).ne'
      · exact sub_eq_zero.mp q
    rw [k i h1, k i' h2]
  have hz' : (∀ i i', i < l.shape.di.toNat → i' < l.shape.di.toNat → val g i 0 0 = val g i' 0 0) →
      ∀ i, i < l.shape.di.toNat → val og' i 0 0 = 0 := fun h i hi => by
    have hm := Finset.mem_range.mpr hi
    rw [a3 i hm, dev_eq (p := fun i => val p i 0 0) (g := fun i => val g i 0 0) (a2 i hm),
      Finset.sum_eq_zero fun o ho => by rw [h i o hi (Finset.mem_range.mp ho), sub_self, mul_zero], mul_zero]
  refine ⟨by rw [e]; exact Finset.sum_nonneg hnn, ⟨fun h => hz fun i hi => ?_, fun h => ?_⟩, hz, hz'⟩
  · rw [e] at h
    have := (Finset.sum_eq_zero_iff_of_nonneg hnn).mp h i (Finset.mem_range.mpr hi)
    rw [a3 i (Finset.mem_range.mpr hi)]
    rcases mul_eq_zero.mp this with q | q
    · rw [q, zero_mul]
    · rw [pow_eq_zero_iff (two_ne_zero)] at q
      rw [q, mul_zero]
  · exact Finset.sum_eq_zero fun i hi => by rw [hz' h i (Finset.mem_range.mp hi), mul_zero]

/-! ## Non-vacuity -/

/-- a layer, with all its tensors, and the gradient (0, 1, 0) -/
example (b : Build) : ∃ (l : SoftmaxLayer ℝ) (x out p g og og' : Tensor ℝ) (l' : SoftmaxLayer ℝ), l.Ok ∧
    l.run_state = .Training ∧ l.shape.dj = 1 ∧ l.shape.dk = 1 ∧ x.WF ∧ x.shape = l.shape ∧ out.WF ∧
    out.shape = l.shape ∧ g.WF ∧ g.shape = l.shape ∧ og.WF ∧ og.shape = l.shape ∧
    l.forward b x out = .ok (.ok (), l, p) ∧ l.backward b x p g og = .ok (.ok (), l', og') ∧
    (∀ i, i < l.shape.di.toNat → (0 : ℝ) ≤ val g i 0 0 ∧ val g i 0 0 ≤ 1) ∧ val g 0 0 0 ≠ val g 1 0 0 := by
  have w : (zeros ⟨3, 1, 1⟩ : Tensor ℝ).WF := zeros_wf (by decide)
  have wg : ({ (zeros ⟨3, 1, 1⟩ : Tensor ℝ) with data := [0, 1, 0] } : Tensor ℝ).WF := wf_data w _ rfl
  obtain ⟨p, h1, h2, h3, _⟩ := column_forward b exSMR rfl rfl _ _ w rfl w rfl
  obtain ⟨l', og', r1, _⟩ := column_backward b exSMR_ok rfl rfl rfl (zeros ⟨3, 1, 1⟩) h2 h3 wg rfl w rfl
  refine ⟨exSMR, _, _, p, _, _, og', l', exSMR_ok, rfl, rfl, rfl, w, rfl, w, rfl, wg, rfl, w, rfl, h1, r1, ?_, ?_⟩
  · intro i hi
    have hi : i < 3 := hi
    have : i = 0 ∨ i = 1 ∨ i = 2 := by omega
    rcases this with rfl | rfl | rfl
    · change (0 : ℝ) ≤ 0 ∧ (0 : ℝ) ≤ 1
      norm_num
    · change (0 : ℝ) ≤ 1 ∧ (1 : ℝ) ≤ 1
      norm_num
    · change (0 : ℝ) ≤ 0 ∧ (0 : ℝ) ≤ 1
      norm_num
  · change (0 : ℝ) ≠ 1
    norm_num

end Rusty
