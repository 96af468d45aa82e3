import Verif.Lemmas.Gaussian
import Verif.Lemmas.IEEEIdentity
import Verif.Lemmas.Real
import Verif.Props.Random

/-! # C143: normally distributed fills follow their samples -/

namespace Rusty

open F32Ops Spec F32

variable [Libm]

/-- C143: every entry is `mean + std_dev z` for its own sample `z`, up to rounding. -/
theorem C143_values (b : Build) (rng : Nat → F32) (t : Tensor F32) (ht : t.WF) (mean sd : F32) (Z : ℝ)
    (h : GaussianBounds mean sd Z) (hz : SamplesIn rng t.shape.count Z) :
    ∃ t', t.fill_with_gaussian rng mean sd = .ok t' ∧ t'.WF ∧ t'.shape = t.shape ∧
      ∀ i j k, t.shape.Inside i j k → ∃ v, t'.get_item b (ix i j k) = .ok v ∧ v.isFinite = true ∧
        |v.toReal - (mean.toReal + sd.toReal * (rng (pos t.shape i j k)).toReal)| ≤ gaussianError mean sd Z := by
  obtain ⟨t', h1, h2, h3, h4⟩ := (C75_gaussian b rng t ht mean sd).1 h.2.1
  refine ⟨t', h1, h2, h3, fun i j k hin => ⟨_, h4 i j k hin, ?_⟩⟩
  obtain ⟨z1, z2⟩ := hz _ (pos_lt hin)
  exact (gaussian_close h z1 z2).2

/-- C143: a larger sample never gives a smaller entry (a larger one, if the standard deviation is negative). -/
theorem C143_order (b : Build) (rng : Nat → F32) (t t' : Tensor F32) (ht : t.WF) (mean sd : F32) (Z : ℝ)
    (h : GaussianBounds mean sd Z) (hz : SamplesIn rng t.shape.count Z)
    (ht' : t.fill_with_gaussian rng mean sd = .ok t') (i j k i' j' k' : Nat) (hin : t.shape.Inside i j k)
    (hin' : t.shape.Inside i' j' k')
    (hle : (rng (pos t.shape i j k)).toReal ≤ (rng (pos t.shape i' j' k')).toReal) :
    ∃ v v', t'.get_item b (ix i j k) = .ok v ∧ t'.get_item b (ix i' j' k') = .ok v' ∧
      (0 ≤ sd.toReal → v.toReal ≤ v'.toReal) ∧ (sd.toReal ≤ 0 → v'.toReal ≤ v.toReal) := by
  obtain ⟨t'', h1, _, _, h4⟩ := (C75_gaussian b rng t ht mean sd).1 h.2.1
  obtain rfl : t' = t'' := by rw [h1] at ht'; exact (Except.ok.inj ht').symm
  refine ⟨_, _, h4 i j k hin, h4 i' j' k' hin', fun h0 => ?_, fun h0 => ?_⟩
  all_goals
    obtain ⟨z1, z2⟩ := hz _ (pos_lt hin)
    obtain ⟨y1, y2⟩ := hz _ (pos_lt hin')
    obtain ⟨m1, a1, _⟩ := gaussian_close h z1 z2
    obtain ⟨m2, a2, _⟩ := gaussian_close h y1 y2
  · exact add_mono a1 a2 le_rfl (mul_mono_real m1 m2 (mul_le_mul_of_nonneg_left hle h0))
  · exact add_mono a2 a1 le_rfl (mul_mono_real m2 m1 (mul_le_mul_of_nonpos_left hle h0))

/-- C143: with standard deviation 0 every entry is the mean. -/
theorem C143_constant (b : Build) (rng : Nat → F32) (t : Tensor F32) (ht : t.WF) (mean sd : F32)
    (hm : mean.isFinite = true) (hs : sd.isFinite = true) (h0 : sd.toReal = 0)
    (hz : ∀ p < t.shape.count, (rng p).isFinite = true) :
    ∃ t', t.fill_with_gaussian rng mean sd = .ok t' ∧ ∀ i j k, t.shape.Inside i j k →
      ∃ v, t'.get_item b (ix i j k) = .ok v ∧ v.isFinite = true ∧ v.toReal = mean.toReal := by
  obtain ⟨t', h1, _, _, h4⟩ := (C75_gaussian b rng t ht mean sd).1 hs
  refine ⟨t', h1, fun i j k hin => ⟨_, h4 i j k hin, ?_⟩⟩
  obtain ⟨m1, m2⟩ := rounds_exact (mul_rounds hs (hz _ (pos_lt hin))) hs (by rw [h0, zero_mul])
  rw [h0, zero_mul] at m2
  obtain ⟨a1, a2⟩ := rounds_exact (add_rounds hm m1) hm (by rw [m2, add_zero])
  exact ⟨a1, by rw [a2, m2, add_zero]⟩

/-- C143: the entries are distributed as the samples are: for every `x`, as many entries are at most `x` as there are
samples up to `(x - mean) / std_dev`, but for the rounding error. -/
theorem C143_distribution (rng : Nat → F32) (t : Tensor F32) (ht : t.WF) (mean sd : F32) (Z : ℝ)
    (h : GaussianBounds mean sd Z) (hpos : 0 < sd.toReal) (hz : SamplesIn rng t.shape.count Z) (x : ℝ) :
    ∃ t', t.fill_with_gaussian rng mean sd = .ok t' ∧
      below rng t.shape.count ((x - mean.toReal - gaussianError mean sd Z) / sd.toReal) ≤ entriesBelow t' x ∧
      entriesBelow t' x ≤ below rng t.shape.count ((x - mean.toReal + gaussianError mean sd Z) / sd.toReal) := by
  obtain ⟨t', h1, _, h3, h4⟩ := gaussian_data rng t ht mean sd h.2.1
  refine ⟨t', h1, Finset.card_le_card ?_, Finset.card_le_card ?_⟩
  · intro p hp
    obtain ⟨hp1, hp2⟩ := Finset.mem_filter.mp hp
    have hp1 := Finset.mem_range.mp hp1
    refine Finset.mem_filter.mpr ⟨by rw [h3]; exact Finset.mem_range.mpr hp1, fun v hv => ?_⟩
    rw [h4 p hp1] at hv
    obtain rfl := Option.some.inj hv
    have e := (abs_le.mp (gaussian_close h (hz p hp1).1 (hz p hp1).2).2.2).2
    rw [le_div_iff₀ hpos] at hp2
    linarith
  · intro p hp
    obtain ⟨hp1, hp2⟩ := Finset.mem_filter.mp hp
    rw [h3] at hp1
    have hp1 := Finset.mem_range.mp hp1
    refine Finset.mem_filter.mpr ⟨Finset.mem_range.mpr hp1, ?_⟩
    have hp2 := hp2 _ (h4 p hp1)
    have e := (abs_le.mp (gaussian_close h (hz p hp1).1 (hz p hp1).2).2.2).1
    rw [le_div_iff₀ hpos]
    linarith

/-- C143: so is the average: it is `mean + std_dev` times the average sample, but for the rounding error. -/
theorem C143_average (rng : Nat → F32) (t : Tensor F32) (ht : t.WF) (mean sd : F32) (Z : ℝ)
    (h : GaussianBounds mean sd Z) (hz : SamplesIn rng t.shape.count Z) (hne : 0 < t.shape.count) :
    ∃ t', t.fill_with_gaussian rng mean sd = .ok t' ∧
      |(t'.data.map F32.toReal).sum / t.shape.count -
        (mean.toReal + sd.toReal * ((∑ p ∈ Finset.range t.shape.count, (rng p).toReal) / t.shape.count))| ≤
          gaussianError mean sd Z := by
  obtain ⟨t', h1, h2, h3, h4⟩ := gaussian_data rng t ht mean sd h.2.1
  refine ⟨t', h1, ?_⟩
  have hlen : t'.data.length = t.shape.count := by rw [h2.len, h3]
  have hd : t'.data.map F32.toReal =
      (List.range t.shape.count).map fun p => (F32.add mean (F32.mul sd (rng p))).toReal := by
    refine List.ext_getElem (by simp [hlen]) fun p q1 q2 => ?_
    have hp : p < t.shape.count := by simpa using q2
    have := h4 p hp
    rw [List.getElem?_eq_getElem (by rw [hlen]; exact hp)] at this
    simp [Option.some.inj this]
  have hN : (0 : ℝ) < t.shape.count := by exact_mod_cast hne
  rw [hd, list_sum_range]
  have e : (∑ p ∈ Finset.range t.shape.count, (F32.add mean (F32.mul sd (rng p))).toReal) / t.shape.count -
      (mean.toReal + sd.toReal * ((∑ p ∈ Finset.range t.shape.count, (rng p).toReal) / t.shape.count)) =
      (∑ p ∈ Finset.range t.shape.count, ((F32.add mean (F32.mul sd (rng p))).toReal -
        (mean.toReal + sd.toReal * (rng p).toReal))) / t.shape.count := by
    rw [Finset.sum_sub_distrib, Finset.sum_add_distrib, Finset.sum_const, Finset.card_range, nsmul_eq_mul,
      ← Finset.mul_sum]
    field_simp
  rw [e, abs_div, abs_of_pos hN, div_le_iff₀ hN]
  refine (Finset.abs_sum_le_sum_abs _ _).trans ?_
  refine (Finset.sum_le_card_nsmul _ _ (gaussianError mean sd Z) fun p hp => ?_).trans ?_
  · have hp := Finset.mem_range.mp hp
    exact (gaussian_close h (hz p hp).1 (hz p hp).2).2.2
  · rw [Finset.card_range, nsmul_eq_mul, mul_comm]

/-! ## Examples -/

omit [Libm] in
/-- the standard normal distribution, with samples of magnitude up to 100, is in range -/
example : GaussianBounds ⟨0⟩ ⟨0x3f800000⟩ 100 ∧ 0 < (⟨0x3f800000⟩ : F32).toReal ∧
    gaussianError ⟨0⟩ ⟨0x3f800000⟩ 100 = 300 / 2 ^ 24 + 1 / 2 ^ 149 := by
  have one : (⟨0x3f800000⟩ : F32).toReal = 1 := by
    rw [toReal_eq, show (⟨0x3f800000⟩ : F32).sign = false by decide,
      show (⟨0x3f800000⟩ : F32).code = 127 * 2 ^ 23 by decide, units_one]
    norm_num
  have nil : (⟨0⟩ : F32).toReal = 0 := by
    rw [toReal_eq, show (⟨0⟩ : F32).code = 0 by decide, show units 0 = 0 by decide]
    norm_num
  refine ⟨⟨by decide, by decide, by norm_num, ?_⟩, by rw [one]; norm_num, ?_⟩
  · rw [one, nil]; norm_num
  · unfold gaussianError
    rw [one, nil]; norm_num

omit [Libm] in
/-- samples: 1 and 0 in turn -/
example : SamplesIn (fun p => if p % 2 = 0 then ⟨0x3f800000⟩ else ⟨0⟩) 6 1 := fun p _ => by
  have one : (⟨0x3f800000⟩ : F32).toReal = 1 := by
    rw [toReal_eq, show (⟨0x3f800000⟩ : F32).sign = false by decide,
      show (⟨0x3f800000⟩ : F32).code = 127 * 2 ^ 23 by decide, units_one]
    norm_num
  have nil : (⟨0⟩ : F32).toReal = 0 := by
    rw [toReal_eq, show (⟨0⟩ : F32).code = 0 by decide, show units 0 = 0 by decide]
    norm_num
  beta_reduce
  split
  · rw [one]; exact ⟨by decide, by norm_num⟩
  · rw [nil]; exact ⟨by decide, by norm_num⟩

end Rusty
