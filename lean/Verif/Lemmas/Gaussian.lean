import Verif.Spec.Gaussian
import Verif.Lemmas.IEEEMonotone
import Verif.Lemmas.IEEEError
import Verif.Model.Random

/-! # Helper lemmas: rounding of normally distributed numbers -/

namespace Rusty

open F32Ops Spec F32

/-- a scaled and shifted sample is finite and near its exact value -/
theorem gaussian_close {mean sd z : F32} {Z : ℝ} (h : GaussianBounds mean sd Z) (fz : z.isFinite = true)
    (hz : |z.toReal| ≤ Z) : (F32.mul sd z).isFinite = true ∧ (F32.add mean (F32.mul sd z)).isFinite = true ∧
      |(F32.add mean (F32.mul sd z)).toReal - (mean.toReal + sd.toReal * z.toReal)| ≤ gaussianError mean sd Z := by
  obtain ⟨fm, fs, hZ, hr⟩ := h
  have hsz : |sd.toReal * z.toReal| ≤ |sd.toReal| * Z := by
    rw [abs_mul]
    exact mul_le_mul_of_nonneg_left hz (abs_nonneg _)
  have h0 : 0 ≤ |sd.toReal| * Z := mul_nonneg (abs_nonneg _) hZ
  have hm0 := abs_nonneg mean.toReal
  have f1 : (F32.mul sd z).isFinite = true := mul_finite fs fz (by linarith)
  have e1 := mul_error f1
  have hP : |(F32.mul sd z).toReal| ≤ |sd.toReal * z.toReal| + (|sd.toReal * z.toReal| / 2 ^ 24 + 1 / 2 ^ 150) := by
    have := abs_sub_abs_le_abs_sub (F32.mul sd z).toReal (sd.toReal * z.toReal)
    linarith
  have hS : |mean.toReal + (F32.mul sd z).toReal| ≤ |mean.toReal| + |(F32.mul sd z).toReal| := abs_add_le _ _
  have f2 : (F32.add mean (F32.mul sd z)).isFinite = true := add_finite fm f1 (by
    have : |sd.toReal * z.toReal| / 2 ^ 24 ≤ |sd.toReal| * Z / 2 ^ 24 := div_le_div_of_nonneg_right hsz (by positivity)
    linarith)
  have e2 := add_error f2
  refine ⟨f1, f2, ?_⟩
  have tri : |(F32.add mean (F32.mul sd z)).toReal - (mean.toReal + sd.toReal * z.toReal)| ≤
      |(F32.add mean (F32.mul sd z)).toReal - (mean.toReal + (F32.mul sd z).toReal)| +
        |(F32.mul sd z).toReal - sd.toReal * z.toReal| := by
    have := abs_add_le ((F32.add mean (F32.mul sd z)).toReal - (mean.toReal + (F32.mul sd z).toReal))
      ((F32.mul sd z).toReal - sd.toReal * z.toReal)
    rwa [show (F32.add mean (F32.mul sd z)).toReal - (mean.toReal + (F32.mul sd z).toReal) +
      ((F32.mul sd z).toReal - sd.toReal * z.toReal) =
      (F32.add mean (F32.mul sd z)).toReal - (mean.toReal + sd.toReal * z.toReal) by ring] at this
  unfold gaussianError
  linarith

/-- the numbers a fill leaves, place by place -/
theorem gaussian_data [Libm] (rng : Nat → F32) (t : Tensor F32) (ht : t.WF) (mean sd : F32)
    (hs : sd.isFinite = true) : ∃ t', t.fill_with_gaussian rng mean sd = .ok t' ∧ t'.WF ∧ t'.shape = t.shape ∧
      ∀ p < t.shape.count, t'.data[p]? = some (F32.add mean (F32.mul sd (rng p))) := by
  refine ⟨t.fill_with_samples fun n => F32.add mean (F32.mul sd (rng n)), ?_, ?_, rfl, fun p hp => ?_⟩
  · unfold Tensor.fill_with_gaussian
    rw [if_pos hs]
  · exact ⟨ht.fits, ht.si, ht.sj, ht.sk, by simpa [Tensor.fill_with_samples] using ht.len⟩
  · have : p < t.data.length := by rw [ht.len]; exact hp
    simp [Tensor.fill_with_samples, this]

end Rusty
