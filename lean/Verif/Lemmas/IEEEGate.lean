import Verif.Lemmas.IEEEError
import Verif.Lemmas.IEEESum

/-! # Helper lemmas: multiplication by 0 and 1, and gradients that accumulate -/

namespace Rusty.F32

/-- multiplying by 1 is exact -/
theorem one_mul_toReal [Libm] {x : F32} (h : x.isFinite = true) :
    (mul F32Ops.one x).isFinite = true ∧ (mul F32Ops.one x).toReal = x.toReal := by
  have hc := finite_iff.mp h
  have e : mul F32Ops.one x = x := by
    change mul (mk' false (127 * 2 ^ 23)) x = x
    unfold mul
    rw [finite_nan h, finite_inf h, mk'_code (by decide), mk'_sign (by decide), units_one,
      show (mk' false (127 * 2 ^ 23)).isNaN = false by decide,
      show (mk' false (127 * 2 ^ 23)).isInf = false by decide]
    simp only [Bool.or_self, Bool.false_eq_true, if_false, Bool.false_bne]
    rw [Nat.mul_comm, roundCode_units (by positivity) hc.le, mk'_eta]
  rw [e]
  exact ⟨h, rfl⟩

/-- multiplying a finite number by 0 gives 0 -/
theorem zero_mul_toReal [Libm] {x : F32} (h : x.isFinite = true) :
    (mul F32Ops.zero x).isFinite = true ∧ (mul F32Ops.zero x).toReal = 0 := by
  have e : mul F32Ops.zero x = mk' x.sign 0 := by
    change mul (mk' false 0) x = _
    unfold mul
    rw [finite_nan h, finite_inf h, mk'_code (by decide), mk'_sign (by decide), units_zero,
      show (mk' false 0).isNaN = false by decide, show (mk' false 0).isInf = false by decide]
    simp only [Bool.or_self, Bool.false_eq_true, if_false, Bool.false_bne, Nat.zero_mul]
    rw [show roundCode 0 (2 ^ 149) = 0 by unfold roundCode rne excess; simp]
  rw [e, toReal_mk' (by decide), units_zero, finite_iff, mk'_code (by decide)]
  exact ⟨by decide, by simp⟩

/-- the gate of a relu, applied to a gradient -/
theorem gate_toReal [Libm] (c : Bool) {x : F32} (h : x.isFinite = true) :
    (mul (if c then F32Ops.one else F32Ops.zero) x).isFinite = true ∧
      (mul (if c then F32Ops.one else F32Ops.zero) x).toReal = if c then x.toReal else 0 := by
  cases c
  · exact zero_mul_toReal h
  · exact one_mul_toReal h

/-- a relu output is positive exactly if its argument is -/
theorem gt_relu [Libm] (v : F32) : gt (Spec.relu v) F32Ops.zero = gt v F32Ops.zero := by
  unfold Spec.relu
  change gt (if gt v F32Ops.zero = true then v else F32Ops.zero) F32Ops.zero = _
  by_cases h : gt v F32Ops.zero = true
  · rw [if_pos h]
  · rw [if_neg h, Bool.not_eq_true _ |>.mp h]
    change gt (mk' false 0) (mk' false 0) = false
    decide

/-- adding a product to an accumulator -/
theorem acc_error [Libm] {old a x : F32} (ho : old.isFinite = true) (ha : a.isFinite = true)
    (hx : x.isFinite = true) (hA : |old.toReal| + |a.toReal * x.toReal| ≤ 2 ^ 125) :
    (add old (Spec.sum [mul a x])).isFinite = true ∧
      |(add old (Spec.sum [mul a x])).toReal - (old.toReal + a.toReal * x.toReal)| ≤
        |old.toReal| / 2 ^ 24 + |a.toReal * x.toReal| / 2 ^ 21 + 1 / 2 ^ 148 := by
  have h0 := abs_nonneg old.toReal
  have hp0 := abs_nonneg (a.toReal * x.toReal)
  have hf := dot_finite [()] (fun _ => a) (fun _ => x) (by decide) (fun _ _ => ⟨ha, hx⟩)
    (by simp only [List.map_cons, List.map_nil, List.sum_cons, List.sum_nil]; linarith)
  have he := (dot_error [()] (fun _ => a) (fun _ => x) hf).2
  simp only [List.map_cons, List.map_nil, List.sum_cons, List.sum_nil, add_zero, List.length_cons,
    List.length_nil, Nat.zero_add] at hf he
  have he := he.trans (errBound_le (n := 1) (by decide) hp0)
  push_cast at he
  have tri : |(Spec.sum [mul a x]).toReal| ≤ |a.toReal * x.toReal| +
      |(Spec.sum [mul a x]).toReal - a.toReal * x.toReal| := by
    have := abs_add_le (a.toReal * x.toReal)
      ((Spec.sum [mul a x]).toReal - a.toReal * x.toReal)
    rwa [add_sub_cancel] at this
  have tri2 := abs_add_le old.toReal (Spec.sum [mul a x]).toReal
  have h125 : (2 : ℝ) ^ 127 = 4 * 2 ^ 125 := by
    rw [show (4 : ℝ) = 2 ^ 2 by norm_num, ← pow_add]
  have h149 : (1 : ℝ) / 2 ^ 149 ≤ 1 := by
    rw [div_le_one (by positivity)]
    exact one_le_pow₀ (by norm_num)
  have hbig : (1 : ℝ) ≤ 2 ^ 125 := one_le_pow₀ (by norm_num)
  have hfin : (add old (Spec.sum [mul a x])).isFinite = true := by
    apply add_finite ho hf
    rw [h125]
    generalize (2 : ℝ) ^ 125 = B at *
    generalize (1 : ℝ) / 2 ^ 149 = E at *
    norm_num [-abs_mul] at he
    linarith
  refine ⟨hfin, ?_⟩
  have e1 := add_error hfin
  have tri3 : |(add old (Spec.sum [mul a x])).toReal - (old.toReal + a.toReal * x.toReal)| ≤
      |(add old (Spec.sum [mul a x])).toReal - (old.toReal + (Spec.sum [mul a x]).toReal)| +
        |(Spec.sum [mul a x]).toReal - a.toReal * x.toReal| := by
    have := abs_add_le ((add old (Spec.sum [mul a x])).toReal -
      (old.toReal + (Spec.sum [mul a x]).toReal)) ((Spec.sum [mul a x]).toReal - a.toReal * x.toReal)
    refine le_trans (le_of_eq ?_) this
    congr 1
    ring
  rw [show (1 : ℝ) / 2 ^ 148 = 2 * (1 / 2 ^ 149) by
    rw [show (2 : ℝ) ^ 149 = 2 * 2 ^ 148 by rw [← pow_succ']]
    field_simp]
  have hE : (0 : ℝ) < 1 / 2 ^ 149 := by positivity
  generalize (1 : ℝ) / 2 ^ 149 = E at *
  norm_num [-abs_mul] at he e1 ⊢
  linarith

end Rusty.F32
