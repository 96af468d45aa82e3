import Verif.Lemmas.Backward
import Verif.Lemmas.IEEEGate
import Verif.Lemmas.IEEERounding

/-! # Helper lemmas: rounding errors of the gradient of softmax -/

namespace Rusty.F32

open F32

/-- multiplying by -1 is exact -/
theorem mul_negOne [Libm] {x : F32} (h : x.isFinite = true) :
    (mul x F32Ops.negOne).isFinite = true ∧ (mul x F32Ops.negOne).toReal = -x.toReal := by
  have hc := finite_iff.mp h
  have hlt : x.code < 2 ^ 31 := hc.trans (by decide)
  have e : mul x F32Ops.negOne = mk' (!x.sign) x.code := by
    change mul x (mk' true (127 * 2 ^ 23)) = _
    unfold mul
    rw [finite_nan h, finite_inf h, mk'_code (by decide), mk'_sign (by decide), units_one,
      show (mk' true (127 * 2 ^ 23)).isNaN = false by decide,
      show (mk' true (127 * 2 ^ 23)).isInf = false by decide]
    simp only [Bool.or_self, Bool.false_eq_true, if_false, Bool.bne_true]
    rw [roundCode_units (by positivity) hc.le]
  rw [e, finite_iff, mk'_code hlt, toReal_mk' hlt, toReal_eq x]
  refine ⟨hc, ?_⟩
  cases x.sign <;> simp

/-- the quotient of -1 and a number that is not too small -/
theorem negOne_div [Libm] {y : F32} (fy : y.isFinite = true) (hy : 1 / 2 ^ 126 ≤ y.toReal) :
    (div F32Ops.negOne y).isFinite = true ∧
      |y.toReal * (div F32Ops.negOne y).toReal + 1| ≤ 1 / 2 ^ 24 + y.toReal / 2 ^ 150 := by
  have hp : 0 < y.toReal := lt_of_lt_of_le (by positivity) hy
  have f1 : (F32Ops.negOne : F32).isFinite = true := by
    change (mk' true (127 * 2 ^ 23)).isFinite = true; decide
  have f2 : (F32Ops.one : F32).isFinite = true := by
    change (mk' false (127 * 2 ^ 23)).isFinite = true; decide
  have r1 : (F32Ops.one : F32).toReal = 1 := by
    change (mk' false (127 * 2 ^ 23)).toReal = 1
    rw [toReal_mk' (by decide), units_one]
    norm_num
  have hc0 : y.code ≠ 0 := by
    intro e
    rw [toReal_eq, e, units_zero] at hp
    simp at hp
  have hs : y.sign = false := by
    rw [toReal_eq] at hp
    cases h : y.sign
    · rfl
    · rw [h] at hp
      have : (0 : ℝ) ≤ (units y.code : ℝ) / 2 ^ 149 := by positivity
      norm_num at hp
      linarith
  have hr := (div_rounds f2 fy hp.ne').nearest (by
    rw [r1, abs_of_pos (by positivity)]
    refine lt_of_le_of_lt (b := (2 : ℝ) ^ 126) ?_ (by norm_num)
    rw [div_le_iff₀ hp]
    have := mul_le_mul_of_nonneg_left hy (show (0 : ℝ) ≤ 2 ^ 126 by positivity)
    rwa [mul_one_div_cancel (by positivity)] at this)
  have he := div_error (x := F32Ops.one) (y := y)
    (by change (mk' false (127 * 2 ^ 23)).sign = false; decide) hs f2 fy (by omega) hr.1
  have e1 : div F32Ops.one y = mk' false (roundCode (units (127 * 2 ^ 23) * 2 ^ 149) (units y.code)) := by
    unfold div
    rw [finite_nan f2, finite_nan fy, finite_inf f2, finite_inf fy, hs,
      show (F32Ops.one : F32).sign = false by change (mk' false (127 * 2 ^ 23)).sign = false; decide,
      show (F32Ops.one : F32).code = 127 * 2 ^ 23 by change (mk' false (127 * 2 ^ 23)).code = _; decide]
    simp only [Bool.or_self, Bool.false_eq_true, if_false, bne_self_eq_false]
    rw [if_neg hc0]
  have e2 : div F32Ops.negOne y = mk' true (roundCode (units (127 * 2 ^ 23) * 2 ^ 149) (units y.code)) := by
    unfold div
    rw [finite_nan f1, finite_nan fy, finite_inf f1, finite_inf fy, hs,
      show (F32Ops.negOne : F32).sign = true by change (mk' true (127 * 2 ^ 23)).sign = true; decide,
      show (F32Ops.negOne : F32).code = 127 * 2 ^ 23 by change (mk' true (127 * 2 ^ 23)).code = _; decide]
    simp only [Bool.or_self, Bool.false_eq_true, if_false, Bool.bne_false]
    rw [if_neg hc0]
  have hn : (div F32Ops.negOne y).toReal = - (div F32Ops.one y).toReal := by
    rw [e1, e2, toReal_mk' (roundCode_lt _ _), toReal_mk' (roundCode_lt _ _)]
    simp
  refine ⟨?_, ?_⟩
  · have := hr.1
    rw [e1, finite_iff, mk'_code (roundCode_lt _ _)] at this
    rw [e2, finite_iff, mk'_code (roundCode_lt _ _)]
    exact this
  · rw [hn]
    rw [r1] at he
    have := mul_le_mul_of_nonneg_left he hp.le
    rw [← abs_of_pos hp, ← abs_mul, abs_of_pos hp] at this
    refine le_trans (le_of_eq ?_) (this.trans (le_of_eq ?_))
    · rw [← abs_neg]
      congr 1
      field_simp
      ring
    · field_simp

/-- the arithmetic of one entry of the gradient that softmax passes on -/
theorem softmax_grad_near [Libm] {n : Nat} (y g : Nat → F32) (hn : n < 2 ^ 22)
    (hy : ∀ o < n, (y o).isFinite = true ∧ |(y o).toReal| ≤ 1)
    (hg : ∀ o < n, (g o).isFinite = true)
    (hA : ((List.range n).map fun o => |(y o).toReal * (g o).toReal|).sum ≤ 2 ^ 120)
    {i : Nat} (hi : i < n) :
    (add (mul (y i) (g i)) (Spec.sum [mul (y i) (mul (Spec.sum ((List.range n).map fun o =>
      mul (y o) (g o))) F32Ops.negOne)])).isFinite = true ∧
    |(add (mul (y i) (g i)) (Spec.sum [mul (y i) (mul (Spec.sum ((List.range n).map fun o =>
      mul (y o) (g o))) F32Ops.negOne)])).toReal -
      ((y i).toReal * ((g i).toReal - ((List.range n).map fun o => (y o).toReal * (g o).toReal).sum))| ≤
      (n + 11) / 2 ^ 23 * ((List.range n).map fun o => |(y o).toReal * (g o).toReal|).sum +
        (n + 5) / 2 ^ 149 := by
  have hf : ∀ o ∈ List.range n, (y o).isFinite = true ∧ (g o).isFinite = true := fun o ho =>
    ⟨(hy o (List.mem_range.mp ho)).1, hg o (List.mem_range.mp ho)⟩
  have hA' : ((List.range n).map fun o => |(y o).toReal * (g o).toReal|).sum ≤ 2 ^ 125 :=
    hA.trans (by norm_num)
  have hsf := dot_finite (List.range n) y g (by rwa [List.length_range]) hf hA'
  have hse := (dot_error (List.range n) y g hsf).2
  have hA0 : 0 ≤ ((List.range n).map fun o => |(y o).toReal * (g o).toReal|).sum :=
    (abs_nonneg _).trans (abs_sum_le (List.range n) fun o => (y o).toReal * (g o).toReal)
  have hSA := abs_sum_le (List.range n) fun o => (y o).toReal * (g o).toReal
  have hse := hse.trans (errBound_le (by rw [List.length_range]; omega) hA0)
  rw [List.length_range] at hse
  have hiA : |(y i).toReal * (g i).toReal| ≤
      ((List.range n).map fun o => |(y o).toReal * (g o).toReal|).sum :=
    List.single_le_sum (by
      intro x hx
      obtain ⟨o, _, rfl⟩ := List.mem_map.mp hx
      exact abs_nonneg _) _ (List.mem_map.mpr ⟨i, List.mem_range.mpr hi, rfl⟩)
  obtain ⟨hy1, hy2⟩ := hy i hi
  have hgi := hg i hi
  generalize ((List.range n).map fun o => |(y o).toReal * (g o).toReal|).sum = A at *
  generalize ((List.range n).map fun o => (y o).toReal * (g o).toReal).sum = S at *
  generalize Spec.sum ((List.range n).map fun o => mul (y o) (g o)) = s at *
  obtain ⟨hnf, hnv⟩ := mul_negOne hsf
  have hof := mul_finite hy1 hgi (hiA.trans (hA.trans (by norm_num)))
  have hoe := mul_error hof
  have hnr : (n : ℝ) ≤ 4194304 := by exact_mod_cast (show n ≤ 4194304 from hn.le)
  have hn0 : (0 : ℝ) ≤ n := Nat.cast_nonneg n
  have hsb : |s.toReal| ≤ 2 * A + n / 2 ^ 149 := by
    have h1 := abs_add_le S (s.toReal - S)
    rw [add_sub_cancel] at h1
    have h2 : (n + 1) / 2 ^ 23 * A ≤ 1 * A := by
      apply mul_le_mul_of_nonneg_right _ hA0
      rw [div_le_one (by positivity)]
      norm_num
      linarith
    linarith
  have hys : |(y i).toReal * (mul s F32Ops.negOne).toReal| ≤ 2 * A + n / 2 ^ 149 := by
    rw [hnv, abs_mul, abs_neg]
    calc |(y i).toReal| * |s.toReal| ≤ 1 * |s.toReal| :=
          mul_le_mul_of_nonneg_right hy2 (abs_nonneg _)
      _ ≤ _ := by rw [one_mul]; exact hsb
  have hold : |(mul (y i) (g i)).toReal| ≤ 2 * A + 1 / 2 ^ 149 := by
    have h1 := abs_add_le ((y i).toReal * (g i).toReal)
      ((mul (y i) (g i)).toReal - (y i).toReal * (g i).toReal)
    rw [add_sub_cancel] at h1
    have h2 : |(y i).toReal * (g i).toReal| / 2 ^ 24 ≤ A := by
      refine (div_le_self (abs_nonneg _) (by norm_num)).trans hiA
    have h3 : (1 : ℝ) / 2 ^ 150 ≤ 1 / 2 ^ 149 := by
      apply one_div_le_one_div_of_le (by positivity)
      exact pow_le_pow_right₀ (by norm_num) (by norm_num)
    linarith
  have hn149 : (n : ℝ) / 2 ^ 149 ≤ 1 := by
    rw [div_le_one (by positivity)]
    exact hnr.trans (by norm_num)
  have h149 : (1 : ℝ) / 2 ^ 149 ≤ 1 := by
    rw [div_le_one (by positivity)]
    norm_num
  obtain ⟨r1, r2⟩ := acc_error hof hy1 hnf (by
    refine (add_le_add hold hys).trans ?_
    have : (2 : ℝ) ^ 125 = 32 * 2 ^ 120 := by norm_num
    rw [this]
    have : (1 : ℝ) ≤ 2 ^ 120 := by norm_num
    linarith)
  refine ⟨r1, ?_⟩
  generalize (add (mul (y i) (g i)) (Spec.sum [mul (y i) (mul s F32Ops.negOne)])).toReal = v at *
  rw [hnv] at r2 hys
  generalize (mul (y i) (g i)).toReal = old at *
  have hp : |(y i).toReal * (s.toReal - S)| ≤ (n + 1) / 2 ^ 23 * A + n / 2 ^ 149 := by
    rw [abs_mul]
    calc |(y i).toReal| * |s.toReal - S| ≤ 1 * |s.toReal - S| :=
          mul_le_mul_of_nonneg_right hy2 (abs_nonneg _)
      _ ≤ _ := by rw [one_mul]; exact hse
  have tri : |v - ((y i).toReal * ((g i).toReal - S))| ≤
      |v - (old + (y i).toReal * -s.toReal)| + (|old - (y i).toReal * (g i).toReal| +
        |(y i).toReal * (s.toReal - S)|) := by
    have h1 := abs_add_le (v - (old + (y i).toReal * -s.toReal))
      ((old - (y i).toReal * (g i).toReal) - (y i).toReal * (s.toReal - S))
    have h2 := abs_sub (old - (y i).toReal * (g i).toReal) ((y i).toReal * (s.toReal - S))
    refine le_trans (le_of_eq ?_) (h1.trans (add_le_add_right h2 _))
    congr 1
    ring
  have key : |old| / 2 ^ 24 + |(y i).toReal * -s.toReal| / 2 ^ 21 + 1 / 2 ^ 148 +
      (|(y i).toReal * (g i).toReal| / 2 ^ 24 + 1 / 2 ^ 150 +
        ((n + 1) / 2 ^ 23 * A + n / 2 ^ 149)) ≤ (n + 11) / 2 ^ 23 * A + (n + 5) / 2 ^ 149 := by
    have e148 : (1 : ℝ) / 2 ^ 148 = 2 * (1 / 2 ^ 149) := by
      rw [show (2 : ℝ) ^ 149 = 2 * 2 ^ 148 by rw [← pow_succ']]
      field_simp
    have e150 : (1 : ℝ) / 2 ^ 150 = 1 / 2 * (1 / 2 ^ 149) := by
      rw [show (2 : ℝ) ^ 150 = 2 * 2 ^ 149 by rw [← pow_succ']]
      field_simp
    have en : (n : ℝ) / 2 ^ 149 = n * (1 / 2 ^ 149) := by ring
    have en4 : ((n : ℝ) + 5) / 2 ^ 149 = (n + 5) * (1 / 2 ^ 149) := by ring
    rw [en] at hys hsb ⊢
    rw [e148, e150, en4]
    have hE : (0 : ℝ) < 1 / 2 ^ 149 := by positivity
    have hnE : (n : ℝ) * (1 / 2 ^ 149) ≤ 4194304 * (1 / 2 ^ 149) :=
      mul_le_mul_of_nonneg_right hnr hE.le
    have : (n + 11) / 2 ^ 23 * A - (n + 1) / 2 ^ 23 * A = 10 / 2 ^ 23 * A := by ring
    generalize (1 : ℝ) / 2 ^ 149 = E at *
    generalize |(y i).toReal * -s.toReal| = P at *
    generalize |(y i).toReal * (g i).toReal| = Q at *
    norm_num [-mul_neg, -abs_neg, -abs_mul] at this ⊢
    linarith
  linarith

end Rusty.F32
