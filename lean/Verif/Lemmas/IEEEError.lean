import Verif.Lemmas.IEEE
import Verif.Spec.IEEE
import Verif.Spec.Layers
import Mathlib.Tactic.Positivity
import Mathlib.Tactic.GCongr

/-! # Helper lemmas: rounding errors -/

namespace Rusty.F32

/-! ## Infinity and NaN persist -/

theorem nan_not_finite : nan.isFinite = false := by decide

theorem mk'_inf_not_finite (s : Bool) : (mk' s infCode).isFinite = false := by
  unfold isFinite
  rw [mk'_code infCode_lt]
  simp

theorem finite_of_add {x y : F32} (h : (add x y).isFinite = true) :
    x.isFinite = true ∧ y.isFinite = true := by
  unfold add at h
  split at h
  · rw [nan_not_finite] at h; cases h
  · next h1 =>
    simp only [Bool.or_eq_true, not_or, Bool.not_eq_true] at h1
    split at h
    · next h2 =>
      split at h
      · rw [nan_not_finite] at h; cases h
      · rw [isFinite_iff, h2] at h; cases h.2
    · next h2 =>
      split at h
      · next h3 => rw [isFinite_iff, h3] at h; cases h.2
      · next h3 =>
        simp only [Bool.not_eq_true] at h2 h3
        exact ⟨isFinite_iff.mpr ⟨h1.1, h2⟩, isFinite_iff.mpr ⟨h1.2, h3⟩⟩

theorem finite_of_mul {x y : F32} (h : (mul x y).isFinite = true) :
    x.isFinite = true ∧ y.isFinite = true := by
  unfold mul at h
  simp only at h
  split at h
  · rw [nan_not_finite] at h; cases h
  · next h1 =>
    simp only [Bool.or_eq_true, not_or, Bool.not_eq_true] at h1
    split at h
    · next h2 =>
      split at h
      · rw [nan_not_finite] at h; cases h
      · rw [mk'_inf_not_finite] at h; cases h
    · next h2 =>
      split at h
      · split at h
        · rw [nan_not_finite] at h; cases h
        · rw [mk'_inf_not_finite] at h; cases h
      · next h3 =>
        simp only [Bool.not_eq_true] at h2 h3
        exact ⟨isFinite_iff.mpr ⟨h1.1, h2⟩, isFinite_iff.mpr ⟨h1.2, h3⟩⟩

/-! ## The error of one operation -/

/-- the value of a sign and a magnitude -/
theorem toReal_mk' {s : Bool} {c : Nat} (h : c < 2 ^ 31) :
    (mk' s c).toReal = (if s then -1 else 1) * (units c / 2 ^ 149) := by
  unfold toReal toInt
  rw [mk'_sign h, mk'_code h]
  cases s <;> simp
  ring

theorem toReal_eq (x : F32) : x.toReal = (if x.sign then -1 else 1) * (units x.code / 2 ^ 149) := by
  conv_lhs => rw [← mk'_eta x]
  exact toReal_mk' (code_lt x)

theorem raw_of_finite {s : Bool} {a d : Nat} (h : (mk' s (roundCode a d)).isFinite = true) :
    roundCode a d = rawCode a d := by
  rw [finite_iff, mk'_code (roundCode_lt _ _), roundCode_eq] at h
  rw [roundCode_eq]
  omega

theorem rawCode_int (a : Nat) : 2 ^ 24 * units (rawCode a 1) ≤ 2 ^ 24 * a + a ∧
    2 ^ 24 * a ≤ 2 ^ 24 * units (rawCode a 1) + a := by
  by_cases h : 2 ^ 23 ≤ a
  · have := rawCode_relative (a := a) (d := 1) (by decide) (by omega)
    rwa [Nat.mul_one] at this
  · have e : units (rawCode a 1) = a := by
      rw [units_rawCode (by decide), Nat.div_one, excess_zero (by omega), pow_zero, Nat.mul_one,
        Nat.mul_one]
      conv_lhs => rw [← Nat.mul_one a]
      exact rne_mul (by decide)
    rw [e]
    omega

/-- relative error of an addition: at most `2^-24` -/
theorem add_error {x y : F32} (h : (add x y).isFinite = true) :
    |(add x y).toReal - (x.toReal + y.toReal)| ≤ |x.toReal + y.toReal| / 2 ^ 24 := by
  obtain ⟨fx, fy⟩ := finite_of_add h
  have hsum : x.toReal + y.toReal = ((x.toInt + y.toInt : Int) : ℝ) / 2 ^ 149 := by
    unfold toReal
    push_cast
    ring
  have e : add x y = if x.toInt + y.toInt = 0 then mk' (x.sign && y.sign) 0
      else mk' (decide (x.toInt + y.toInt < 0)) (roundCode (x.toInt + y.toInt).natAbs 1) := by
    unfold add
    rw [finite_nan fx, finite_nan fy, finite_inf fx, finite_inf fy]
    simp
  rw [e] at h ⊢
  rw [hsum]
  generalize x.toInt + y.toInt = z at *
  by_cases hz : z = 0
  · rw [if_pos hz, toReal_mk' (by decide), hz, units_zero]
    simp
  · rw [if_neg hz] at h ⊢
    rw [toReal_mk' (roundCode_lt _ _), raw_of_finite h]
    obtain ⟨r1, r2⟩ := rawCode_int z.natAbs
    generalize units (rawCode z.natAbs 1) = U at *
    have r1' : (2 : ℝ) ^ 24 * U ≤ 2 ^ 24 * z.natAbs + z.natAbs := by exact_mod_cast r1
    have r2' : (2 : ℝ) ^ 24 * z.natAbs ≤ 2 ^ 24 * U + z.natAbs := by exact_mod_cast r2
    have hzr : (z : ℝ) = (if decide (z < 0) = true then -1 else 1) * (z.natAbs : ℝ) := by
      by_cases hn : z < 0
      · simp only [hn, decide_true, if_true]
        have h0 : ((z.natAbs : Int) : ℝ) = ((-z : Int) : ℝ) := congrArg _ (by omega)
        rw [Int.cast_natCast, Int.cast_neg] at h0
        rw [h0]
        ring
      · simp only [hn, decide_false, Bool.false_eq_true, if_false]
        have h0 : ((z.natAbs : Int) : ℝ) = (z : ℝ) := congrArg _ (by omega)
        rw [Int.cast_natCast] at h0
        rw [h0]
        ring
    rw [hzr]
    generalize (z.natAbs : ℝ) = n at *
    have hs : |(if decide (z < 0) = true then (-1 : ℝ) else 1)| = 1 := by split <;> simp
    have hn : 0 ≤ n := by nlinarith
    generalize (if decide (z < 0) = true then (-1 : ℝ) else 1) = s at *
    rw [show s * ((U : ℝ) / 2 ^ 149) - s * n / 2 ^ 149 = s * ((U - n) / 2 ^ 149) by ring,
      show s * n / 2 ^ 149 = s * (n / 2 ^ 149) by ring, abs_mul, abs_mul, hs, one_mul, one_mul,
      abs_div, abs_div, abs_of_nonneg hn, abs_of_pos (a := (2 : ℝ) ^ 149) (by positivity),
      div_right_comm]
    apply div_le_div_of_nonneg_right _ (by positivity)
    rw [abs_le, le_div_iff₀ (by positivity)]
    norm_num at r1' r2' ⊢
    constructor <;> linarith

/-- error of a multiplication: relative `2^-24`, or half the smallest positive number -/
theorem mul_error {x y : F32} (h : (mul x y).isFinite = true) :
    |(mul x y).toReal - x.toReal * y.toReal| ≤ |x.toReal * y.toReal| / 2 ^ 24 + 1 / 2 ^ 150 := by
  obtain ⟨fx, fy⟩ := finite_of_mul h
  have e : mul x y = mk' (x.sign != y.sign) (roundCode (units x.code * units y.code) (2 ^ 149)) := by
    unfold mul
    rw [finite_nan fx, finite_nan fy, finite_inf fx, finite_inf fy]
    simp
  rw [e] at h ⊢
  rw [toReal_mk' (roundCode_lt _ _), raw_of_finite h, toReal_eq x, toReal_eq y]
  have hs : (if (x.sign != y.sign) = true then (-1 : ℝ) else 1) =
      (if x.sign = true then -1 else 1) * (if y.sign = true then -1 else 1) := by
    cases x.sign <;> cases y.sign <;> simp
  rw [hs]
  have h1 : |(if x.sign = true then (-1 : ℝ) else 1)| = 1 := by split <;> simp
  have h2 : |(if y.sign = true then (-1 : ℝ) else 1)| = 1 := by split <;> simp
  generalize (if x.sign = true then (-1 : ℝ) else 1) = s at *
  generalize (if y.sign = true then (-1 : ℝ) else 1) = t at *
  generalize hA : units x.code * units y.code = A
  have hprod : s * ((units x.code : ℝ) / 2 ^ 149) * (t * ((units y.code : ℝ) / 2 ^ 149)) =
      s * t * ((A : ℝ) / 2 ^ 149 / 2 ^ 149) := by
    rw [← hA]
    push_cast
    ring
  have hst : |s * t| = 1 := by rw [abs_mul, h1, h2, one_mul]
  rw [hprod, ← mul_sub, abs_mul (s * t), abs_mul (s * t), hst, one_mul, one_mul]
  have hhalf := rawCode_half (a := A) (d := 2 ^ 149) (by positivity)
  have herr : 2 ^ 24 * (units (rawCode A (2 ^ 149)) * 2 ^ 149) ≤ 2 ^ 24 * A + A + 2 ^ 23 * 2 ^ 149 ∧
      2 ^ 24 * A ≤ 2 ^ 24 * (units (rawCode A (2 ^ 149)) * 2 ^ 149) + A + 2 ^ 23 * 2 ^ 149 := by
    by_cases hb : 2 ^ 23 * 2 ^ 149 ≤ A
    · have := rawCode_relative (a := A) (d := 2 ^ 149) (by positivity) hb
      omega
    · have hk : excess (A / 2 ^ 149) = 0 := by
        apply excess_zero
        rw [Nat.div_lt_iff_lt_mul (by positivity)]
        omega
      rw [hk, pow_zero, Nat.mul_one] at hhalf
      omega
  generalize units (rawCode A (2 ^ 149)) = U at *
  have r1 : (2 : ℝ) ^ 24 * (U * 2 ^ 149) ≤ 2 ^ 24 * A + A + 2 ^ 23 * 2 ^ 149 := by
    exact_mod_cast herr.1
  have r2 : (2 : ℝ) ^ 24 * A ≤ 2 ^ 24 * (U * 2 ^ 149) + A + 2 ^ 23 * 2 ^ 149 := by
    exact_mod_cast herr.2
  have hA0 : (0 : ℝ) ≤ A := by positivity
  rw [show (U : ℝ) / 2 ^ 149 - (A : ℝ) / 2 ^ 149 / 2 ^ 149 =
      (U * 2 ^ 149 - A) / (2 ^ 149 * 2 ^ 149) by
    rw [div_div, div_sub_div _ _ (by positivity) (by positivity)]
    rw [div_eq_div_iff (by positivity) (by positivity)]
    ring]
  rw [abs_div, abs_of_pos (a := (2 : ℝ) ^ 149 * 2 ^ 149) (by positivity), div_div,
    abs_of_nonneg (a := (A : ℝ) / (2 ^ 149 * 2 ^ 149)) (by positivity)]
  have key : |(U : ℝ) * 2 ^ 149 - (A : ℝ)| ≤ (A : ℝ) / 2 ^ 24 + 2 ^ 149 / 2 := by
    rw [abs_le]
    generalize (2 : ℝ) ^ 149 = P at *
    norm_num at r1 r2 ⊢
    constructor <;> linarith
  calc |(U : ℝ) * 2 ^ 149 - (A : ℝ)| / (2 ^ 149 * 2 ^ 149)
      ≤ ((A : ℝ) / 2 ^ 24 + 2 ^ 149 / 2) / (2 ^ 149 * 2 ^ 149) :=
        div_le_div_of_nonneg_right key (by positivity)
    _ = (A : ℝ) / (2 ^ 149 * 2 ^ 149) / 2 ^ 24 + 1 / 2 ^ 150 := by
        rw [add_div]
        congr 1
        · rw [div_right_comm]
        · rw [show (2 : ℝ) ^ 150 = 2 * 2 ^ 149 by rw [← pow_succ']]
          rw [div_div, div_eq_div_iff (by positivity) (by positivity)]
          ring

/-! ## The error of a sum of products -/

section Dot

variable [Libm]

theorem sum_append_singleton (l : List F32) (x : F32) : Spec.sum (l ++ [x]) = add (Spec.sum l) x := by
  unfold Spec.sum
  rw [List.foldl_append]
  rfl

theorem toReal_zero : (F32Ops.zero : F32).toReal = 0 := by
  change (mk' false 0).toReal = 0
  rw [toReal_mk' (by decide), units_zero]
  simp

/-- forward error of a sum of products, computed left to right in binary32 -/
theorem dot_error {ι : Type} (l : List ι) (f g : ι → F32)
    (h : (Spec.sum (l.map fun n => mul (f n) (g n))).isFinite = true) :
    (∀ n ∈ l, (f n).isFinite = true ∧ (g n).isFinite = true) ∧
    |(Spec.sum (l.map fun n => mul (f n) (g n))).toReal -
        (l.map fun n => (f n).toReal * (g n).toReal).sum| ≤
      errBound l.length (l.map fun n => |(f n).toReal * (g n).toReal|).sum := by
  unfold errBound
  induction l using List.reverseRecOn with
  | nil =>
    refine ⟨by simp, ?_⟩
    change |(F32Ops.zero : F32).toReal - 0| ≤ _
    rw [toReal_zero]
    simp
  | append_singleton l n ih =>
    rw [List.map_append, List.map_singleton, sum_append_singleton] at h ⊢
    obtain ⟨hs, hm⟩ := finite_of_add h
    obtain ⟨ihf, ih⟩ := ih hs
    refine ⟨?_, ?_⟩
    · intro m hmem
      rcases List.mem_append.mp hmem with h1 | h1
      · exact ihf m h1
      · rw [List.mem_singleton.mp h1]
        exact finite_of_mul hm
    · have e1 := add_error h
      have e2 := mul_error hm
      generalize (add (Spec.sum (l.map fun n => mul (f n) (g n))) (mul (f n) (g n))).toReal = R at *
      generalize (Spec.sum (l.map fun n => mul (f n) (g n))).toReal = S at *
      generalize (mul (f n) (g n)).toReal = P at *
      rw [List.map_append, List.map_append, List.sum_append, List.sum_append, List.map_singleton,
        List.map_singleton, List.sum_singleton, List.sum_singleton, List.length_append,
        List.length_singleton]
      have hA : |(l.map fun n => (f n).toReal * (g n).toReal).sum| ≤
          (l.map fun n => |(f n).toReal * (g n).toReal|).sum := by
        have := List.le_sum_of_subadditive (fun x : ℝ => |x|) (abs_zero).le abs_add_le
          (l.map fun n => (f n).toReal * (g n).toReal)
        rwa [List.map_map] at this
      generalize (l.map fun n => (f n).toReal * (g n).toReal).sum = s at *
      generalize (l.map fun n => |(f n).toReal * (g n).toReal|).sum = A at *
      generalize (f n).toReal * (g n).toReal = p at *
      generalize l.length = k at *
      have hA0 : 0 ≤ A := le_trans (abs_nonneg _) hA
      have hu : (0 : ℝ) < u := by positivity
      have hη : (0 : ℝ) < eta := by positivity
      rw [show |S + P| / 2 ^ 24 = u * |S + P| by ring] at e1
      rw [show |p| / 2 ^ 24 = u * |p| by ring] at e2
      change |P - p| ≤ u * |p| + eta at e2
      generalize u = u at *
      generalize eta = η at *
      have hp1 : (1 : ℝ) ≤ (1 + u) ^ k := one_le_pow₀ (by linarith)
      have hS : |S| ≤ A + |S - s| := by
        have := abs_add_le s (S - s)
        rw [add_sub_cancel] at this
        linarith
      have hP : |P| ≤ |p| + |P - p| := by
        have := abs_add_le p (P - p)
        rwa [add_sub_cancel] at this
      have hSP : |S + P| ≤ A + |S - s| + (|p| + |P - p|) := (abs_add_le S P).trans (by linarith)
      have hR : |R - (s + p)| ≤ |R - (S + P)| + (|S - s| + |P - p|) := by
        have h1 := abs_add_le (R - (S + P)) ((S - s) + (P - p))
        have h2 := abs_add_le (S - s) (P - p)
        rw [show R - (S + P) + ((S - s) + (P - p)) = R - (s + p) by ring] at h1
        linarith
      have hmul : u * |S + P| ≤ u * (A + |S - s| + (|p| + |P - p|)) :=
        mul_le_mul_of_nonneg_left hSP hu.le
      have hE : (1 + u) * |S - s| ≤ (1 + u) * (((1 + u) ^ (k + 1) - 1) * A + k * (1 + u) ^ k * η) :=
        mul_le_mul_of_nonneg_left ih (by linarith)
      have hD : (1 + u) * |P - p| ≤ (1 + u) * (u * |p| + η) :=
        mul_le_mul_of_nonneg_left e2 (by linarith)
      have hpa : 0 ≤ |p| := abs_nonneg p
      have q1 : (1 + u) ^ 2 * |p| ≤ (1 + u) ^ (k + 2) * |p| := by
        apply mul_le_mul_of_nonneg_right _ hpa
        exact pow_le_pow_right₀ (by linarith) (by omega)
      have q2 : (1 + u) * η ≤ (1 + u) ^ (k + 1) * η := by
        apply mul_le_mul_of_nonneg_right _ hη.le
        conv_lhs => rw [← pow_one (1 + u)]
        exact pow_le_pow_right₀ (by linarith) (by omega)
      push_cast
      have x1 : (1 + u) ^ (k + 1 + 1) = (1 + u) * (1 + u) ^ (k + 1) := pow_succ' _ _
      have x2 : (1 + u) ^ (k + 1) = (1 + u) * (1 + u) ^ k := pow_succ' _ _
      have x3 : (1 + u) ^ (k + 2) = (1 + u) * (1 + u) ^ (k + 1) := pow_succ' _ _
      rw [x3] at q1
      rw [x1]
      generalize (1 + u) ^ (k + 1) = W at *
      generalize (1 + u) ^ k = V at *
      subst x2
      nlinarith

end Dot

/-- adding a last term to a sum whose error is bounded -/
theorem add_errBound {n : Nat} {s A : ℝ} {S β : F32} (h : (add S β).isFinite = true)
    (hs : |s| ≤ A) (he : |S.toReal - s| ≤ errBound n A) :
    |(add S β).toReal - (s + β.toReal)| ≤ errBound (n + 1) (A + |β.toReal|) := by
  have e1 := add_error h
  unfold errBound at *
  generalize (add S β).toReal = R at *
  generalize S.toReal = S at *
  generalize β.toReal = p at *
  have hA0 : 0 ≤ A := le_trans (abs_nonneg _) hs
  have hu : (0 : ℝ) < u := by positivity
  have hη : (0 : ℝ) < eta := by positivity
  rw [show |S + p| / 2 ^ 24 = u * |S + p| by ring] at e1
  generalize u = u at *
  generalize eta = η at *
  have hp1 : (1 : ℝ) ≤ (1 + u) ^ n := one_le_pow₀ (by linarith)
  have hS : |S| ≤ A + |S - s| := by
    have := abs_add_le s (S - s)
    rw [add_sub_cancel] at this
    linarith
  have hSP : |S + p| ≤ A + |S - s| + |p| := (abs_add_le S p).trans (by linarith)
  have hR : |R - (s + p)| ≤ |R - (S + p)| + |S - s| := by
    have h1 := abs_add_le (R - (S + p)) (S - s)
    rwa [show R - (S + p) + (S - s) = R - (s + p) by ring] at h1
  have hmul : u * |S + p| ≤ u * (A + |S - s| + |p|) := mul_le_mul_of_nonneg_left hSP hu.le
  have hE : (1 + u) * |S - s| ≤ (1 + u) * (((1 + u) ^ (n + 1) - 1) * A + n * (1 + u) ^ n * η) :=
    mul_le_mul_of_nonneg_left he (by linarith)
  have hpa : 0 ≤ |p| := abs_nonneg p
  have q1 : (1 + u) * |p| ≤ (1 + u) ^ (n + 2) * |p| := by
    apply mul_le_mul_of_nonneg_right _ hpa
    conv_lhs => rw [← pow_one (1 + u)]
    exact pow_le_pow_right₀ (by linarith) (by omega)
  have q2 : 0 ≤ (1 + u) ^ (n + 1) * η := by positivity
  push_cast
  have x1 : (1 + u) ^ (n + 1 + 1) = (1 + u) * (1 + u) ^ (n + 1) := pow_succ' _ _
  have x2 : (1 + u) ^ (n + 1) = (1 + u) * (1 + u) ^ n := pow_succ' _ _
  have x3 : (1 + u) ^ (n + 2) = (1 + u) * (1 + u) ^ (n + 1) := pow_succ' _ _
  rw [x3] at q1
  rw [x1]
  generalize (1 + u) ^ (n + 1) = W at *
  generalize (1 + u) ^ n = V at *
  subst x2
  nlinarith

theorem abs_sum_le {ι : Type} (l : List ι) (f : ι → ℝ) :
    |(l.map f).sum| ≤ (l.map fun n => |f n|).sum := by
  have := List.le_sum_of_subadditive (fun x : ℝ => |x|) (abs_zero).le abs_add_le (l.map f)
  rwa [List.map_map] at this

/-! ## A readable form of the bound -/

theorem pow_le_linear {m : Nat} (h : m ≤ 2 ^ 23) : (1 + u) ^ m ≤ 1 + 2 * m * u := by
  have hm : (m : ℝ) * u ≤ 1 / 2 := by
    have : (m : ℝ) ≤ 2 ^ 23 := by exact_mod_cast h
    unfold u
    rw [mul_one_div, div_le_iff₀ (by positivity)]
    norm_num at this ⊢
    linarith
  have hu : (0 : ℝ) < u := by positivity
  generalize u = u at *
  clear h
  induction m with
  | zero => simp
  | succ m ih =>
    push_cast at hm ⊢
    have := ih (by linarith)
    rw [pow_succ]
    have h1 : (1 + u) ^ m * (1 + u) ≤ (1 + 2 * m * u) * (1 + u) :=
      mul_le_mul_of_nonneg_right this (by linarith)
    have h2 : (m : ℝ) * u * u ≤ 1 / 2 * u := mul_le_mul_of_nonneg_right (by linarith) hu.le
    nlinarith

theorem errBound_le {n : Nat} (h : n < 2 ^ 23) {A : ℝ} (hA : 0 ≤ A) :
    errBound n A ≤ (n + 1) / 2 ^ 23 * A + n / 2 ^ 149 := by
  have h1 := pow_le_linear (m := n + 1) (by omega)
  have h2 := pow_le_linear (m := n) (by omega)
  have h3 : (1 + u) ^ n ≤ 2 := by
    have : (n : ℝ) ≤ 2 ^ 23 := by exact_mod_cast h.le
    have : 2 * (n : ℝ) * u ≤ 1 := by
      unfold u
      rw [mul_one_div, div_le_iff₀ (by positivity), one_mul,
        show (2 : ℝ) ^ 24 = 2 * 2 ^ 23 by rw [← pow_succ']]
      linarith
    linarith
  unfold errBound
  apply add_le_add
  · apply mul_le_mul_of_nonneg_right _ hA
    push_cast at h1
    unfold u at *
    calc (1 + 1 / 2 ^ 24 : ℝ) ^ (n + 1) - 1 ≤ 2 * (n + 1) * (1 / 2 ^ 24) := by linarith
      _ = (n + 1) / 2 ^ 23 := by ring
  · calc (n : ℝ) * (1 + u) ^ n * eta ≤ n * 2 * eta := by
          apply mul_le_mul_of_nonneg_right _ (by positivity)
          exact mul_le_mul_of_nonneg_left h3 (by positivity)
      _ = n / 2 ^ 149 := by
          unfold eta
          rw [pow_succ]
          ring

/-! ## No overflow -/

theorem units_big : units (254 * 2 ^ 23) = 2 ^ 127 * 2 ^ 149 := by
  rw [units_pow 253, ← pow_add]

theorem add_finite {x y : F32} (fx : x.isFinite = true) (fy : y.isFinite = true)
    (h : |x.toReal + y.toReal| ≤ 2 ^ 127) : (add x y).isFinite = true := by
  unfold add
  rw [finite_nan fx, finite_nan fy, finite_inf fx, finite_inf fy]
  simp only [Bool.or_self, Bool.false_eq_true, if_false]
  split
  · rw [finite_iff, mk'_code (by decide)]; decide
  · rw [finite_iff, mk'_code (roundCode_lt _ _)]
    have : roundCode (x.toInt + y.toInt).natAbs 1 ≤ 254 * 2 ^ 23 := by
      apply roundCode_le_of (by decide) _ (by decide)
      rw [units_big, Nat.mul_one]
      have hsum : x.toReal + y.toReal = ((x.toInt + y.toInt : Int) : ℝ) / 2 ^ 149 := by
        unfold toReal
        push_cast
        ring
      rw [hsum, abs_div, abs_of_pos (a := (2 : ℝ) ^ 149) (by positivity),
        div_le_iff₀ (by positivity), ← Int.cast_abs, Int.abs_eq_natAbs, Int.cast_natCast] at h
      exact_mod_cast h
    exact lt_of_le_of_lt this (by decide)

theorem mul_finite {x y : F32} (fx : x.isFinite = true) (fy : y.isFinite = true)
    (h : |x.toReal * y.toReal| ≤ 2 ^ 127) : (mul x y).isFinite = true := by
  unfold mul
  rw [finite_nan fx, finite_nan fy, finite_inf fx, finite_inf fy]
  simp only [Bool.or_self, Bool.false_eq_true, if_false]
  rw [finite_iff, mk'_code (roundCode_lt _ _)]
  have : roundCode (units x.code * units y.code) (2 ^ 149) ≤ 254 * 2 ^ 23 := by
    apply roundCode_le_of (by positivity) _ (by decide)
    rw [units_big]
    rw [toReal_eq x, toReal_eq y] at h
    have h1 : |(if x.sign = true then (-1 : ℝ) else 1)| = 1 := by split <;> simp
    have h2 : |(if y.sign = true then (-1 : ℝ) else 1)| = 1 := by split <;> simp
    rw [abs_mul, abs_mul, abs_mul, h1, h2, one_mul, one_mul,
      abs_of_nonneg (a := (units x.code : ℝ) / 2 ^ 149) (by positivity),
      abs_of_nonneg (a := (units y.code : ℝ) / 2 ^ 149) (by positivity), div_mul_div_comm,
      div_le_iff₀ (by positivity), ← mul_assoc] at h
    exact_mod_cast h
  exact lt_of_le_of_lt this (by decide)

/-- what a readable bound says about the size of the computed value -/
theorem abs_le_of_errBound {n : Nat} (hn : n < 2 ^ 22) {A s S : ℝ} (hs : |s| ≤ A) (hA : A ≤ 2 ^ 125)
    (h : |S - s| ≤ errBound n A) : |S| ≤ 2 ^ 126 := by
  have hA0 : 0 ≤ A := (abs_nonneg _).trans hs
  have h1 := errBound_le (n := n) (by omega) hA0
  have hn' : (n : ℝ) + 1 ≤ 2 ^ 22 := by exact_mod_cast hn
  have h2 : ((n : ℝ) + 1) / 2 ^ 23 * A ≤ 1 / 2 * A := by
    apply mul_le_mul_of_nonneg_right _ hA0
    rw [div_le_iff₀ (by positivity)]
    norm_num at hn' ⊢
    linarith
  have h3 : (n : ℝ) / 2 ^ 149 ≤ 1 := by
    rw [div_le_iff₀ (by positivity), one_mul]
    calc (n : ℝ) ≤ 2 ^ 22 := by linarith
      _ ≤ 2 ^ 149 := pow_le_pow_right₀ (by norm_num) (by norm_num)
  have h4 : |S| ≤ |s| + |S - s| := by
    have := abs_add_le s (S - s)
    rwa [add_sub_cancel] at this
  have h5 : (1 : ℝ) ≤ 2 ^ 124 := one_le_pow₀ (by norm_num)
  have h6 : (2 : ℝ) ^ 125 = 2 * 2 ^ 124 := by rw [← pow_succ']
  have h7 : (2 : ℝ) ^ 126 = 4 * 2 ^ 124 := by
    rw [show (4 : ℝ) = 2 ^ 2 by norm_num, ← pow_add]
  rw [h6] at hA
  rw [h7]
  linarith

theorem dot_finite [Libm] {ι : Type} (l : List ι) (f g : ι → F32) (hn : l.length < 2 ^ 22)
    (hf : ∀ n ∈ l, (f n).isFinite = true ∧ (g n).isFinite = true)
    (hA : (l.map fun n => |(f n).toReal * (g n).toReal|).sum ≤ 2 ^ 125) :
    (Spec.sum (l.map fun n => mul (f n) (g n))).isFinite = true := by
  induction l using List.reverseRecOn with
  | nil => change (mk' false 0).isFinite = true; decide
  | append_singleton l n ih =>
    rw [List.length_append, List.length_singleton] at hn
    rw [List.map_append, List.sum_append, List.map_singleton, List.sum_singleton] at hA
    have hl0 : 0 ≤ (l.map fun n => |(f n).toReal * (g n).toReal|).sum :=
      (abs_nonneg _).trans (abs_sum_le l fun n => (f n).toReal * (g n).toReal)
    have hp0 := abs_nonneg ((f n).toReal * (g n).toReal)
    have hA1 : (l.map fun n => |(f n).toReal * (g n).toReal|).sum ≤ 2 ^ 125 := by linarith
    have h1 := ih (by omega) (fun m hm => hf m (List.mem_append_left _ hm)) hA1
    obtain ⟨fx, fy⟩ := hf n (List.mem_append_right _ (List.mem_singleton.mpr rfl))
    have hp1 : |(f n).toReal * (g n).toReal| ≤ 2 ^ 125 := by linarith
    have h2 : (mul (f n) (g n)).isFinite = true :=
      mul_finite fx fy (hp1.trans (pow_le_pow_right₀ (by norm_num) (by norm_num)))
    rw [List.map_append, List.map_singleton, sum_append_singleton]
    apply add_finite h1 h2
    have e1 := abs_le_of_errBound (by omega) (abs_sum_le l fun n => (f n).toReal * (g n).toReal) hA1
      (dot_error l f g h1).2
    have e2 := mul_error h2
    have h4 : |(mul (f n) (g n)).toReal| ≤ |(f n).toReal * (g n).toReal| +
        |(mul (f n) (g n)).toReal - (f n).toReal * (g n).toReal| := by
      have := abs_add_le ((f n).toReal * (g n).toReal)
        ((mul (f n) (g n)).toReal - (f n).toReal * (g n).toReal)
      rwa [add_sub_cancel] at this
    have h5 := abs_add_le (Spec.sum (l.map fun n => mul (f n) (g n))).toReal
      (mul (f n) (g n)).toReal
    have h6 : |(f n).toReal * (g n).toReal| / 2 ^ 24 ≤ |(f n).toReal * (g n).toReal| / 2 :=
      div_le_div_of_nonneg_left hp0 (by norm_num) (by norm_num)
    have h7 : (1 : ℝ) / 2 ^ 150 ≤ 1 := by
      rw [div_le_one (by positivity)]
      exact one_le_pow₀ (by norm_num)
    have h8 : (1 : ℝ) ≤ 2 ^ 124 := one_le_pow₀ (by norm_num)
    have h9 : (2 : ℝ) ^ 125 = 2 * 2 ^ 124 := by rw [← pow_succ']
    have h10 : (2 : ℝ) ^ 126 = 4 * 2 ^ 124 := by
      rw [show (4 : ℝ) = 2 ^ 2 by norm_num, ← pow_add]
    have h11 : (2 : ℝ) ^ 127 = 8 * 2 ^ 124 := by
      rw [show (8 : ℝ) = 2 ^ 3 by norm_num, ← pow_add]
    rw [h9] at hp1
    rw [h10] at e1
    rw [h11]
    linarith

/-! ## A sum of products plus a bias, and its positive part -/

theorem affine_error [Libm] {ι : Type} (l : List ι) (f g : ι → F32) (β : F32)
    (h : (add (Spec.sum (l.map fun n => mul (f n) (g n))) β).isFinite = true) :
    |(add (Spec.sum (l.map fun n => mul (f n) (g n))) β).toReal -
        ((l.map fun n => (f n).toReal * (g n).toReal).sum + β.toReal)| ≤
      errBound (l.length + 1)
        ((l.map fun n => |(f n).toReal * (g n).toReal|).sum + |β.toReal|) :=
  add_errBound h (abs_sum_le l fun n => (f n).toReal * (g n).toReal)
    (dot_error l f g (finite_of_add h).1).2

theorem affine_finite [Libm] {ι : Type} (l : List ι) (f g : ι → F32) (β : F32)
    (hn : l.length < 2 ^ 22) (hf : ∀ n ∈ l, (f n).isFinite = true ∧ (g n).isFinite = true)
    (hβ : β.isFinite = true)
    (hA : (l.map fun n => |(f n).toReal * (g n).toReal|).sum + |β.toReal| ≤ 2 ^ 125) :
    (add (Spec.sum (l.map fun n => mul (f n) (g n))) β).isFinite = true := by
  have hl0 : 0 ≤ (l.map fun n => |(f n).toReal * (g n).toReal|).sum :=
    (abs_nonneg _).trans (abs_sum_le l fun n => (f n).toReal * (g n).toReal)
  have hb0 := abs_nonneg β.toReal
  have hA1 : (l.map fun n => |(f n).toReal * (g n).toReal|).sum ≤ 2 ^ 125 := by linarith
  have h1 := dot_finite l f g hn hf hA1
  apply add_finite h1 hβ
  have e1 := abs_le_of_errBound hn (abs_sum_le l fun n => (f n).toReal * (g n).toReal) hA1
    (dot_error l f g h1).2
  have e2 := abs_add_le (Spec.sum (l.map fun n => mul (f n) (g n))).toReal β.toReal
  have h6 : (2 : ℝ) ^ 126 = 2 * 2 ^ 125 := by rw [← pow_succ']
  have h7 : (2 : ℝ) ^ 127 = 4 * 2 ^ 125 := by
    rw [show (4 : ℝ) = 2 ^ 2 by norm_num, ← pow_add]
  have h8 : (0 : ℝ) ≤ 2 ^ 125 := by positivity
  rw [h6] at e1
  rw [h7]
  linarith

theorem key_pos_iff {x : F32} : 0 < x.key ↔ x.sign = false ∧ 0 < x.code := by
  unfold key
  cases x.sign <;> simp

/-- `relu` is exact, never NaN, and has a clear sign bit -/
theorem relu_spec [Libm] (x : F32) : (Spec.relu x).isNaN = false ∧ (Spec.relu x).sign = false ∧
    (x.isFinite = true → (Spec.relu x).isFinite = true ∧ (Spec.relu x).toReal = max 0 x.toReal) := by
  have e : Spec.relu x = if gt x (mk' false 0) then x else mk' false 0 := rfl
  have hk : (mk' false 0).key = 0 := by decide
  rw [e]
  by_cases h : gt x (mk' false 0) = true
  · rw [if_pos h]
    unfold gt at h
    rw [hk] at h
    simp only [Bool.and_eq_true, Bool.not_eq_true', decide_eq_true_eq] at h
    obtain ⟨s, c⟩ := key_pos_iff.mp h.2
    refine ⟨h.1.1, s, fun hf => ⟨hf, (max_eq_right ?_).symm⟩⟩
    rw [toReal_eq, s]
    simp only [Bool.false_eq_true, if_false, one_mul]
    positivity
  · rw [if_neg h]
    refine ⟨by decide, by decide, fun hf => ⟨by decide, ?_⟩⟩
    rw [toReal_mk' (by decide), units_zero]
    simp only [Bool.false_eq_true, if_false, one_mul, Nat.cast_zero, zero_div]
    refine (max_eq_left ?_).symm
    unfold gt at h
    rw [hk, finite_nan hf] at h
    simp only [Bool.and_eq_true, Bool.not_eq_true', decide_eq_true_eq] at h
    rw [toReal_eq]
    by_cases hs : x.sign = true
    · rw [if_pos hs]
      have : (0 : ℝ) ≤ (units x.code : ℝ) / 2 ^ 149 := by positivity
      linarith
    · have hc : x.code = 0 := by
        by_contra hc
        exact h ⟨⟨trivial, by decide⟩, key_pos_iff.mpr ⟨by simpa using hs, by omega⟩⟩
      rw [hc, units_zero]
      simp

theorem relu_error [Libm] {x : F32} {s e : ℝ} (hf : x.isFinite = true) (h : |x.toReal - s| ≤ e) :
    (Spec.relu x).isFinite = true ∧ |(Spec.relu x).toReal - max 0 s| ≤ e := by
  obtain ⟨_, _, h3⟩ := relu_spec x
  refine ⟨(h3 hf).1, ?_⟩
  rw [(h3 hf).2, max_comm 0, max_comm 0]
  exact (abs_max_sub_max_le_abs _ _ _).trans h

end Rusty.F32
