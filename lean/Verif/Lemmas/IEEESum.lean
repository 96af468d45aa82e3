import Verif.Lemmas.IEEEError
import Verif.Lemmas.IEEESoftmax

/-! # Helper lemmas: rounding errors of sums and quotients -/

namespace Rusty.F32

theorem raw_error {a d : Nat} (hd : 0 < d) :
    |(units (rawCode a d) : ℝ) - a / d| ≤ a / d / 2 ^ 24 + 1 / 2 := by
  have hhalf := rawCode_half (a := a) (d := d) hd
  have herr : 2 ^ 24 * (units (rawCode a d) * d) ≤ 2 ^ 24 * a + a + 2 ^ 23 * d ∧
      2 ^ 24 * a ≤ 2 ^ 24 * (units (rawCode a d) * d) + a + 2 ^ 23 * d := by
    by_cases hb : 2 ^ 23 * d ≤ a
    · have := rawCode_relative (a := a) (d := d) hd hb
      omega
    · have hk : excess (a / d) = 0 := by
        apply excess_zero
        rw [Nat.div_lt_iff_lt_mul hd]
        omega
      rw [hk, pow_zero, Nat.mul_one] at hhalf
      omega
  generalize units (rawCode a d) = U at *
  have r1 : (2 : ℝ) ^ 24 * (U * d) ≤ 2 ^ 24 * a + a + 2 ^ 23 * d := by exact_mod_cast herr.1
  have r2 : (2 : ℝ) ^ 24 * a ≤ 2 ^ 24 * (U * d) + a + 2 ^ 23 * d := by exact_mod_cast herr.2
  have hd' : (0 : ℝ) < d := by exact_mod_cast hd
  obtain ⟨q, hq⟩ : ∃ q : ℝ, q = (a : ℝ) / d := ⟨_, rfl⟩
  have ha : (a : ℝ) = q * d := by rw [hq, div_mul_cancel₀ _ hd'.ne']
  rw [← hq]
  rw [ha] at r1 r2
  have r1' : (2 : ℝ) ^ 24 * U ≤ 2 ^ 24 * q + q + 2 ^ 23 := by
    apply le_of_mul_le_mul_right _ hd'
    linarith
  have r2' : (2 : ℝ) ^ 24 * q ≤ 2 ^ 24 * U + q + 2 ^ 23 := by
    apply le_of_mul_le_mul_right _ hd'
    linarith
  rw [abs_le]
  norm_num at r1' r2' ⊢
  constructor <;> linarith

/-- error of a quotient of numbers with clear sign bits -/
theorem div_error {x y : F32} (hx : x.sign = false) (hy : y.sign = false) (fx : x.isFinite = true)
    (fy : y.isFinite = true) (h0 : 0 < y.code) (h : (div x y).isFinite = true) :
    |(div x y).toReal - x.toReal / y.toReal| ≤ x.toReal / y.toReal / 2 ^ 24 + 1 / 2 ^ 150 := by
  have e : div x y = mk' false (roundCode (units x.code * 2 ^ 149) (units y.code)) := by
    unfold div
    rw [finite_nan fx, finite_nan fy, finite_inf fx, finite_inf fy, hx, hy]
    simp only [Bool.or_self, Bool.false_eq_true, if_false, bne_self_eq_false]
    rw [if_neg (by omega)]
  rw [e] at h ⊢
  have hu := units_pos.mpr h0
  have he := raw_error (a := units x.code * 2 ^ 149) hu
  rw [toReal_mk' (roundCode_lt _ _), raw_of_finite h, toReal_nonneg hx, toReal_nonneg hy]
  generalize (units (rawCode (units x.code * 2 ^ 149) (units y.code)) : ℝ) = U at *
  have hu' : (0 : ℝ) < units y.code := by exact_mod_cast hu
  have hq : (units x.code : ℝ) / 2 ^ 149 / (units y.code / 2 ^ 149) =
      units x.code / units y.code := by
    rw [div_div_div_cancel_right₀ (by positivity)]
  rw [hq]
  rw [Nat.cast_mul, Nat.cast_pow, Nat.cast_ofNat] at he
  rw [mul_div_right_comm] at he
  generalize (units x.code : ℝ) / units y.code = q at *
  simp only [Bool.false_eq_true, if_false, one_mul]
  have hP : (0 : ℝ) < 2 ^ 149 := by positivity
  rw [show U / 2 ^ 149 - q = (U - q * 2 ^ 149) / 2 ^ 149 by
    rw [sub_div, mul_div_cancel_right₀ _ hP.ne'], abs_div, abs_of_pos hP, div_le_iff₀ hP]
  refine he.trans (le_of_eq ?_)
  rw [show (2 : ℝ) ^ 150 = 2 * 2 ^ 149 by rw [← pow_succ']]
  generalize (2 : ℝ) ^ 149 = P at *
  field_simp

/-- forward error of a sum computed left to right -/
theorem sum_error [Libm] (l : List F32) (h : (Spec.sum l).isFinite = true) :
    (∀ x ∈ l, x.isFinite = true) ∧
    |(Spec.sum l).toReal - (l.map toReal).sum| ≤
      ((1 + u) ^ l.length - 1) * (l.map fun x => |x.toReal|).sum := by
  induction l using List.reverseRecOn with
  | nil =>
    refine ⟨by simp, ?_⟩
    change |(F32Ops.zero : F32).toReal - 0| ≤ _
    rw [toReal_zero]
    simp
  | append_singleton l x ih =>
    rw [sum_append_singleton] at h ⊢
    obtain ⟨hs, hx⟩ := finite_of_add h
    obtain ⟨ihf, ih⟩ := ih hs
    refine ⟨fun y hy => ?_, ?_⟩
    · rcases List.mem_append.mp hy with h1 | h1
      · exact ihf y h1
      · rw [List.mem_singleton.mp h1]; exact hx
    · have e1 := add_error h
      have hA := abs_sum_le l toReal
      rw [List.map_append, List.map_append, List.sum_append, List.sum_append, List.map_singleton,
        List.map_singleton, List.sum_singleton, List.sum_singleton, List.length_append,
        List.length_singleton]
      generalize (add (Spec.sum l) x).toReal = R at *
      generalize (Spec.sum l).toReal = S at *
      generalize x.toReal = p at *
      generalize (l.map toReal).sum = s at *
      generalize (l.map fun n => |n.toReal|).sum = A at *
      generalize l.length = k at *
      have hA0 : 0 ≤ A := le_trans (abs_nonneg _) hA
      have hu : (0 : ℝ) < u := by positivity
      rw [show |S + p| / 2 ^ 24 = u * |S + p| by ring] at e1
      generalize u = u at *
      have hS : |S| ≤ A + |S - s| := by
        have := abs_add_le s (S - s)
        rw [add_sub_cancel] at this
        linarith
      have hSP : |S + p| ≤ A + |S - s| + |p| := (abs_add_le S p).trans (by linarith)
      have hR : |R - (s + p)| ≤ |R - (S + p)| + |S - s| := by
        have h1 := abs_add_le (R - (S + p)) (S - s)
        rwa [show R - (S + p) + (S - s) = R - (s + p) by ring] at h1
      have hmul : u * |S + p| ≤ u * (A + |S - s| + |p|) := mul_le_mul_of_nonneg_left hSP hu.le
      have hE : (1 + u) * |S - s| ≤ (1 + u) * (((1 + u) ^ k - 1) * A) :=
        mul_le_mul_of_nonneg_left ih (by linarith)
      have hpa : 0 ≤ |p| := abs_nonneg p
      have q1 : (1 + u) * |p| ≤ (1 + u) ^ (k + 1) * |p| := by
        apply mul_le_mul_of_nonneg_right _ hpa
        conv_lhs => rw [← pow_one (1 + u)]
        exact pow_le_pow_right₀ (by linarith) (by omega)
      have x2 : (1 + u) ^ (k + 1) = (1 + u) * (1 + u) ^ k := pow_succ' _ _
      rw [x2] at q1 ⊢
      generalize (1 + u) ^ k = V at *
      nlinarith

/-- Quotients by the computed sum add up to nearly one. -/
theorem quotients_sum [Libm] (l : List F32) (hn : l.length < 2 ^ 22) (hne : 0 < (Spec.sum l).code)
    (hs : (Spec.sum l).isFinite = true) (hsg : (Spec.sum l).sign = false)
    (hl : ∀ x ∈ l, x.sign = false)
    (hq : ∀ x ∈ l, (div x (Spec.sum l)).isFinite = true) :
    |(l.map fun x => (div x (Spec.sum l)).toReal).sum - 1| ≤
      (2 * l.length + 1) / 2 ^ 23 + l.length / 2 ^ 150 := by
  obtain ⟨hf, he⟩ := sum_error l hs
  have habs : (l.map fun x => |x.toReal|).sum = (l.map toReal).sum := by
    congr 1
    apply List.map_congr_left
    intro x hx
    rw [toReal_nonneg (hl x hx)]
    exact abs_of_nonneg (by positivity)
  rw [habs] at he
  have hspos : 0 < (Spec.sum l).toReal := by
    rw [toReal_nonneg hsg]
    have : (0 : ℝ) < units (Spec.sum l).code := by exact_mod_cast units_pos.mpr hne
    positivity
  have hE0 : 0 ≤ (l.map toReal).sum := by
    rw [← habs]
    exact (abs_nonneg _).trans (abs_sum_le l toReal)
  -- the sum of the exact quotients
  have hsum : ∀ m : List F32, (∀ x ∈ m, x ∈ l) →
      |(m.map fun x => (div x (Spec.sum l)).toReal).sum - (m.map toReal).sum / (Spec.sum l).toReal| ≤
        (m.map toReal).sum / (Spec.sum l).toReal / 2 ^ 24 + m.length * (1 / 2 ^ 150) := by
    intro m
    induction m with
    | nil => intro _; simp
    | cons x m ih =>
      intro hm
      have i1 := ih (fun y hy => hm y (List.mem_cons_of_mem _ hy))
      have hx := hm x (List.mem_cons_self ..)
      have i2 := div_error (hl x hx) hsg (hf x hx) hs hne (hq x hx)
      simp only [List.map_cons, List.sum_cons, List.length_cons]
      rw [add_div]
      generalize (div x (Spec.sum l)).toReal = a at *
      generalize x.toReal / (Spec.sum l).toReal = c at *
      generalize (m.map toReal).sum / (Spec.sum l).toReal = d at *
      generalize (m.map fun x => (div x (Spec.sum l)).toReal).sum = e at *
      have := abs_add_le (a - c) (e - d)
      rw [show a - c + (e - d) = a + e - (c + d) by ring] at this
      push_cast
      generalize (1 : ℝ) / 2 ^ 150 = η at *
      rw [add_div]
      linarith
  have h1 := hsum l (fun _ h => h)
  have hγ : (1 + u) ^ l.length - 1 ≤ l.length / 2 ^ 23 := by
    have := pow_le_linear (m := l.length) (by omega)
    unfold u at *
    calc _ ≤ 2 * (l.length : ℝ) * (1 / 2 ^ 24) := by linarith
      _ = _ := by ring
  have hγ2 : (l.length : ℝ) / 2 ^ 23 ≤ 1 / 2 := by
    rw [div_le_iff₀ (by positivity)]
    have : (l.length : ℝ) ≤ 2 ^ 22 := by exact_mod_cast hn.le
    norm_num at this ⊢
    linarith
  generalize (l.map fun x => (div x (Spec.sum l)).toReal).sum = Y at *
  generalize (l.map toReal).sum = E at *
  generalize (Spec.sum l).toReal = S at *
  generalize (1 + u) ^ l.length - 1 = γ at *
  obtain ⟨g, hg⟩ : ∃ g : ℝ, g = (l.length : ℝ) / 2 ^ 23 := ⟨_, rfl⟩
  rw [← hg] at hγ hγ2
  obtain ⟨q, hqe⟩ : ∃ q : ℝ, q = E / S := ⟨_, rfl⟩
  have hEq : E = q * S := by rw [hqe, div_mul_cancel₀ _ hspos.ne']
  rw [← hqe] at h1
  have hq0 : 0 ≤ q := by rw [hqe]; positivity
  have hq1 : |1 - q| ≤ g * q := by
    have : |S - q * S| ≤ g * (q * S) := by
      rw [hEq] at he hE0
      exact he.trans (mul_le_mul_of_nonneg_right hγ hE0)
    rw [show S - q * S = (1 - q) * S by ring, abs_mul, abs_of_pos hspos, ← mul_assoc] at this
    exact le_of_mul_le_mul_right this hspos
  have hq2 : q ≤ 2 := by
    have a1 := (abs_le.mp hq1).1
    have a2 : g * q ≤ 1 / 2 * q := mul_le_mul_of_nonneg_right hγ2 hq0
    linarith
  have hg0 : 0 ≤ g := by
    by_contra hneg
    rw [not_le] at hneg
    have a1 := abs_nonneg (1 - q)
    have a2 : q ≤ 0 := by nlinarith
    have a3 : q = 0 := le_antisymm a2 hq0
    rw [a3] at hq1
    norm_num at hq1
  have h2 : |Y - 1| ≤ |Y - q| + |1 - q| := by
    have := abs_sub_le Y q 1
    rwa [abs_sub_comm q 1] at this
  have h3 : g * q ≤ 2 * g := by nlinarith
  rw [show (2 * (l.length : ℝ) + 1) / 2 ^ 23 = 2 * (l.length / 2 ^ 23) + 1 / 2 ^ 23 by ring,
    ← hg, show (l.length : ℝ) / 2 ^ 150 = l.length * (1 / 2 ^ 150) by ring]
  have h4 : q / 2 ^ 24 ≤ 1 / 2 ^ 23 := by
    rw [div_le_div_iff₀ (by positivity) (by positivity)]
    norm_num
    linarith
  generalize (1 : ℝ) / 2 ^ 150 = η at *
  generalize (1 : ℝ) / 2 ^ 23 = w at *
  linarith

end Rusty.F32
