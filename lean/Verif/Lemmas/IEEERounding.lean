import Verif.Spec.Rounding
import Verif.Lemmas.IEEESqrt

/-! # Validation of `Verif/Model/IEEE.lean`: the four operations round correctly -/

namespace Rusty.F32

/-- A significand and an exponent that are within half a unit of `a`, and even in case of a tie, are the
nearest float. -/
theorem near_core {k q : Nat} {a : ℝ} (hq : q ≤ 2 ^ 24) (hk : k = 0 ∨ 2 ^ 23 ≤ q)
    (hlo : k = 0 ∨ (2 : ℝ) ^ 23 * 2 ^ k ≤ a) (hhi : a < 2 ^ 24 * 2 ^ k)
    (h : |(q : ℝ) * 2 ^ k - a| ≤ 2 ^ k / 2) (ht : |(q : ℝ) * 2 ^ k - a| = 2 ^ k / 2 → q % 2 = 0)
    (c : Nat) :
    |(units (k * 2 ^ 23 + q) : ℝ) - a| ≤ |(units c : ℝ) - a| ∧
      (|(units (k * 2 ^ 23 + q) : ℝ) - a| = |(units c : ℝ) - a| →
        c = k * 2 ^ 23 + q ∨ (k * 2 ^ 23 + q) % 2 = 0) := by
  have eU : (units (k * 2 ^ 23 + q) : ℝ) = q * 2 ^ k := by
    rw [units_code hq hk]; push_cast; ring
  have h2 : (0 : ℝ) < 2 ^ k := by positivity
  rw [eU]
  have hev : q % 2 = 0 → (k * 2 ^ 23 + q) % 2 = 0 := by omega
  obtain ⟨b1, b2⟩ := abs_le.mp h
  rcases Nat.lt_trichotomy c (k * 2 ^ 23 + q) with hc | hc | hc
  · -- below
    by_cases hedge : k = 0 ∨ 2 ^ 23 < q
    · have hle : units c ≤ (q - 1) * 2 ^ k := by
        have : units (k * 2 ^ 23 + (q - 1)) = (q - 1) * 2 ^ k :=
          units_code (by omega) (by omega)
        rw [← this, units_le]; omega
      have hq1 : 1 ≤ q := by omega
      have hle' : (units c : ℝ) ≤ q * 2 ^ k - 2 ^ k := by
        have : ((units c : Nat) : ℝ) ≤ (((q - 1) * 2 ^ k : Nat) : ℝ) := by exact_mod_cast hle
        push_cast [Nat.cast_sub hq1] at this
        linarith
      have e : |(units c : ℝ) - a| = a - units c := by
        rw [abs_sub_comm]; exact abs_of_nonneg (by linarith)
      rw [e]
      refine ⟨by linarith, fun heq => .inr (hev (ht ?_))⟩
      linarith
    · -- the lowest significand of its binade
      push Not at hedge
      have hq' : q = 2 ^ 23 := by omega
      have ha : (q : ℝ) * 2 ^ k ≤ a := by
        rcases hlo with h0 | h0
        · exact absurd h0 hedge.1
        · rw [hq']; push_cast; linarith
      have hlt : (units c : ℝ) < q * 2 ^ k := by
        rw [← eU]; exact_mod_cast units_lt.mpr hc
      have e1 : |(units c : ℝ) - a| = a - units c := by
        rw [abs_sub_comm]; exact abs_of_nonneg (by linarith)
      have e2 : |(q : ℝ) * 2 ^ k - a| = a - q * 2 ^ k := by
        rw [abs_sub_comm]; exact abs_of_nonneg (by linarith)
      rw [e1, e2]
      exact ⟨by linarith, fun heq => by linarith⟩
  · subst hc
    rw [eU]
    exact ⟨le_refl _, fun _ => .inl rfl⟩
  · -- above
    by_cases hedge : q < 2 ^ 24
    · have hle : (q + 1) * 2 ^ k ≤ units c := by
        have : units (k * 2 ^ 23 + (q + 1)) = (q + 1) * 2 ^ k :=
          units_code (by omega) (by omega)
        rw [← this, units_le]; omega
      have hle' : (q : ℝ) * 2 ^ k + 2 ^ k ≤ units c := by
        have : (((q + 1) * 2 ^ k : Nat) : ℝ) ≤ ((units c : Nat) : ℝ) := by exact_mod_cast hle
        push_cast at this
        linarith
      have e : |(units c : ℝ) - a| = units c - a := abs_of_nonneg (by linarith)
      rw [e]
      refine ⟨by linarith, fun heq => .inr (hev (ht ?_))⟩
      linarith
    · have hq' : q = 2 ^ 24 := by omega
      have ha : a < q * 2 ^ k := by rw [hq']; push_cast; linarith
      have hlt : (q : ℝ) * 2 ^ k < units c := by
        rw [← eU]; exact_mod_cast units_lt.mpr hc
      have e1 : |(units c : ℝ) - a| = units c - a := abs_of_nonneg (by linarith)
      have e2 : |(q : ℝ) * 2 ^ k - a| = q * 2 ^ k - a := abs_of_nonneg (by linarith)
      rw [e1, e2]
      exact ⟨by linarith, fun heq => by linarith⟩

/-- the same for the code that rounding a quotient gives -/
theorem rawCode_near {a d : Nat} (hd : 0 < d) (c : Nat) :
    |(units (rawCode a d) : ℝ) - a / d| ≤ |(units c : ℝ) - a / d| ∧
      (|(units (rawCode a d) : ℝ) - a / d| = |(units c : ℝ) - a / d| →
        c = rawCode a d ∨ rawCode a d % 2 = 0) := by
  have hd' : (0 : ℝ) < d := by exact_mod_cast hd
  have hp : 0 < 2 ^ excess (a / d) := Nat.pow_pos (by decide)
  obtain ⟨s1, s2, s3, s4⟩ := rne_spec (a := a) (Nat.mul_pos hd hp)
  obtain ⟨q1, q2⟩ := rne_bounds (a := a) hd
  have hlo : excess (a / d) = 0 ∨ (2 : ℝ) ^ 23 * 2 ^ excess (a / d) ≤ a / d := by
    by_cases hn : a / d < 2 ^ 24
    · exact .inl (excess_zero hn)
    · right
      have := (excess_bounds (n := a / d) (by omega)).1
      rw [Nat.le_div_iff_mul_le hd, pow_add] at this
      rw [le_div_iff₀ hd']
      have h' : ((2 ^ excess (a / d) * 2 ^ 23 * d : Nat) : ℝ) ≤ (a : Nat) := by exact_mod_cast this
      push_cast at h'
      linarith
  have hhi : (a : ℝ) / d < 2 ^ 24 * 2 ^ excess (a / d) := by
    have := lt_excess (a / d)
    rw [Nat.div_lt_iff_lt_mul hd, pow_add] at this
    rw [div_lt_iff₀ hd']
    have h' : ((a : Nat) : ℝ) < ((2 ^ excess (a / d) * 2 ^ 24 * d : Nat) : ℝ) := by
      exact_mod_cast this
    push_cast at h'
    linarith
  unfold rawCode
  generalize hk : excess (a / d) = k at *
  generalize rne a (d * 2 ^ k) = q at *
  have s1' : 2 * ((q : ℝ) * (d * 2 ^ k)) ≤ 2 * a + d * 2 ^ k := by exact_mod_cast s1
  have s2' : 2 * (a : ℝ) ≤ 2 * (q * (d * 2 ^ k)) + d * 2 ^ k := by exact_mod_cast s2
  have hA : (a : ℝ) = a / d * d := by field_simp
  have b1 : (q : ℝ) * 2 ^ k - a / d ≤ 2 ^ k / 2 := by
    have : ((q : ℝ) * 2 ^ k - a / d) * d ≤ 2 ^ k / 2 * d := by linarith
    exact le_of_mul_le_mul_right this hd'
  have b2 : -(2 ^ k / 2) ≤ (q : ℝ) * 2 ^ k - a / d := by
    have : -(2 ^ k / 2) * d ≤ ((q : ℝ) * 2 ^ k - a / d) * d := by linarith
    exact le_of_mul_le_mul_right this hd'
  refine near_core q1 q2 hlo hhi (abs_le.mpr ⟨b2, b1⟩) ?_ c
  intro ht
  have h2 : (0 : ℝ) < 2 ^ k := by positivity
  rcases abs_choice ((q : ℝ) * 2 ^ k - a / d) with e | e <;> rw [e] at ht
  · apply s3
    have : 2 * ((q : ℝ) * (d * 2 ^ k)) = 2 * a + d * 2 ^ k := by
      have : ((q : ℝ) * 2 ^ k - a / d) * d = 2 ^ k / 2 * d := by rw [ht]
      linarith
    exact_mod_cast this
  · apply s4
    have : 2 * (a : ℝ) = 2 * (q * (d * 2 ^ k)) + d * 2 ^ k := by
      have : -((q : ℝ) * 2 ^ k - a / d) * d = 2 ^ k / 2 * d := by rw [ht]
      linarith
    exact_mod_cast this

/-- the largest finite code -/
theorem units_max : units (infCode - 1) = 2 ^ 277 - 2 ^ 253 := by decide +kernel

theorem units_inf : units infCode = 2 ^ 277 := by decide +kernel

/-- rounding gives infinity exactly from the overflow threshold on -/
theorem rawCode_inf {a d : Nat} (hd : 0 < d) :
    infCode ≤ rawCode a d ↔ (2 ^ 277 - 2 ^ 252) * d ≤ a := by
  constructor
  · intro h
    by_contra hlt
    have hlt : a < (2 ^ 277 - 2 ^ 252) * d := by omega
    by_cases hm : a ≤ units (infCode - 1) * d
    · have := rawCode_mono (a := a) (a' := units (infCode - 1) * d) hd hd (Nat.mul_le_mul_right _ hm)
      rw [rawCode_units hd] at this
      unfold infCode at *
      omega
    · have h1 := rawCode_nearest (a := a) hd (infCode - 1)
      have h2 : units infCode * d ≤ units (rawCode a d) * d :=
        Nat.mul_le_mul_right _ (units_le.mpr h)
      rw [units_max] at h1 hm
      rw [units_inf] at h2
      generalize units (rawCode a d) * d = U at *
      omega
  · intro h
    have h1 : rawCode (2 ^ 277 - 2 ^ 252) 1 = infCode := by decide +kernel
    rw [← h1]
    exact rawCode_mono (by decide) hd (by omega)

theorem sgn_abs (s : Bool) (r : ℝ) : |(if s then (-1 : ℝ) else 1) * r| = |r| := by
  cases s <;> simp

/-- if a magnitude is nearest among the magnitudes, it is nearest among all floats -/
theorem nearest_signed {s : Bool} {c : Nat} {a : ℝ} (ha : 0 ≤ a) (hc : c < 2 ^ 31)
    (h : ∀ c', |(units c : ℝ) - a| ≤ |(units c' : ℝ) - a| ∧
      (|(units c : ℝ) - a| = |(units c' : ℝ) - a| → c' = c ∨ c % 2 = 0)) (y : F32) :
    |(mk' s c).toReal - (if s then -1 else 1) * (a / 2 ^ 149)| ≤
      |y.toReal - (if s then -1 else 1) * (a / 2 ^ 149)| ∧
    (|(mk' s c).toReal - (if s then -1 else 1) * (a / 2 ^ 149)| =
      |y.toReal - (if s then -1 else 1) * (a / 2 ^ 149)| →
      (mk' s c).toReal = y.toReal ∨ (mk' s c).code % 2 = 0) := by
  have hP : (0 : ℝ) < 2 ^ 149 := by positivity
  have e1 : |(mk' s c).toReal - (if s then -1 else 1) * (a / 2 ^ 149)| =
      |(units c : ℝ) - a| / 2 ^ 149 := by
    rw [toReal_mk' hc, ← mul_sub, sgn_abs, ← sub_div, abs_div, abs_of_pos hP]
  rw [e1, mk'_code hc]
  by_cases hs : y.sign = s
  · have e2 : |y.toReal - (if s then -1 else 1) * (a / 2 ^ 149)| =
        |(units y.code : ℝ) - a| / 2 ^ 149 := by
      rw [toReal_eq y, hs, ← mul_sub, sgn_abs, ← sub_div, abs_div, abs_of_pos hP]
    rw [e2]
    refine ⟨div_le_div_of_nonneg_right (h _).1 hP.le, fun heq => ?_⟩
    have heq' : |(units c : ℝ) - a| = |(units y.code : ℝ) - a| := by
      field_simp at heq; exact heq
    rcases (h _).2 heq' with e | e
    · left; rw [toReal_mk' hc, toReal_eq y, hs, e]
    · exact .inr e
  · -- on the other side of zero
    have e2 : |y.toReal - (if s then -1 else 1) * (a / 2 ^ 149)| =
        ((units y.code : ℝ) + a) / 2 ^ 149 := by
      have : y.sign = !s := by cases hy : y.sign <;> cases s <;> simp_all
      rw [toReal_eq y, this]
      have hu : (0 : ℝ) ≤ units y.code := by positivity
      cases s
      · simp only [Bool.not_false, if_true, Bool.false_eq_true, if_false]
        rw [abs_of_nonpos (by
          have : (0 : ℝ) ≤ units y.code / 2 ^ 149 := by positivity
          have : (0 : ℝ) ≤ a / 2 ^ 149 := by positivity
          linarith)]
        ring
      · simp only [Bool.not_true, if_true, Bool.false_eq_true, if_false]
        rw [abs_of_nonneg (by
          have : (0 : ℝ) ≤ units y.code / 2 ^ 149 := by positivity
          have : (0 : ℝ) ≤ a / 2 ^ 149 := by positivity
          linarith)]
        ring
    rw [e2]
    obtain ⟨z1, z2⟩ := h 0
    have ez : |((units 0 : Nat) : ℝ) - a| = a := by
      rw [units_zero]; simp [abs_of_nonneg ha]
    rw [ez] at z1 z2
    have hu : (0 : ℝ) ≤ units y.code := by positivity
    refine ⟨div_le_div_of_nonneg_right (by linarith) hP.le, fun heq => ?_⟩
    have heq' : |(units c : ℝ) - a| = units y.code + a := by
      field_simp at heq; exact heq
    have hy0 : (units y.code : ℝ) = 0 := by linarith
    rcases z2 (by linarith) with e | e
    · left
      rw [toReal_mk' hc, toReal_eq y, hy0, ← e, units_zero]
      simp
    · exact .inr e

/-- the sign of a product with a sign -/
theorem sgn_neg {s : Bool} {r : ℝ} (h0 : 0 ≤ r) (h : (if s then (-1 : ℝ) else 1) * r ≠ 0) :
    s = decide ((if s then (-1 : ℝ) else 1) * r < 0) := by
  cases s
  · simp only [Bool.false_eq_true, if_false, one_mul] at *
    exact (decide_eq_false (by linarith)).symm
  · simp only [if_true] at *
    refine (decide_eq_true ?_).symm
    have : r ≠ 0 := by intro e; apply h; rw [e]; simp
    have : 0 < r := lt_of_le_of_ne h0 (Ne.symm this)
    linarith

/-- the rounded quotient -/
theorem rounds_roundCode (s : Bool) {a d : Nat} (hd : 0 < d) :
    Rounds ((if s then -1 else 1) * ((a / d : ℝ) / 2 ^ 149)) (mk' s (roundCode a d)) := by
  have hd' : (0 : ℝ) < d := by exact_mod_cast hd
  have ha : (0 : ℝ) ≤ a / d := by positivity
  have hP : (0 : ℝ) < 2 ^ 149 := by positivity
  have habs : |(if s then (-1 : ℝ) else 1) * ((a / d : ℝ) / 2 ^ 149)| = (a / d : ℝ) / 2 ^ 149 := by
    rw [sgn_abs]; exact abs_of_nonneg (by positivity)
  have hthr : (2 : ℝ) ^ 128 - 2 ^ 103 ≤ (a / d : ℝ) / 2 ^ 149 ↔ infCode ≤ rawCode a d := by
    rw [rawCode_inf hd, le_div_iff₀ hP, le_div_iff₀ hd']
    have : ((2 : ℝ) ^ 128 - 2 ^ 103) * 2 ^ 149 * d = (((2 ^ 277 - 2 ^ 252) * d : Nat) : ℝ) := by
      have e : ((2 ^ 277 - 2 ^ 252 : Nat) : ℝ) = (2 ^ 25 - 1) * 2 ^ 252 := by
        rw [show 2 ^ 277 - 2 ^ 252 = (2 ^ 25 - 1) * 2 ^ 252 by decide +kernel, Nat.cast_mul, Nat.cast_pow]
        norm_num
      rw [Nat.cast_mul, e]
      ring
    rw [this]
    exact Nat.cast_le
  refine ⟨?_, ?_, ?_⟩
  · rw [habs]
    intro h
    have hlt : rawCode a d < infCode := by
      by_contra hc
      exact absurd (hthr.mpr (by omega)) (not_le.mpr h)
    have e : roundCode a d = rawCode a d := by rw [roundCode_eq]; omega
    refine ⟨?_, fun y _ => ?_⟩
    · rw [finite_iff, mk'_code (roundCode_lt _ _), e]; exact hlt
    · rw [e]
      exact nearest_signed ha (hlt.trans infCode_lt) (rawCode_near hd) y
  · rw [habs, hthr]
    intro h
    have e : roundCode a d = infCode := by rw [roundCode_eq]; omega
    unfold isInf
    rw [mk'_code (roundCode_lt _ _), e]
    simp
  · intro h
    rw [mk'_sign (roundCode_lt _ _)]
    exact sgn_neg (by positivity) h

/-- a signed zero for the exact result zero -/
theorem rounds_zero (s : Bool) : Rounds 0 (mk' s 0) := by
  refine ⟨fun _ => ⟨?_, fun y _ => ?_⟩, fun h => ?_, fun h => absurd rfl h⟩
  · rw [finite_iff, mk'_code (by decide)]; decide
  · rw [toReal_mk' (by decide), units_zero]
    simp only [Nat.cast_zero, zero_div, mul_zero, sub_zero, abs_zero]
    refine ⟨abs_nonneg _, fun h => .inl ?_⟩
    exact (abs_eq_zero.mp h.symm).symm
  · rw [abs_zero] at h
    norm_num at h

/-- addition is correctly rounded -/
theorem add_rounds {x y : F32} (fx : x.isFinite = true) (fy : y.isFinite = true) :
    Rounds (x.toReal + y.toReal) (add x y) := by
  have hsum : x.toReal + y.toReal = ((x.toInt + y.toInt : Int) : ℝ) / 2 ^ 149 := by
    unfold toReal
    push_cast
    ring
  unfold add
  rw [finite_nan fx, finite_nan fy, finite_inf fx, finite_inf fy, hsum]
  simp only [Bool.or_self, Bool.false_eq_true, if_false]
  generalize x.toInt + y.toInt = z
  split
  · next h =>
    subst h
    rw [Int.cast_zero, zero_div]
    exact rounds_zero _
  · next h =>
    have := rounds_roundCode (decide (z < 0)) (a := z.natAbs) (d := 1) (by decide)
    have e : (if decide (z < 0) = true then (-1 : ℝ) else 1) *
        ((z.natAbs : ℝ) / ((1 : Nat) : ℝ) / 2 ^ 149) = (z : ℝ) / 2 ^ 149 := by
      by_cases hz : z < 0
      · have : (z.natAbs : ℝ) = -z := by
          rw [Nat.cast_natAbs, abs_of_neg hz]; push_cast; rfl
        rw [this]; simp [hz]; ring
      · have : (z.natAbs : ℝ) = z := by
          rw [Nat.cast_natAbs, abs_of_nonneg (by omega)]
        rw [this]; simp [hz]
    rw [e] at this
    exact this

theorem sgn_mul (s t : Bool) : (if s then (-1 : ℝ) else 1) * (if t then -1 else 1) =
    if (s != t) then -1 else 1 := by
  cases s <;> cases t <;> simp

/-- multiplication is correctly rounded -/
theorem mul_rounds {x y : F32} (fx : x.isFinite = true) (fy : y.isFinite = true) :
    Rounds (x.toReal * y.toReal) (mul x y) := by
  unfold mul
  rw [finite_nan fx, finite_nan fy, finite_inf fx, finite_inf fy]
  simp only [Bool.or_self, Bool.false_eq_true, if_false]
  have := rounds_roundCode (x.sign != y.sign) (a := units x.code * units y.code) (d := 2 ^ 149)
    (Nat.pow_pos (by decide))
  have e : x.toReal * y.toReal = (if (x.sign != y.sign) then (-1 : ℝ) else 1) *
      (((units x.code * units y.code : Nat) : ℝ) / ((2 ^ 149 : Nat) : ℝ) / 2 ^ 149) := by
    rw [toReal_eq x, toReal_eq y, ← sgn_mul]
    push_cast
    ring
  rw [e]
  exact this

/-- division is correctly rounded -/
theorem div_rounds {x y : F32} (fx : x.isFinite = true) (fy : y.isFinite = true)
    (h : y.toReal ≠ 0) : Rounds (x.toReal / y.toReal) (div x y) := by
  have hy : y.code ≠ 0 := by
    intro e; apply h; rw [toReal_eq, e, units_zero]; simp
  have hu : 0 < units y.code := units_pos.mpr (by omega)
  have hu' : (units y.code : ℝ) ≠ 0 := by positivity
  unfold div
  rw [finite_nan fx, finite_nan fy, finite_inf fx, finite_inf fy]
  simp only [Bool.or_self, Bool.false_eq_true, if_false]
  rw [if_neg hy]
  have := rounds_roundCode (x.sign != y.sign) (a := units x.code * 2 ^ 149) (d := units y.code) hu
  have e : x.toReal / y.toReal = (if (x.sign != y.sign) then (-1 : ℝ) else 1) *
      (((units x.code * 2 ^ 149 : Nat) : ℝ) / (units y.code : ℝ) / 2 ^ 149) := by
    rw [toReal_eq x, toReal_eq y, Nat.cast_mul, Nat.cast_pow, Nat.cast_ofNat]
    have hP : (2 : ℝ) ^ 149 ≠ 0 := by positivity
    generalize (2 : ℝ) ^ 149 = P at *
    cases x.sign <;> cases y.sign <;> simp <;> field_simp
  rw [e]
  exact this

/-- the significand that `sqrtCode` chooses -/
theorem sqrt_core {n k q R : Nat} (q3 : q ^ 2 * 4 ^ k ≤ n) (q4 : n < (q + 1) ^ 2 * 4 ^ k)
    (hR : (if 4 * n < (2 * q + 1) ^ 2 * 4 ^ k then q
      else if (2 * q + 1) ^ 2 * 4 ^ k < 4 * n then q + 1 else q + q % 2) = R) :
    |(R : ℝ) * 2 ^ k - Real.sqrt n| ≤ 2 ^ k / 2 ∧
      (|(R : ℝ) * 2 ^ k - Real.sqrt n| = 2 ^ k / 2 → R % 2 = 0) := by
  have hn0 : (0 : ℝ) ≤ n := by positivity
  have hr0 := Real.sqrt_nonneg (n : ℝ)
  have hsq : Real.sqrt n ^ 2 = n := Real.sq_sqrt hn0
  generalize Real.sqrt (n : ℝ) = r at *
  have h2k : (0 : ℝ) < 2 ^ k := by positivity
  have h4k : ((4 : ℝ)) ^ k = (2 ^ k) ^ 2 := by
    rw [← pow_mul, Nat.mul_comm, pow_mul]; norm_num
  have a1 : (q : ℝ) * 2 ^ k ≤ r := by
    apply le_of_sq_le_sq _ hr0
    rw [hsq, mul_pow, ← h4k]
    exact_mod_cast q3
  have a2 : r < (q + 1) * 2 ^ k := by
    apply lt_of_pow_lt_pow_left₀ 2 (by positivity)
    rw [hsq, mul_pow, ← h4k]
    exact_mod_cast q4
  have c1 : 4 * n < (2 * q + 1) ^ 2 * 4 ^ k → r < (2 * q + 1) * 2 ^ k / 2 := by
    intro h
    apply lt_of_pow_lt_pow_left₀ 2 (by positivity)
    rw [hsq, div_pow, mul_pow, ← h4k, lt_div_iff₀ (by norm_num)]
    have : ((4 * n : Nat) : ℝ) < (((2 * q + 1) ^ 2 * 4 ^ k : Nat) : ℝ) := by exact_mod_cast h
    push_cast at this
    linarith
  have c2 : (2 * q + 1) ^ 2 * 4 ^ k < 4 * n → (2 * q + 1) * 2 ^ k / 2 < r := by
    intro h
    apply lt_of_pow_lt_pow_left₀ 2 hr0
    rw [hsq, div_pow, mul_pow, ← h4k, div_lt_iff₀ (by norm_num)]
    have : (((2 * q + 1) ^ 2 * 4 ^ k : Nat) : ℝ) < ((4 * n : Nat) : ℝ) := by exact_mod_cast h
    push_cast at this
    linarith
  have c3 : (2 * q + 1) ^ 2 * 4 ^ k = 4 * n → (2 * q + 1) * 2 ^ k / 2 = r := by
    intro h
    have e : ((2 * q + 1) * 2 ^ k / 2 : ℝ) ^ 2 = r ^ 2 := by
      rw [hsq, div_pow, mul_pow, ← h4k, div_eq_iff (by norm_num)]
      have : (((2 * q + 1) ^ 2 * 4 ^ k : Nat) : ℝ) = ((4 * n : Nat) : ℝ) := by exact_mod_cast h
      push_cast at this
      linarith
    exact (pow_left_inj₀ (by positivity) hr0 (by norm_num)).mp e
  rw [← hR]
  split
  · next h =>
    have := c1 h
    have e : |(q : ℝ) * 2 ^ k - r| = r - q * 2 ^ k := by
      rw [abs_sub_comm]; exact abs_of_nonneg (by linarith)
    rw [e]
    exact ⟨by linarith, fun h => by linarith⟩
  · next h =>
    split
    · next h' =>
      have := c2 h'
      have e : |((q + 1 : Nat) : ℝ) * 2 ^ k - r| = (q + 1) * 2 ^ k - r := by
        push_cast; exact abs_of_nonneg (by linarith)
      rw [e]
      exact ⟨by linarith, fun h => by linarith⟩
    · next h' =>
      have := c3 (by omega)
      refine ⟨?_, fun _ => by omega⟩
      rw [abs_le]
      rcases Nat.mod_two_eq_zero_or_one q with hm | hm <;> rw [hm] <;> push_cast <;>
        constructor <;> linarith

set_option exponentiation.threshold 500 in
/-- the square root is correctly rounded -/
theorem sqrt_rounds {x : F32} (hf : x.isFinite = true) (h : 0 ≤ x.toReal) :
    Rounds (Real.sqrt x.toReal) (sqrt x) := by
  by_cases h0 : x.code = 0
  · have e : sqrt x = x := by
      unfold sqrt
      rw [finite_nan hf, if_neg (by simp), if_pos h0]
    have e0 : x.toReal = 0 := by
      rw [toReal_eq, h0, units_zero]; simp
    rw [e, e0, Real.sqrt_zero, ← mk'_eta x, h0]
    exact rounds_zero _
  · have hpos : 0 < units x.code := units_pos.mpr (by omega)
    have hs : x.sign = false := by
      by_contra hs
      simp only [Bool.not_eq_false] at hs
      rw [toReal_eq, hs] at h
      simp only [if_true] at h
      have : (0 : ℝ) < units x.code / 2 ^ 149 := by positivity
      linarith
    have e : sqrt x = mk' false (sqrtCode (units x.code)) := by
      unfold sqrt
      rw [finite_nan hf, if_neg (by simp), if_neg h0, hs, if_neg (by simp), finite_inf hf,
        if_neg (by simp)]
    have hx : x.toReal = units x.code / 2 ^ 149 := by rw [toReal_eq, hs]; simp
    have hlt : units x.code < 2 ^ (23 + 254) := by
      rw [finite_iff] at hf
      have := units_lt.mpr hf
      rw [show infCode = (254 + 1) * 2 ^ 23 by rfl, units_pow] at this
      exact this
    rw [e]
    generalize hn : units x.code * 2 ^ 149 = n
    have hn4 : 4 ^ 23 ≤ n := by
      rw [← hn]
      calc 4 ^ 23 ≤ 1 * 2 ^ 149 := by norm_num
        _ ≤ _ := Nat.mul_le_mul_right _ hpos
    obtain ⟨q1, q2, q3, q4, q5⟩ := sqrt_parts hn4
    have hk : excess n.sqrt ≤ 190 := by
      by_contra hc
      have : (4 : Nat) ^ (191 + 23) ≤ 4 ^ (excess n.sqrt + 23) :=
        Nat.pow_le_pow_right (by norm_num) (by omega)
      have h2 : n < 2 ^ (23 + 254) * 2 ^ 149 := by
        rw [← hn]
        exact Nat.mul_lt_mul_of_pos_right hlt (by positivity)
      have h3 : (2 : Nat) ^ 277 * 2 ^ 149 < 4 ^ (191 + 23) := by
        rw [show (4 : Nat) = 2 ^ 2 by rfl, ← pow_mul, ← pow_add]
        exact Nat.pow_lt_pow_right (by norm_num) (by norm_num)
      omega
    have hroot : Real.sqrt x.toReal = Real.sqrt n / 2 ^ 149 := by
      rw [hx, ← hn, Nat.cast_mul, Nat.cast_pow, Nat.cast_ofNat]
      rw [show (units x.code : ℝ) / 2 ^ 149 = units x.code * 2 ^ 149 / (2 ^ 149) ^ 2 by
        field_simp, Real.sqrt_div (by positivity), Real.sqrt_sq (by positivity)]
    have hc : sqrtCode (units x.code) = excess n.sqrt * 2 ^ 23 +
        (if 4 * n < (2 * (n / 4 ^ excess n.sqrt).sqrt + 1) ^ 2 * 4 ^ excess n.sqrt
          then (n / 4 ^ excess n.sqrt).sqrt
          else if (2 * (n / 4 ^ excess n.sqrt).sqrt + 1) ^ 2 * 4 ^ excess n.sqrt < 4 * n
            then (n / 4 ^ excess n.sqrt).sqrt + 1
            else (n / 4 ^ excess n.sqrt).sqrt + (n / 4 ^ excess n.sqrt).sqrt % 2) := by
      unfold sqrtCode
      simp only
      rw [hn]
    generalize excess n.sqrt = k at *
    generalize (n / 4 ^ k).sqrt = q at *
    generalize hR : (if 4 * n < (2 * q + 1) ^ 2 * 4 ^ k then q
      else if (2 * q + 1) ^ 2 * 4 ^ k < 4 * n then q + 1 else q + q % 2) = R at *
    obtain ⟨n1, n2⟩ := sqrt_core q3 q4 hR
    have hR1 : q ≤ R ∧ R ≤ q + 1 := by
      rw [← hR]; split
      · omega
      · split <;> omega
    have hcode : k * 2 ^ 23 + R < infCode := by unfold infCode; omega
    have h2k : (0 : ℝ) < 2 ^ k := by positivity
    have h4k : ((4 : ℝ)) ^ k = (2 ^ k) ^ 2 := by
      rw [← pow_mul, Nat.mul_comm, pow_mul]; norm_num
    have hsq : Real.sqrt n ^ 2 = n := Real.sq_sqrt (by positivity)
    have hr0 := Real.sqrt_nonneg (n : ℝ)
    have a1 : (q : ℝ) * 2 ^ k ≤ Real.sqrt n := by
      apply le_of_sq_le_sq _ hr0
      rw [hsq, mul_pow, ← h4k]
      exact_mod_cast q3
    have a2 : Real.sqrt n < (q + 1) * 2 ^ k := by
      apply lt_of_pow_lt_pow_left₀ 2 (by positivity)
      rw [hsq, mul_pow, ← h4k]
      exact_mod_cast q4
    have hlo : (2 : ℝ) ^ 23 * 2 ^ k ≤ Real.sqrt n := by
      refine le_trans ?_ a1
      apply mul_le_mul_of_nonneg_right _ h2k.le
      exact_mod_cast q1
    have hhi : Real.sqrt n < 2 ^ 24 * 2 ^ k := by
      refine lt_of_lt_of_le a2 ?_
      apply mul_le_mul_of_nonneg_right _ h2k.le
      exact_mod_cast q2
    have near := near_core (by omega) (.inr (by omega)) (.inr hlo) hhi n1 n2
    rw [hc, hroot]
    have hP : (0 : ℝ) < 2 ^ 149 := by positivity
    have habs : |Real.sqrt n / 2 ^ 149| = Real.sqrt n / 2 ^ 149 := abs_of_nonneg (by positivity)
    refine ⟨fun _ => ⟨?_, fun y _ => ?_⟩, fun hbig => ?_, fun _ => ?_⟩
    · rw [finite_iff, mk'_code (hcode.trans infCode_lt)]; exact hcode
    · have := nearest_signed (s := false) hr0 (hcode.trans infCode_lt) near y
      simp only [Bool.false_eq_true, if_false, one_mul] at this
      exact this
    · exfalso
      rw [habs, le_div_iff₀ hP] at hbig
      have : (2 : ℝ) ^ 24 * 2 ^ k ≤ 2 ^ 24 * 2 ^ 190 := by
        apply mul_le_mul_of_nonneg_left _ (by positivity)
        exact pow_le_pow_right₀ (by norm_num) hk
      have : ((2 : ℝ) ^ 24 * 2 ^ 190) < (2 ^ 128 - 2 ^ 103) * 2 ^ 149 := by norm_num
      linarith
    · rw [mk'_sign (hcode.trans infCode_lt)]
      exact (decide_eq_false (not_lt.mpr (by positivity))).symm

/-- distinct nonzero finite floats have distinct values -/
theorem eq_of_toReal {v w : F32} (hs : v.sign = w.sign) (h : v.toReal = w.toReal) : v = w := by
  refine ext_fields hs ?_
  rw [toReal_eq, toReal_eq, hs] at h
  have hP : (2 : ℝ) ^ 149 ≠ 0 := by positivity
  have h' : (units v.code : ℝ) = units w.code := by
    have h1 : (if w.sign then (-1 : ℝ) else 1) ≠ 0 := by split <;> norm_num
    have := mul_left_cancel₀ h1 h
    field_simp at this
    exact this
  exact units_strictMono.injective (by exact_mod_cast h')

/-- `Rounds` leaves no freedom, except for the sign of an exact zero: the operations are determined. -/
theorem rounds_unique {r : ℝ} {v w : F32} (hr : r ≠ 0) (hv : Rounds r v) (hw : Rounds r w) : v = w := by
  have hs : v.sign = w.sign := (hv.sign hr).trans (hw.sign hr).symm
  rcases lt_or_ge |r| (2 ^ 128 - 2 ^ 103) with h | h
  · obtain ⟨fv, nv⟩ := hv.nearest h
    obtain ⟨fw, nw⟩ := hw.nearest h
    have hd := le_antisymm (nv w fw).1 (nw v fv).1
    apply eq_of_toReal hs
    by_contra hne
    have ev : v.code % 2 = 0 := ((nv w fw).2 hd).resolve_left hne
    have ew : w.code % 2 = 0 := ((nw v fv).2 hd.symm).resolve_left (fun e => hne e.symm)
    -- two even codes at the same distance: there is a code between them, and it is closer
    have key : ∀ a b : F32, a.sign = b.sign → a.code % 2 = 0 → b.code % 2 = 0 → a.code < b.code →
        b.isFinite = true → |a.toReal - r| = |b.toReal - r| →
        (∀ y : F32, y.isFinite = true → |a.toReal - r| ≤ |y.toReal - r|) → False := by
      intro a b hab ea eb hlt fb heq hn
      rw [finite_iff] at fb
      have hm : a.code + 1 < 2 ^ 31 := by have := infCode_lt; omega
      have hfin : (mk' a.sign (a.code + 1)).isFinite = true := by
        rw [finite_iff, mk'_code hm]; omega
      have hy := hn _ hfin
      rw [toReal_mk' hm] at hy
      rw [toReal_eq a] at hy heq
      rw [toReal_eq b, ← hab] at heq
      have hP : (0 : ℝ) < 2 ^ 149 := by positivity
      have u1 : (units a.code : ℝ) / 2 ^ 149 < units (a.code + 1) / 2 ^ 149 := by
        apply div_lt_div_of_pos_right _ hP
        exact_mod_cast units_lt.mpr (Nat.lt_succ_self _)
      have u2 : (units (a.code + 1) : ℝ) / 2 ^ 149 < units b.code / 2 ^ 149 := by
        apply div_lt_div_of_pos_right _ hP
        have : a.code + 1 < b.code := by omega
        exact_mod_cast units_lt.mpr this
      generalize (units a.code : ℝ) / 2 ^ 149 = A at *
      generalize (units (a.code + 1) : ℝ) / 2 ^ 149 = M at *
      generalize (units b.code : ℝ) / 2 ^ 149 = B at *
      cases hsg : a.sign <;> rw [hsg] at heq hy
      · simp only [Bool.false_eq_true, if_false, one_mul] at heq hy
        rcases abs_eq_abs.mp heq with e | e
        · linarith
        · have e1 : |A - r| = r - A := by rw [abs_sub_comm]; exact abs_of_nonneg (by linarith)
          rw [e1] at hy
          have : |M - r| < r - A := by rw [abs_lt]; constructor <;> linarith
          linarith
      · simp only [if_true] at heq hy
        rcases abs_eq_abs.mp heq with e | e
        · linarith
        · have e1 : |-1 * A - r| = -1 * A - r := abs_of_nonneg (by linarith)
          rw [e1] at hy
          have : |-1 * M - r| < -1 * A - r := by rw [abs_lt]; constructor <;> linarith
          linarith
    rcases Nat.lt_trichotomy v.code w.code with hc | hc | hc
    · exact key v w hs ev ew hc fw hd fun y fy => (nv y fy).1
    · exact hne (by rw [ext_fields hs hc])
    · exact key w v hs.symm ew ev hc fv hd.symm fun y fy => (nw y fy).1
  · have iv := hv.overflow h
    have iw := hw.overflow h
    unfold isInf at iv iw
    refine ext_fields hs ?_
    rw [of_decide_eq_true iv, of_decide_eq_true iw]

end Rusty.F32
