import Verif.Lemmas.IEEEMono
import Verif.Lemmas.IEEEExact
import Verif.Lemmas.IEEESum
import Mathlib.Algebra.BigOperators.Field
import Mathlib.Algebra.BigOperators.Intervals
import Mathlib.Algebra.Order.Floor.Semiring

/-! # The samples of the uniform distribution -/

namespace Rusty

open F32

namespace UniformFloat

theorem bits_word (w : UInt32) :
    ((0x3f800000 : UInt32) ||| (w >>> 9)).toNat = 127 * 2 ^ 23 + w.toNat / 2 ^ 9 := by
  have hw := w.toNat_lt
  rw [UInt32.toNat_or, UInt32.toNat_shiftRight]
  have h9 : w.toNat >>> ((9 : UInt32).toNat % 32) = w.toNat / 2 ^ 9 := by
    rw [Nat.shiftRight_eq_div_pow]; rfl
  rw [h9]
  have := Nat.two_pow_add_eq_or_of_lt (i := 23) (b := w.toNat / 2 ^ 9) (by omega) 127
  rw [Nat.mul_comm 127, this]
  rfl

/-- the number made of a word is exactly its first 23 bits, divided by `2^23` -/
theorem unit_toReal (w : UInt32) : (unit w).toReal = ((w.toNat / 2 ^ 9 : Nat) : ℝ) / 2 ^ 23 := by
  have hw := w.toNat_lt
  have hm : w.toNat / 2 ^ 9 < 2 ^ 23 := by omega
  have e := bits_word w
  obtain ⟨m, hme⟩ : ∃ m, m = w.toNat / 2 ^ 9 := ⟨_, rfl⟩
  rw [← hme] at e hm ⊢
  obtain ⟨x, hx⟩ : ∃ x : F32, x = ⟨(0x3f800000 : UInt32) ||| (w >>> 9)⟩ := ⟨_, rfl⟩
  have hs : x.sign = false := by
    rw [hx]
    unfold sign
    simp only [decide_eq_false_iff_not]
    omega
  have hc : x.code = 126 * 2 ^ 23 + (2 ^ 23 + m) := by
    rw [hx]
    unfold code
    simp only
    omega
  have hf : x.isFinite = true := by
    rw [finite_iff, hc]
    unfold infCode
    omega
  have hr : x.toReal = (2 ^ 23 + m) / 2 ^ 23 := by
    rw [toReal_eq, hs, hc, units_code (by omega) (.inr (by omega))]
    push_cast
    norm_num
    ring
  have h1 : (neg ⟨0x3f800000⟩ : F32).isFinite = true := by decide
  have h2 : (neg ⟨0x3f800000⟩ : F32).toReal = -1 := by
    rw [toReal_eq, show (neg ⟨0x3f800000⟩ : F32).sign = true by decide,
      show (neg ⟨0x3f800000⟩ : F32).code = 127 * 2 ^ 23 by decide, units_one]
    norm_num
  have h3 : x.toReal + (neg ⟨0x3f800000⟩ : F32).toReal = ((m : Int) : ℝ) / 2 ^ 23 := by
    rw [hr, h2]
    push_cast
    ring
  have := (add_exact hf h1 (z := m) (p := 23) (by omega) (by omega) h3).2
  unfold unit sub
  rw [← hx, this, h3]
  push_cast
  rfl

theorem max_toReal : max_rand.toReal = (2 ^ 23 - 1) / 2 ^ 23 := by
  unfold max_rand
  rw [unit_toReal, show ((0xffffffff : UInt32).toNat / 2 ^ 9) = 2 ^ 23 - 1 by decide]
  norm_num

/-- neighbouring floats are at most one part in `2^23` (or the smallest float) apart -/
theorem units_gap (c : Nat) : 2 ^ 23 * units (c + 1) ≤ 2 ^ 23 * units c + units c + 2 ^ 23 := by
  by_cases h : c < 2 ^ 23
  · have h1 := units_code (k := 0) (q := c) (by omega) (.inl rfl)
    have h2 := units_code (k := 0) (q := c + 1) (by omega) (.inl rfl)
    simp only [Nat.zero_mul, Nat.zero_add, pow_zero, Nat.mul_one] at h1 h2
    rw [h1, h2]
    omega
  · obtain ⟨k, r, hr, rfl⟩ : ∃ k r, r < 2 ^ 23 ∧ c = k * 2 ^ 23 + (2 ^ 23 + r) :=
      ⟨c / 2 ^ 23 - 1, c % 2 ^ 23, Nat.mod_lt _ (by decide), by omega⟩
    rw [Nat.add_assoc, units_code (by omega) (.inr (by omega)), units_code (by omega) (.inr (by omega))]
    generalize 2 ^ k = p
    nlinarith

theorem nonneg_real {x : F32} (h : 0 ≤ x.key) : x.toReal = units x.code / 2 ^ 149 ∧ 0 ≤ x.toReal := by
  have e : x.toReal = units x.code / 2 ^ 149 := by
    rw [toReal_eq]
    cases hs : x.sign
    · simp
    · unfold key at h
      rw [hs] at h
      simp only [if_true] at h
      have : x.code = 0 := by omega
      rw [this, units_zero]
      simp
  exact ⟨e, by rw [e]; positivity⟩

/-- as long as the loop runs, the product is larger than the distance of the bounds -/
theorem loop_runs {low high p : F32} (hl : low.isFinite = true) (hh : high.isFinite = true)
    (fm : (mul p max_rand).isFinite = true)
    (hg : gt (add (mul p max_rand) low) high = true) : high.toReal - low.toReal < (mul p max_rand).toReal := by
  by_contra hc
  obtain ⟨k1, _⟩ := key_add fm hl
  have hk : (add (mul p max_rand) low).key ≤ high.key := by
    rw [k1, ← rk_toInt hh]
    apply rk_mono
    have : (mul p max_rand).toReal + low.toReal ≤ high.toReal := by linarith
    unfold toReal at this
    rw [← add_div, div_le_div_iff_of_pos_right (by positivity)] at this
    exact_mod_cast this
  unfold gt at hg
  simp only [Bool.and_eq_true, decide_eq_true_eq] at hg
  omega

/-- the scale after the loop: not above the first one, and not so small that the loop was left too late -/
theorem shrink_scale {low high : F32} (hl : low.isFinite = true) (hh : high.isFinite = true)
    (h : low.key ≤ high.key) : ∀ (n : Nat) (s : F32), s.isFinite = true → 0 ≤ s.key →
      (shrink low high n s).toReal ≤ s.toReal ∧ (shrink low high n s = s ∨
        high.toReal - low.toReal ≤ (((shrink low high n s).toReal * (1 + 1 / 2 ^ 23) + 1 / 2 ^ 149) *
          max_rand.toReal) * (1 + 1 / 2 ^ 24) + 1 / 2 ^ 150) := by
  intro n
  induction n with
  | zero => intro s _ _; exact ⟨le_rfl, .inl rfl⟩
  | succ n ih =>
    intro s fs ks
    unfold shrink
    by_cases hg : gt (add (mul s max_rand) low) high = true
    case neg => rw [if_neg hg]; exact ⟨le_rfl, .inl rfl⟩
    rw [if_pos hg]
    have hc : s.code ≠ 0 := by
      intro h0
      rw [zero_scale hl h h0] at hg
      cases hg
    have hsg : s.sign = false := by
      cases hs : s.sign
      · rfl
      · unfold key at ks
        rw [hs] at ks
        simp only [if_true] at ks
        omega
    have hb := bits_eq s
    rw [hsg] at hb
    simp only [Bool.false_eq_true, if_false, Nat.zero_add] at hb
    have hpos : 1 ≤ s.bits.toNat := by omega
    have e : (s.bits - 1).toNat = s.code - 1 := by
      rw [UInt32.toNat_sub_of_le _ _ (by
        rw [UInt32.le_iff_toNat_le]; exact hpos), hb]
      rfl
    have hcl := code_lt s
    have c' : (⟨s.bits - 1⟩ : F32).code = s.code - 1 := by
      unfold code
      rw [e]
      exact Nat.mod_eq_of_lt (by unfold code at hcl ⊢; omega)
    have s' : (⟨s.bits - 1⟩ : F32).sign = false := by
      unfold sign
      rw [e]
      simp only [decide_eq_false_iff_not]
      omega
    have k' : 0 ≤ (⟨s.bits - 1⟩ : F32).key := by
      unfold key
      rw [s']
      simp
    obtain ⟨i1, i2⟩ := ih ⟨s.bits - 1⟩ (by
      rw [finite_iff] at fs ⊢
      rw [c']
      omega) k'
    have r1 := (nonneg_real ks).1
    have r2 := (nonneg_real k').1
    rw [c'] at r2
    have hgap := units_gap (s.code - 1)
    rw [Nat.sub_add_cancel (by omega)] at hgap
    have hgap : (2 : ℝ) ^ 23 * units s.code ≤ 2 ^ 23 * units (s.code - 1) + units (s.code - 1) + 2 ^ 23 := by
      exact_mod_cast hgap
    have hle : (⟨s.bits - 1⟩ : F32).toReal ≤ s.toReal := by
      rw [r1, r2, div_le_div_iff_of_pos_right (by positivity)]
      exact_mod_cast units_le.mpr (Nat.sub_le _ _)
    refine ⟨i1.trans hle, .inr ?_⟩
    rcases i2 with i2 | i2
    case inr => exact i2
    rw [i2]
    obtain ⟨f1, f2, f3, _⟩ := max_rand_facts
    have hm := mul_shrinks f1 fs f2.le ks f3
    rw [mul_comm'] at hm
    have hrun := loop_runs hl hh hm.1 hg
    have herr := mul_error hm.1
    have hmax := max_toReal
    have hs0 := (nonneg_real ks).2
    have hM : (0 : ℝ) ≤ max_rand.toReal := by rw [hmax]; norm_num
    rw [abs_of_nonneg (mul_nonneg hs0 hM)] at herr
    have herr := (abs_le.mp herr).2
    have hgap' : s.toReal ≤ (⟨s.bits - 1⟩ : F32).toReal * (1 + 1 / 2 ^ 23) + 1 / 2 ^ 149 := by
      rw [r1, r2]
      have e1 : (units s.code : ℝ) / 2 ^ 149 = 2 ^ 23 * units s.code / (2 ^ 23 * 2 ^ 149) := by
        field_simp
      have e2 : (units (s.code - 1) : ℝ) / 2 ^ 149 * (1 + 1 / 2 ^ 23) + 1 / 2 ^ 149 =
          (2 ^ 23 * units (s.code - 1) + units (s.code - 1) + 2 ^ 23) / (2 ^ 23 * 2 ^ 149) := by
        field_simp
      rw [e1, e2]
      exact div_le_div_of_nonneg_right hgap (by positivity)
    have hp := mul_le_mul_of_nonneg_right hgap' hM
    generalize (mul s max_rand).toReal = P at *
    generalize s.toReal * max_rand.toReal = Q at *
    generalize ((⟨s.bits - 1⟩ : F32).toReal * (1 + 1 / 2 ^ 23) + 1 / 2 ^ 149) * max_rand.toReal = R at *
    linarith

/-- the distance and the first scale -/
theorem first_scale {low high : F32} (hl : low.isFinite = true) (hh : high.isFinite = true)
    (h : low.key ≤ high.key) (hf : (div (sub high low) max_rand).isFinite = true) :
    |(sub high low).toReal - (high.toReal - low.toReal)| ≤ (high.toReal - low.toReal) / 2 ^ 24 ∧
    |(div (sub high low) max_rand).toReal - (sub high low).toReal / max_rand.toReal| ≤
      (sub high low).toReal / max_rand.toReal / 2 ^ 24 + 1 / 2 ^ 150 := by
  obtain ⟨f1, f2, f3, f4, f5⟩ := max_rand_facts
  have hn : (neg low).isFinite = true := by rw [key_neg.2.2]; exact hl
  obtain ⟨k1, k2⟩ := key_add hh hn
  have k0 : 0 ≤ (sub high low).key := by
    unfold sub
    rw [k1, key_neg.2.1]
    have := rk_mono (z := 0) (z' := high.toInt + -low.toInt) (by
      have := key_le_iff.mp h
      omega)
    rwa [show rk 0 = 0 by decide] at this
  have hnan : (sub high low).isNaN = false := k2
  have fs : (sub high low).isInf = false := by
    cases hi : (sub high low).isInf
    · rfl
    · unfold div at hf
      rw [hnan, finite_nan f1, hi, finite_inf f1] at hf
      simp only [Bool.or_self, Bool.false_eq_true, if_false, if_true] at hf
      rw [mk'_inf_not_finite] at hf
      cases hf
  have ff : (sub high low).isFinite = true := isFinite_iff.mpr ⟨hnan, fs⟩
  have hneg : (neg low).toReal = -low.toReal := by
    unfold toReal
    rw [key_neg.2.1]
    push_cast
    ring
  have hd : 0 ≤ high.toReal - low.toReal := by
    have := key_le_iff.mp h
    unfold toReal
    rw [← sub_div]
    have : (0 : ℝ) ≤ high.toInt - low.toInt := by
      have : (low.toInt : ℝ) ≤ high.toInt := by exact_mod_cast this
      linarith
    positivity
  refine ⟨?_, ?_⟩
  · have := add_error (x := high) (y := neg low) ff
    rw [hneg, ← sub_eq_add_neg, abs_of_nonneg hd] at this
    exact this
  · cases hs : (sub high low).sign
    · exact div_error hs f4 ff f1 f5 hf
    · have hc : (sub high low).code = 0 := by
        unfold key at k0
        rw [hs] at k0
        simp only [if_true] at k0
        omega
      have e : div (sub high low) max_rand = mk' (sub high low).sign
          (roundCode (units (sub high low).code * 2 ^ 149) (units max_rand.code)) := by
        unfold div
        rw [hnan, finite_nan f1, fs, finite_inf f1, f4]
        simp only [Bool.or_self, Bool.false_eq_true, if_false]
        rw [if_neg (by omega), Bool.bne_false]
      have z1 : (sub high low).toReal = 0 := by
        rw [toReal_eq, hc, units_zero]
        simp
      have z2 : (div (sub high low) max_rand).toReal = 0 := by
        rw [e, hc, units_zero, Nat.zero_mul, roundCode_zero, toReal_mk' (by decide), units_zero]
        simp
      rw [z1, z2]
      simp

/-- the scale times the largest number is the distance of the bounds, up to rounding -/
theorem scale_close {low high : F32} (hl : low.isFinite = true) (hh : high.isFinite = true)
    (h : low.key ≤ high.key) (hf : (div (sub high low) max_rand).isFinite = true) (n : Nat) (s : F32)
    (hs : s = shrink low high n (div (sub high low) max_rand)) (hs0 : 0 ≤ s.toReal) (hd : 0 ≤ high.toReal - low.toReal) :
    |s.toReal * max_rand.toReal - (high.toReal - low.toReal)| ≤
      3 * ((high.toReal - low.toReal) / 2 ^ 24) + 1 / 2 ^ 148 := by
  obtain ⟨a1, a2⟩ := first_scale hl hh h hf
  obtain ⟨b1, b2⟩ := shrink_scale hl hh h n _ hf (scale_nonneg hl hh h hf)
  rw [← hs] at b1 b2
  have hM := max_toReal
  have hM0 : (0 : ℝ) < max_rand.toReal := by rw [hM]; norm_num
  have hM1 : max_rand.toReal ≤ 1 := by rw [hM]; norm_num
  generalize hde : high.toReal - low.toReal = d at *
  generalize hDe : (sub high low).toReal = D at *
  -- the first scale, times the largest number
  obtain ⟨q, hq⟩ : ∃ q, q = (div (sub high low) max_rand).toReal * max_rand.toReal := ⟨_, rfl⟩
  have hq1 : |q - D| ≤ D / 2 ^ 24 + 1 / 2 ^ 150 := by
    have e : q - D = ((div (sub high low) max_rand).toReal - D / max_rand.toReal) * max_rand.toReal := by
      rw [hq, sub_mul, div_mul_cancel₀ _ hM0.ne']
    rw [e, abs_mul, abs_of_pos hM0]
    refine (mul_le_mul_of_nonneg_right a2 hM0.le).trans ?_
    have e2 : (D / max_rand.toReal / 2 ^ 24 + 1 / 2 ^ 150) * max_rand.toReal =
        D / 2 ^ 24 + 1 / 2 ^ 150 * max_rand.toReal := by
      field_simp
    rw [e2]
    have : (1 : ℝ) / 2 ^ 150 * max_rand.toReal ≤ 1 / 2 ^ 150 := by
      have h0 : (0 : ℝ) < 1 / 2 ^ 150 := by positivity
      nlinarith
    linarith
  have hup : s.toReal * max_rand.toReal ≤ q := by
    rw [hq]
    exact mul_le_mul_of_nonneg_right b1 hM0.le
  obtain ⟨c1, c2⟩ := abs_le.mp hq1
  obtain ⟨c3, c4⟩ := abs_le.mp a1
  have h150 : (1 : ℝ) / 2 ^ 148 = 4 * (1 / 2 ^ 150) := by norm_num
  have h149 : (1 : ℝ) / 2 ^ 149 = 2 * (1 / 2 ^ 150) := by norm_num
  have hη : (0 : ℝ) < 1 / 2 ^ 150 := by positivity
  rw [h150]
  rw [h149] at b2
  generalize (1 : ℝ) / 2 ^ 150 = η at *
  rw [abs_le]
  constructor
  · rcases b2 with b2 | b2
    · rw [b2, ← hq]
      norm_num at *
      linarith
    · have hP : 0 ≤ s.toReal * max_rand.toReal := mul_nonneg hs0 hM0.le
      have e : (s.toReal * (1 + 1 / 2 ^ 23) + 2 * η) * max_rand.toReal =
          s.toReal * max_rand.toReal * (1 + 1 / 2 ^ 23) + 2 * η * max_rand.toReal := by ring
      rw [e] at b2
      have hη' : 2 * η * max_rand.toReal ≤ 2 * η := by nlinarith
      by_cases hbig : d ≤ s.toReal * max_rand.toReal
      · have : 0 ≤ d / 2 ^ 24 := by positivity
        linarith
      · generalize s.toReal * max_rand.toReal = P at *
        generalize 2 * η * max_rand.toReal = E at *
        norm_num at *
        nlinarith
  · norm_num at *
    linarith

theorem le_real {x y : F32} : x.key ≤ y.key ↔ x.toReal ≤ y.toReal := by
  rw [key_le_iff]
  unfold toReal
  rw [div_le_div_iff_of_pos_right (by positivity)]
  exact_mod_cast Iff.rfl

/-- how far a sample can be from the one in exact arithmetic -/
noncomputable def spread (low high : F32) : ℝ := (|low.toReal| + |high.toReal|) / 2 ^ 21 + 1 / 2 ^ 146

theorem sample_close {low high : F32} (hl : low.isFinite = true) (hh : high.isFinite = true)
    (h : low.key ≤ high.key) (hf : (div (sub high low) max_rand).isFinite = true) (n : Nat) (s : F32)
    (hs : s = shrink low high n (div (sub high low) max_rand)) (fs : s.isFinite = true) (ks : 0 ≤ s.key)
    (hg : gt (add (mul s max_rand) low) high = false) (w : UInt32) :
    |(sample ⟨low, s⟩ w).toReal -
      (low.toReal + ((w.toNat / 2 ^ 9 : Nat) : ℝ) / (2 ^ 23 - 1) * (high.toReal - low.toReal))| ≤ spread low high := by
  have hd : 0 ≤ high.toReal - low.toReal := by linarith [le_real.mp h]
  have hs0 := (nonneg_real ks).2
  have hq := scale_close hl hh h hf n s hs hs0 hd
  obtain ⟨f1, f2, f3, _⟩ := max_rand_facts
  obtain ⟨u1, u2, u3⟩ := unit_range w
  have uc : (unit w).code ≤ 127 * 2 ^ 23 := by
    have := key_nonneg u2
    have := key_nonneg f2.le
    omega
  obtain ⟨a1, a2, a3⟩ := mul_shrinks u1 fs u2 ks uc
  have e1 := mul_error a1
  have hfin := (sample_range hl hh fs ks hg w).1
  have e2 := add_error (x := mul (unit w) s) (y := low) hfin
  change |(sample ⟨low, s⟩ w).toReal - ((mul (unit w) s).toReal + low.toReal)| ≤ _ at e2
  have hw := w.toNat_lt
  have hm : w.toNat / 2 ^ 9 ≤ 2 ^ 23 - 1 := by omega
  have hu := unit_toReal w
  have hM := max_toReal
  generalize hlam : ((w.toNat / 2 ^ 9 : Nat) : ℝ) / (2 ^ 23 - 1) = lam
  have hl0 : 0 ≤ lam := by rw [← hlam]; norm_num; positivity
  have hl1 : lam ≤ 1 := by
    rw [← hlam, div_le_one (by norm_num)]
    have : ((w.toNat / 2 ^ 9 : Nat) : ℝ) ≤ ((2 ^ 23 - 1 : Nat) : ℝ) := by exact_mod_cast hm
    norm_num at this ⊢
    exact this
  have hul : (unit w).toReal * s.toReal = lam * (s.toReal * max_rand.toReal) := by
    rw [hu, hM, ← hlam]
    field_simp
  rw [hul] at e1
  generalize s.toReal * max_rand.toReal = Q at *
  generalize (mul (unit w) s).toReal = A at *
  generalize (sample ⟨low, s⟩ w).toReal = S at *
  unfold spread
  generalize low.toReal = x at *
  generalize high.toReal = y at *
  have h146 : (1 : ℝ) / 2 ^ 146 = 16 * (1 / 2 ^ 150) := by norm_num
  have h148 : (1 : ℝ) / 2 ^ 148 = 4 * (1 / 2 ^ 150) := by norm_num
  rw [h148] at hq
  rw [h146]
  have hη : (0 : ℝ) < 1 / 2 ^ 150 := by positivity
  generalize (1 : ℝ) / 2 ^ 150 = η at *
  have hB : y - x ≤ |x| + |y| := by
    have := neg_abs_le x
    have := le_abs_self y
    linarith
  have hC : |x + lam * (y - x)| ≤ |x| + |y| := by
    have e : x + lam * (y - x) = (1 - lam) * x + lam * y := by ring
    rw [e]
    refine (abs_add_le _ _).trans ?_
    rw [abs_mul, abs_mul, abs_of_nonneg hl0, abs_of_nonneg (by linarith : 0 ≤ 1 - lam)]
    have := abs_nonneg x
    have := abs_nonneg y
    nlinarith
  generalize hb : |x| + |y| = B at *
  have hB0 : 0 ≤ B := by linarith
  -- the product
  have g1 : |lam * Q - lam * (y - x)| ≤ 3 * (B / 2 ^ 24) + 4 * η := by
    rw [← mul_sub, abs_mul, abs_of_nonneg hl0]
    have h1 : 3 * ((y - x) / 2 ^ 24) + 4 * η ≤ 3 * (B / 2 ^ 24) + 4 * η := by
      norm_num
      linarith
    have := abs_nonneg (Q - (y - x))
    nlinarith
  have g2 : |lam * Q| ≤ B + 3 * (B / 2 ^ 24) + 4 * η := by
    have h1 : |lam * (y - x)| ≤ B := by
      rw [abs_mul, abs_of_nonneg hl0, abs_of_nonneg hd]
      nlinarith
    have := abs_add_le (lam * Q - lam * (y - x)) (lam * (y - x))
    rw [sub_add_cancel] at this
    linarith
  have g3 : |A - lam * (y - x)| ≤ 3 * (B / 2 ^ 24) + 4 * η + ((B + 3 * (B / 2 ^ 24) + 4 * η) / 2 ^ 24 + η) := by
    have := abs_add_le (A - lam * Q) (lam * Q - lam * (y - x))
    rw [sub_add_sub_cancel] at this
    have h1 : |lam * Q| / 2 ^ 24 ≤ (B + 3 * (B / 2 ^ 24) + 4 * η) / 2 ^ 24 :=
      div_le_div_of_nonneg_right g2 (by positivity)
    linarith
  have g4 : |A - lam * (y - x)| ≤ 5 * (B / 2 ^ 24) + 6 * η := by
    refine g3.trans ?_
    norm_num
    linarith
  have g5 : |A + x| ≤ B + (5 * (B / 2 ^ 24) + 6 * η) := by
    have := abs_add_le (A - lam * (y - x)) (x + lam * (y - x))
    rw [show A - lam * (y - x) + (x + lam * (y - x)) = A + x by ring] at this
    linarith
  have g6 : |A + x| / 2 ^ 24 ≤ (B + (5 * (B / 2 ^ 24) + 6 * η)) / 2 ^ 24 :=
    div_le_div_of_nonneg_right g5 (by positivity)
  have g7 := abs_add_le (S - (A + x)) (A - lam * (y - x))
  rw [show S - (A + x) + (A - lam * (y - x)) = S - (x + lam * (y - x)) by ring] at g7
  refine g7.trans ?_
  norm_num at *
  linarith

/-- more leading bits, larger samples -/
theorem sample_mono {low s : F32} (hl : low.isFinite = true) (fs : s.isFinite = true) (ks : 0 ≤ s.key) {w w' : UInt32}
    (h : w.toNat / 2 ^ 9 ≤ w'.toNat / 2 ^ 9) : (sample ⟨low, s⟩ w).key ≤ (sample ⟨low, s⟩ w').key := by
  obtain ⟨f1, f2, f3, _⟩ := max_rand_facts
  obtain ⟨u1, u2, u3⟩ := unit_range w
  obtain ⟨v1, v2, v3⟩ := unit_range w'
  have c : ∀ {z : F32}, 0 ≤ z.key → z.key ≤ max_rand.key → z.code ≤ 127 * 2 ^ 23 := by
    intro z h1 h2
    have := key_nonneg h1
    have := key_nonneg f2.le
    omega
  have hu : (unit w).key ≤ (unit w').key := by
    rw [le_real, unit_toReal, unit_toReal]
    exact div_le_div_of_nonneg_right (by exact_mod_cast h) (by positivity)
  have hm := key_le_iff.mp (mul_mono u1 v1 fs u2 hu ks)
  obtain ⟨k1, _⟩ := key_add (mul_shrinks u1 fs u2 ks (c u2 u3)).1 hl
  obtain ⟨k2, _⟩ := key_add (mul_shrinks v1 fs v2 ks (c v2 v3)).1 hl
  unfold sample
  rw [k1, k2]
  apply rk_mono
  omega

/-! ## Counting words -/

open Finset

theorem card_ge {z : ℝ} (h : z ≤ 2 ^ 23) :
    2 ^ 9 * z ≤ (((range (2 ^ 32)).filter fun w : Nat => ((w / 2 ^ 9 : Nat) : ℝ) ≤ z).card : ℝ) := by
  by_cases h0 : z < 0
  · have : (0 : ℝ) ≤ (((range (2 ^ 32)).filter fun w : Nat => ((w / 2 ^ 9 : Nat) : ℝ) ≤ z).card : ℝ) := by positivity
    linarith
  have h0 : 0 ≤ z := by linarith
  have hsub : range (2 ^ 9 * min (⌊z⌋₊ + 1) (2 ^ 23)) ⊆
      (range (2 ^ 32)).filter fun w : Nat => ((w / 2 ^ 9 : Nat) : ℝ) ≤ z := by
    intro w hw
    rw [mem_range] at hw
    rw [mem_filter, mem_range]
    refine ⟨by omega, ?_⟩
    have : w / 2 ^ 9 ≤ ⌊z⌋₊ := by omega
    exact (Nat.le_floor_iff h0).mp this
  have hc := card_le_card hsub
  rw [card_range] at hc
  have hc : ((2 ^ 9 * min (⌊z⌋₊ + 1) (2 ^ 23) : Nat) : ℝ) ≤
      (((range (2 ^ 32)).filter fun w : Nat => ((w / 2 ^ 9 : Nat) : ℝ) ≤ z).card : ℝ) := by exact_mod_cast hc
  refine le_trans ?_ hc
  have h1 := Nat.lt_floor_add_one z
  have : z ≤ min ((⌊z⌋₊ : ℝ) + 1) (2 ^ 23) := le_min h1.le h
  refine (mul_le_mul_of_nonneg_left this (by positivity)).trans (le_of_eq ?_)
  push_cast
  norm_num

theorem card_le {z : ℝ} (h0 : 0 ≤ z) :
    (((range (2 ^ 32)).filter fun w : Nat => ((w / 2 ^ 9 : Nat) : ℝ) ≤ z).card : ℝ) ≤ 2 ^ 9 * (z + 1) := by
  have hsub : ((range (2 ^ 32)).filter fun w : Nat => ((w / 2 ^ 9 : Nat) : ℝ) ≤ z) ⊆ range (2 ^ 9 * (⌊z⌋₊ + 1)) := by
    intro w hw
    rw [mem_filter, mem_range] at hw
    rw [mem_range]
    have := Nat.le_floor hw.2
    omega
  have hc := card_le_card hsub
  rw [card_range] at hc
  have hc : (((range (2 ^ 32)).filter fun w : Nat => ((w / 2 ^ 9 : Nat) : ℝ) ≤ z).card : ℝ) ≤
      ((2 ^ 9 * (⌊z⌋₊ + 1) : Nat) : ℝ) := by exact_mod_cast hc
  refine hc.trans ?_
  push_cast
  have := Nat.floor_le h0
  linarith

theorem fraction_bound {N q r : ℝ} (hq0 : 0 ≤ q) (hq1 : q ≤ 1) (hr0 : 0 ≤ r)
    (c1 : 2 ^ 9 * ((q - r) * (2 ^ 23 - 1)) ≤ N) (c2 : N ≤ 2 ^ 9 * ((q + r) * (2 ^ 23 - 1) + 1)) :
    |N / 2 ^ 32 - q| ≤ r + 1 / 2 ^ 23 := by
  rw [abs_le]
  norm_num at *
  constructor <;> rw [← sub_nonneg] <;> linarith

/-- the distribution of values that are close to evenly spaced ones -/
theorem fraction_close {g : Nat → ℝ} {x d e : ℝ} (hd : 0 < d) (he : 0 ≤ e)
    (h : ∀ w, w < 2 ^ 32 → |g w - (x + ((w / 2 ^ 9 : Nat) : ℝ) / (2 ^ 23 - 1) * d)| ≤ e) {t : ℝ} (h1 : x ≤ t)
    (h2 : t ≤ x + d) :
    |(((range (2 ^ 32)).filter fun w => g w ≤ t).card : ℝ) / 2 ^ 32 - (t - x) / d| ≤ e / d + 1 / 2 ^ 23 := by
  obtain ⟨q, hq⟩ : ∃ q, q = (t - x) / d := ⟨_, rfl⟩
  obtain ⟨r, hr⟩ : ∃ r, r = e / d := ⟨_, rfl⟩
  have hq0 : 0 ≤ q := by rw [hq]; exact div_nonneg (by linarith) hd.le
  have hq1 : q ≤ 1 := by rw [hq, div_le_one hd]; linarith
  have hr0 : 0 ≤ r := by rw [hr]; positivity
  have ht : t = x + q * d := by rw [hq, div_mul_cancel₀ _ hd.ne']; ring
  have hee : e = r * d := by rw [hr, div_mul_cancel₀ _ hd.ne']
  rw [← hq, ← hr]
  have hM : (0 : ℝ) < 2 ^ 23 - 1 := by norm_num
  have lower : ((range (2 ^ 32)).filter fun w : Nat => ((w / 2 ^ 9 : Nat) : ℝ) ≤ (q - r) * (2 ^ 23 - 1)) ⊆
      (range (2 ^ 32)).filter fun w => g w ≤ t := by
    intro w hw
    rw [mem_filter, mem_range] at hw ⊢
    refine ⟨hw.1, ?_⟩
    have hle := (abs_le.mp (h w hw.1)).2
    have := (div_le_iff₀ hM).mpr hw.2
    have := mul_le_mul_of_nonneg_right this hd.le
    rw [ht]
    rw [hee] at hle
    linarith
  have upper : ((range (2 ^ 32)).filter fun w => g w ≤ t) ⊆
      (range (2 ^ 32)).filter fun w : Nat => ((w / 2 ^ 9 : Nat) : ℝ) ≤ (q + r) * (2 ^ 23 - 1) := by
    intro w hw
    rw [mem_filter, mem_range] at hw ⊢
    refine ⟨hw.1, ?_⟩
    have hle := (abs_le.mp (h w hw.1)).1
    have hwt := hw.2
    rw [ht] at hwt
    rw [hee] at hle
    rw [← div_le_iff₀ hM]
    refine le_of_mul_le_mul_right ?_ hd
    linarith
  have c1 : (((range (2 ^ 32)).filter fun w : Nat => ((w / 2 ^ 9 : Nat) : ℝ) ≤ (q - r) * (2 ^ 23 - 1)).card : ℝ) ≤
      (((range (2 ^ 32)).filter fun w => g w ≤ t).card : ℝ) := by exact_mod_cast card_le_card lower
  have c2 : (((range (2 ^ 32)).filter fun w => g w ≤ t).card : ℝ) ≤
      (((range (2 ^ 32)).filter fun w : Nat => ((w / 2 ^ 9 : Nat) : ℝ) ≤ (q + r) * (2 ^ 23 - 1)).card : ℝ) := by
    exact_mod_cast card_le_card upper
  have l1 := card_ge (z := (q - r) * (2 ^ 23 - 1)) (by nlinarith)
  have l2 := card_le (z := (q + r) * (2 ^ 23 - 1)) (by nlinarith)
  have c1 := l1.trans c1
  have c2 := c2.trans l2
  exact fraction_bound hq0 hq1 hr0 c1 c2

theorem sum_words (g : Nat → ℝ) {P : Nat} (hP : 0 < P) (K : Nat) :
    ∑ w ∈ range (P * K), g (w / P) = P * ∑ m ∈ range K, g m := by
  induction K with
  | zero => simp
  | succ K ih =>
    rw [Nat.mul_succ, sum_range_add, ih, sum_range_succ, mul_add]
    congr 1
    rw [sum_congr rfl (g := fun _ => g K) (fun i hi => by
      rw [mem_range] at hi
      rw [Nat.mul_add_div hP, Nat.div_eq_of_lt hi, Nat.add_zero]), sum_const, card_range, nsmul_eq_mul]

/-- the average of values that are close to evenly spaced ones -/
theorem average_close {g : Nat → ℝ} {x d e : ℝ} {P K : Nat} (hP : 0 < P) (hK : 1 < K)
    (h : ∀ w, w < P * K → |g w - (x + ((w / P : Nat) : ℝ) / (K - 1) * d)| ≤ e) :
    |(∑ w ∈ range (P * K), g w) / (P * K) - (x + d / 2)| ≤ e := by
  have hP' : (0 : ℝ) < P := by exact_mod_cast hP
  have hK' : (1 : ℝ) < K := by exact_mod_cast hK
  have hK1 : (K : ℝ) - 1 ≠ 0 := by linarith
  have hideal : ∑ w ∈ range (P * K), (x + ((w / P : Nat) : ℝ) / (K - 1) * d) = P * K * (x + d / 2) := by
    have := sum_words (fun m => x + (m : ℝ) / (K - 1) * d) hP K
    rw [this, sum_add_distrib, sum_const, card_range, ← sum_mul, ← sum_div]
    have hg : (∑ m ∈ range K, (m : ℝ)) * 2 = K * (K - 1) := by
      have := sum_range_id_mul_two K
      have h' : ((∑ m ∈ range K, m : Nat) : ℝ) * 2 = ((K * (K - 1) : Nat) : ℝ) := by
        exact_mod_cast this
      rw [Nat.cast_sum, Nat.cast_mul, Nat.cast_sub hK.le, Nat.cast_one] at h'
      exact h'
    have hg : (∑ m ∈ range K, (m : ℝ)) = K * (K - 1) / 2 := by linarith
    rw [hg, nsmul_eq_mul]
    field_simp
  have hpos : (0 : ℝ) < P * K := by positivity
  have e1 : (∑ w ∈ range (P * K), g w) / (P * K) - (x + d / 2) =
      (∑ w ∈ range (P * K), (g w - (x + ((w / P : Nat) : ℝ) / (K - 1) * d))) / (P * K) := by
    rw [sum_sub_distrib, hideal, sub_div, mul_div_cancel_left₀ _ hpos.ne']
  rw [e1, abs_div, abs_of_pos hpos, div_le_iff₀ hpos]
  refine (abs_sum_le_sum_abs _ _).trans ?_
  refine (sum_le_sum fun w hw => h w (mem_range.mp hw)).trans ?_
  rw [sum_const, card_range, nsmul_eq_mul, Nat.cast_mul, mul_comm]

end UniformFloat

end Rusty
