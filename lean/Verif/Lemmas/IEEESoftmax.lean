import Verif.Lemmas.IEEE
import Verif.Spec.IEEE
import Verif.Spec.Operations
import Mathlib.Analysis.Complex.ExponentialBounds

/-! # Helper lemmas: sums and quotients of nonnegative floats -/

namespace Rusty.F32

/-- a float that is `0` or positive, and not NaN (infinity is allowed) -/
def NonNeg (x : F32) : Prop := x.isNaN = false ∧ x.sign = false

theorem toReal_nonneg {x : F32} (h : x.sign = false) : x.toReal = units x.code / 2 ^ 149 := by
  unfold toReal toInt
  rw [h]
  simp

theorem inUnit_of {c : Nat} (h : c ≤ 127 * 2 ^ 23) : InUnit (mk' false c) := by
  have hc : c < 2 ^ 31 := by omega
  refine ⟨?_, ?_, ?_⟩
  · rw [finite_iff, mk'_code hc]
    unfold infCode
    omega
  · rw [toReal_nonneg (mk'_sign hc)]
    positivity
  · rw [toReal_nonneg (mk'_sign hc), mk'_code hc, div_le_one (by positivity)]
    have := units_le.mpr h
    rw [units_one] at this
    exact_mod_cast this

theorem roundCode_zero (d : Nat) : roundCode 0 d = 0 := by
  unfold roundCode rne excess
  simp

theorem add_nonneg {x y : F32} (hx : x.sign = false) (hy : y.sign = false)
    (fx : x.isFinite = true) (fy : y.isFinite = true) :
    add x y = mk' false (roundCode (units x.code + units y.code) 1) := by
  unfold add
  rw [finite_nan fx, finite_nan fy, finite_inf fx, finite_inf fy]
  simp only [Bool.or_self, Bool.false_eq_true, if_false]
  unfold toInt
  rw [hx, hy]
  simp only [Bool.false_eq_true, if_false, Bool.and_self]
  split
  · next h =>
    have : units x.code + units y.code = 0 := by omega
    rw [this, roundCode_zero]
  · next h =>
    congr 1

/-- the sum of two numbers that are not negative is one -/
theorem add_sign {x y : F32} (hx : x.sign = false) (hy : y.sign = false) (nx : x.isNaN = false)
    (ny : y.isNaN = false) : (add x y).sign = false ∧ (add x y).isNaN = false := by
  by_cases ix : x.isInf = true
  · have : add x y = x := by
      unfold add
      rw [nx, ny, ix, hx, hy]
      simp
    rw [this]
    exact ⟨hx, nx⟩
  · by_cases iy : y.isInf = true
    · have : add x y = y := by
        unfold add
        rw [nx, ny, iy]
        simp [ix]
      rw [this]
      exact ⟨hy, ny⟩
    · simp only [Bool.not_eq_true] at ix iy
      rw [add_nonneg hx hy (isFinite_iff.mpr ⟨nx, ix⟩) (isFinite_iff.mpr ⟨ny, iy⟩)]
      refine ⟨mk'_sign (roundCode_lt _ _), ?_⟩
      unfold isNaN
      rw [mk'_code (roundCode_lt _ _)]
      have := roundCode_le (units x.code + units y.code) 1
      simp [this]

/-- a sum of numbers that are not negative is one -/
theorem sum_sign (es : List F32) (s : F32) (hs : s.sign = false) (ns : s.isNaN = false)
    (he : ∀ e ∈ es, e.sign = false ∧ e.isNaN = false) :
    (es.foldl add s).sign = false ∧ (es.foldl add s).isNaN = false := by
  induction es generalizing s with
  | nil => exact ⟨hs, ns⟩
  | cons e es ih =>
    obtain ⟨e1, e2⟩ := he e (List.mem_cons_self ..)
    obtain ⟨a1, a2⟩ := add_sign hs e1 ns e2
    exact ih _ a1 a2 fun x hx => he x (List.mem_cons_of_mem _ hx)

/-- adding to a nonnegative float never makes it smaller, and gives at least the addend -/
theorem add_ge {x y : F32} (hx : x.sign = false) (hy : y.sign = false)
    (fx : x.isFinite = true) (fy : y.isFinite = true) :
    (add x y).sign = false ∧ x.code ≤ (add x y).code ∧ y.code ≤ (add x y).code := by
  rw [add_nonneg hx hy fx fy, mk'_sign (roundCode_lt _ _), mk'_code (roundCode_lt _ _)]
  rw [finite_iff] at fx fy
  refine ⟨rfl, le_roundCode_of (by decide) (by omega) (by omega),
    le_roundCode_of (by decide) (by omega) (by omega)⟩

/-- half a unit in the last place above a power of two is rounded away -/
theorem rawCode_tie (n : Nat) : rawCode (2 ^ (24 + n) + 2 ^ n) 1 = (n + 2) * 2 ^ 23 := by
  have hp : 0 < 2 ^ n := Nat.pow_pos (by decide)
  have e2 : 2 ^ (24 + n) = 2 ^ 24 * 2 ^ n := pow_add ..
  have e3 : 2 ^ (n + 1) = 2 * 2 ^ n := by rw [pow_succ, Nat.mul_comm]
  have e : excess (2 ^ (24 + n) + 2 ^ n) = n + 1 := by
    apply excess_eq
    · rw [show n + 1 + 23 = 24 + n by omega]; omega
    · rw [show n + 1 + 24 = 25 + n by omega, pow_add 2 25 n, e2]
      generalize 2 ^ n = p at *
      omega
  unfold rawCode
  rw [Nat.div_one, e, Nat.one_mul]
  have r : rne (2 ^ (24 + n) + 2 ^ n) (2 ^ (n + 1)) = 2 ^ 23 := by
    have e1 : 2 ^ (24 + n) + 2 ^ n = 2 ^ n + 2 ^ (n + 1) * 2 ^ 23 := by
      rw [e2, e3]; ring
    unfold rne
    rw [e1, Nat.add_mul_mod_self_left, Nat.add_mul_div_left _ _ (by omega),
      Nat.mod_eq_of_lt (by omega), Nat.div_eq_of_lt (by omega), if_neg (by omega), if_neg (by omega)]
    rfl
  rw [r]
  omega

/-- `2^127` absorbs everything up to `2^103` -/
theorem add_absorbs {x y : F32} (hx : x.sign = false) (hy : y.sign = false)
    (cx : x.code ≤ 254 * 2 ^ 23) (cy : y.code ≤ 230 * 2 ^ 23) :
    (add x y).code ≤ 254 * 2 ^ 23 := by
  have fx : x.isFinite = true := by rw [finite_iff]; unfold infCode; omega
  have fy : y.isFinite = true := by rw [finite_iff]; unfold infCode; omega
  rw [add_nonneg hx hy fx fy, mk'_code (roundCode_lt _ _)]
  have ux := units_le.mpr cx
  have uy := units_le.mpr cy
  rw [units_pow 253, show 23 + 253 = 24 + 252 by rfl] at ux
  rw [units_pow 229, show 23 + 229 = 252 by rfl] at uy
  have h : units x.code + units y.code ≤ 2 ^ (24 + 252) + 2 ^ 252 := Nat.add_le_add ux uy
  have hm := rawCode_mono (a := units x.code + units y.code) (d := 1)
    (a' := 2 ^ (24 + 252) + 2 ^ 252) (d' := 1) (by decide) (by decide) (by rw [Nat.mul_one, Nat.mul_one]; exact h)
  rw [rawCode_tie] at hm
  exact (Nat.min_le_right _ _).trans hm

/-- A sum of nonnegative floats: at least every summand. -/
theorem sum_ge (es : List F32) (s : F32) (hs : s.sign = false)
    (he : ∀ e ∈ es, e.sign = false ∧ e.isNaN = false)
    (hfin : (es.foldl add s).isFinite = true) (hsf : s.isNaN = false) :
    (es.foldl add s).sign = false ∧ s.code ≤ (es.foldl add s).code ∧
      ∀ e ∈ es, e.code ≤ (es.foldl add s).code := by
  induction es generalizing s with
  | nil => exact ⟨hs, le_refl _, fun _ h => by cases h⟩
  | cons e es ih =>
    rw [List.foldl_cons] at hfin ⊢
    obtain ⟨e1, e2⟩ := he e (List.mem_cons_self ..)
    -- infinities persist
    have hinf : ∀ (l : List F32) (t : F32), t.sign = false → t.isInf = true →
        (∀ e ∈ l, e.sign = false ∧ e.isNaN = false) → (l.foldl add t).isInf = true := by
      intro l
      induction l with
      | nil => intro t _ h _; exact h
      | cons a l ihl =>
        intro t ht hti hl
        obtain ⟨a1, a2⟩ := hl a (List.mem_cons_self ..)
        have ht2 : t.isNaN = false := by
          unfold isInf at hti; unfold isNaN
          simp only [decide_eq_true_eq] at hti
          simp [hti]
        have : add t a = t := by
          unfold add
          rw [ht2, a2, hti, ht, a1]
          simp
        rw [List.foldl_cons, this]
        exact ihl t ht hti (fun x hx => hl x (List.mem_cons_of_mem _ hx))
    have notinf : ∀ t : F32, t.isFinite = true → t.isInf = true → False := by
      intro t h1 h2
      rw [finite_inf h1] at h2
      cases h2
    have cases3 : ∀ t : F32, t.isNaN = false → t.isInf = true ∨ t.isFinite = true := by
      intro t h
      unfold isNaN at h
      unfold isInf isFinite
      simp only [decide_eq_false_iff_not, decide_eq_true_eq] at h ⊢
      omega
    have htl : ∀ x ∈ es, x.sign = false ∧ x.isNaN = false :=
      fun x hx => he x (List.mem_cons_of_mem _ hx)
    rcases cases3 s hsf with hi | hfs
    · exfalso
      have : add s e = s := by
        unfold add
        rw [hsf, e2, hi, hs, e1]
        simp
      rw [this] at hfin
      exact notinf _ hfin (hinf es s hs hi htl)
    · rcases cases3 e e2 with hi | hfe
      · exfalso
        have : add s e = e := by
          unfold add
          rw [hsf, e2, finite_inf hfs, hi]
          simp
        rw [this] at hfin
        exact notinf _ hfin (hinf es e e1 hi htl)
      · obtain ⟨g1, g2, g3⟩ := add_ge hs e1 hfs hfe
        have gn : (add s e).isNaN = false := by
          unfold isNaN
          rw [add_nonneg hs e1 hfs hfe, mk'_code (roundCode_lt _ _)]
          simp only [decide_eq_false_iff_not, Nat.not_lt]
          exact roundCode_le _ _
        obtain ⟨i1, i2, i3⟩ := ih (add s e) g1 htl hfin gn
        refine ⟨i1, g2.trans i2, fun x hx => ?_⟩
        rcases List.mem_cons.mp hx with rfl | hx
        · exact g3.trans i2
        · exact i3 x hx

/-- Any number of nonnegative floats up to `2^103` has a finite sum. -/
theorem sum_absorbs (es : List F32) (s : F32) (hs : s.sign = false) (hc : s.code ≤ 254 * 2 ^ 23)
    (he : ∀ e ∈ es, e.sign = false ∧ e.code ≤ 230 * 2 ^ 23) :
    (es.foldl add s).code ≤ 254 * 2 ^ 23 := by
  induction es generalizing s with
  | nil => exact hc
  | cons e es ih =>
    rw [List.foldl_cons]
    obtain ⟨e1, e2⟩ := he e (List.mem_cons_self ..)
    have fs : s.isFinite = true := by rw [finite_iff]; unfold infCode; omega
    have fe : e.isFinite = true := by rw [finite_iff]; unfold infCode; omega
    exact ih (add s e) (add_ge hs e1 fs fe).1 (add_absorbs hs e1 hc e2)
      (fun x hx => he x (List.mem_cons_of_mem _ hx))

/-- a quotient of nonnegative floats, the divisor positive and not smaller -/
theorem div_unit {x y : F32} (hx : x.sign = false) (hy : y.sign = false)
    (fy : y.isFinite = true) (h0 : 0 < y.code) (hle : x.code ≤ y.code) : InUnit (div x y) := by
  have fx : x.isFinite = true := by rw [finite_iff] at fy ⊢; omega
  have e : div x y = mk' false (roundCode (units x.code * 2 ^ 149) (units y.code)) := by
    unfold div
    rw [finite_nan fx, finite_nan fy, finite_inf fx, finite_inf fy, hx, hy]
    simp only [Bool.or_self, Bool.false_eq_true, if_false, bne_self_eq_false]
    rw [if_neg (by omega)]
  rw [e]
  apply inUnit_of
  apply roundCode_le_of (units_pos.mpr h0) _ (by unfold infCode; omega)
  rw [units_one, Nat.mul_comm]
  exact Nat.mul_le_mul_left _ (units_le.mpr hle)

/-! ## The exponential function -/

theorem exp_le_of {v : ℝ} (h : v ≤ 71) : Real.exp v * (1 + 1 / 2 ^ 20) ≤ 2 ^ 103 := by
  have h1 : Real.exp v ≤ Real.exp ((71 : ℕ) : ℝ) := Real.exp_le_exp.mpr (by exact_mod_cast h)
  rw [← Real.exp_one_pow] at h1
  have h2 : Real.exp 1 ^ 71 ≤ 2.7182818286 ^ 71 :=
    pow_le_pow_left₀ (Real.exp_pos 1).le Real.exp_one_lt_d9.le 71
  have h3 : (2.7182818286 : ℝ) ^ 71 * (1 + 1 / 2 ^ 20) ≤ 2 ^ 103 := by norm_num
  calc Real.exp v * (1 + 1 / 2 ^ 20) ≤ 2.7182818286 ^ 71 * (1 + 1 / 2 ^ 20) :=
        mul_le_mul_of_nonneg_right (h1.trans h2) (by norm_num)
    _ ≤ _ := h3

theorem exp_ge_of {v : ℝ} (h : -87 ≤ v) : 1 / 2 ^ 126 ≤ Real.exp v := by
  have h1 : Real.exp (-(87 : ℕ)) ≤ Real.exp v := Real.exp_le_exp.mpr (by exact_mod_cast h)
  rw [Real.exp_neg, ← Real.exp_one_pow] at h1
  have h2 : Real.exp 1 ^ 87 ≤ 2.7182818286 ^ 87 :=
    pow_le_pow_left₀ (Real.exp_pos 1).le Real.exp_one_lt_d9.le 87
  have h3 : (2.7182818286 : ℝ) ^ 87 ≤ 2 ^ 126 := by norm_num
  refine le_trans ?_ h1
  rw [one_div]
  exact inv_anti₀ (pow_pos (Real.exp_pos 1) 87) (h2.trans h3)

variable [Libm]

/-- `exp` of arguments between -87 and 71 -/
theorem exp_range [ExpAccurate] {x : F32} (hx : x.isFinite = true) (h1 : -87 ≤ x.toReal)
    (h2 : x.toReal ≤ 71) :
    (Libm.exp x).sign = false ∧ 0 < (Libm.exp x).code ∧ (Libm.exp x).code ≤ 230 * 2 ^ 23 := by
  obtain ⟨n1, n2⟩ := ExpAccurate.nonneg x hx
  have hb := exp_le_of h2
  have hp := Real.exp_pos x.toReal
  have hle : Real.exp x.toReal ≤ 2 ^ 127 := by
    have : Real.exp x.toReal ≤ 2 ^ 103 := by nlinarith
    exact this.trans (by norm_num)
  obtain ⟨c1, c2⟩ := ExpAccurate.close x hx (exp_ge_of h1) hle
  rw [toReal_nonneg n2, abs_le] at c2
  obtain ⟨c3, c4⟩ := c2
  refine ⟨n2, ?_, ?_⟩
  · rw [← units_pos]
    have : (0 : ℝ) < (units (Libm.exp x).code : ℝ) / 2 ^ 149 := by
      have : Real.exp x.toReal / 2 ^ 20 < Real.exp x.toReal := by
        rw [div_lt_iff₀ (by norm_num)]
        nlinarith
      linarith
    rw [div_pos_iff_of_pos_right (by positivity)] at this
    exact_mod_cast this
  · rw [← units_le, units_pow 229]
    have : (units (Libm.exp x).code : ℝ) / 2 ^ 149 ≤ 2 ^ 103 := by
      refine le_trans ?_ hb
      rw [mul_add, mul_one, mul_one_div]
      linarith
    rw [div_le_iff₀ (by positivity), ← pow_add] at this
    exact_mod_cast this

/-! A function that meets `ExpAccurate`. -/

/-- the exact exponential cut off to a multiple of `2^-149`, then rounded -/
noncomputable def expCut (x : F32) : F32 :=
  mk' false (roundCode ⌊Real.exp x.toReal * 2 ^ 149⌋₊ 1)

omit [Libm] in
theorem expCut_accurate (c : Bool) : @ExpAccurate ⟨expCut, c⟩ := by
  have hsign : ∀ x, (expCut x).sign = false := fun x => mk'_sign (roundCode_lt _ _)
  have hcode : ∀ x, (expCut x).code = roundCode ⌊Real.exp x.toReal * 2 ^ 149⌋₊ 1 :=
    fun x => mk'_code (roundCode_lt _ _)
  let _ : Libm := ⟨expCut, c⟩
  refine ⟨fun x _ => ⟨?_, hsign x⟩, fun x _ h => ?_, fun x _ h => ?_, fun x _ h1 h2 => ?_⟩
  · change (expCut x).isNaN = false
    unfold isNaN
    rw [hcode]
    simp only [decide_eq_false_iff_not, Nat.not_lt]
    exact roundCode_le _ _
  · change (expCut x).isInf = true
    unfold isInf
    rw [hcode]
    simp only [decide_eq_true_eq]
    refine le_antisymm (roundCode_le _ _) (le_roundCode_of (by decide) ?_ (le_refl _))
    rw [Nat.mul_one]
    apply Nat.le_floor
    have : units infCode = 2 ^ (23 + 254) := units_pow 254
    rw [this, show 23 + 254 = 128 + 149 by rfl, pow_add, Nat.cast_mul, Nat.cast_pow,
      Nat.cast_pow, Nat.cast_ofNat]
    exact mul_le_mul_of_nonneg_right h (by positivity)
  · change (expCut x).code = 0
    rw [hcode]
    have : ⌊Real.exp x.toReal * 2 ^ 149⌋₊ = 0 := by
      rw [Nat.floor_eq_zero]
      calc Real.exp x.toReal * 2 ^ 149 < 1 / 2 ^ 150 * 2 ^ 149 :=
            mul_lt_mul_of_pos_right h (by positivity)
        _ < 1 := by norm_num
    rw [this, roundCode_zero]
  · change (expCut x).isFinite = true ∧ |(expCut x).toReal - Real.exp x.toReal| ≤ _
    have hpos := Real.exp_pos x.toReal
    -- the cut off value
    have hn1 : (⌊Real.exp x.toReal * 2 ^ 149⌋₊ : ℝ) ≤ Real.exp x.toReal * 2 ^ 149 :=
      Nat.floor_le (by positivity)
    have hn2 : Real.exp x.toReal * 2 ^ 149 < ⌊Real.exp x.toReal * 2 ^ 149⌋₊ + 1 :=
      Nat.lt_floor_add_one _
    have hbig : 2 ^ 23 ≤ ⌊Real.exp x.toReal * 2 ^ 149⌋₊ := by
      apply Nat.le_floor
      rw [Nat.cast_pow, Nat.cast_ofNat]
      calc (2 : ℝ) ^ 23 = 1 / 2 ^ 126 * 2 ^ 149 := by norm_num
        _ ≤ _ := mul_le_mul_of_nonneg_right h1 (by positivity)
    rw [toReal_nonneg (hsign x), finite_iff, hcode]
    generalize hN : ⌊Real.exp x.toReal * 2 ^ 149⌋₊ = N at *
    have hle : roundCode N 1 ≤ 254 * 2 ^ 23 := by
      apply roundCode_le_of (by decide) _ (by unfold infCode; omega)
      rw [Nat.mul_one, units_pow 253, ← hN]
      apply Nat.floor_le_of_le
      rw [show 23 + 253 = 127 + 149 by rfl, pow_add, Nat.cast_mul, Nat.cast_pow,
        Nat.cast_pow, Nat.cast_ofNat]
      exact mul_le_mul_of_nonneg_right h2 (by positivity)
    refine ⟨by unfold infCode; omega, ?_⟩
    have hraw : roundCode N 1 = rawCode N 1 := by
      rw [roundCode_eq] at hle ⊢
      unfold infCode at hle ⊢
      omega
    rw [hraw]
    obtain ⟨r1, r2⟩ := rawCode_relative (a := N) (d := 1) (by decide) (by omega)
    rw [Nat.mul_one] at r1 r2
    generalize units (rawCode N 1) = U at *
    have r1' : (2 : ℝ) ^ 24 * U ≤ 2 ^ 24 * N + N := by exact_mod_cast r1
    have r2' : (2 : ℝ) ^ 24 * N ≤ 2 ^ 24 * U + N := by exact_mod_cast r2
    have hb' : (2 : ℝ) ^ 23 ≤ N := by exact_mod_cast hbig
    have hE : Real.exp x.toReal = (Real.exp x.toReal * 2 ^ 149) / 2 ^ 149 := by
      rw [mul_div_cancel_right₀ _ (by positivity)]
    rw [hE]
    generalize Real.exp x.toReal * 2 ^ 149 = E at *
    rw [← sub_div, abs_div, abs_of_pos (a := (2 : ℝ) ^ 149) (by positivity), div_right_comm]
    apply div_le_div_of_nonneg_right _ (by positivity)
    rw [abs_le, le_div_iff₀ (by positivity)]
    norm_num at r1' r2' hb' ⊢
    constructor <;> linarith

end Rusty.F32
