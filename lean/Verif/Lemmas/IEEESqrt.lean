import Verif.Lemmas.IEEEError
import Verif.Lemmas.IEEESoftmax
import Mathlib.Analysis.Real.Sqrt

/-! # Helper lemmas: the square root in binary32 -/

namespace Rusty.F32

/-- the significand and the scale `sqrtCode` picks -/
theorem sqrt_parts {n : Nat} (h : 4 ^ 23 ≤ n) :
    let k := excess n.sqrt
    let q := (n / 4 ^ k).sqrt
    2 ^ 23 ≤ q ∧ q < 2 ^ 24 ∧ q ^ 2 * 4 ^ k ≤ n ∧ n < (q + 1) ^ 2 * 4 ^ k ∧ 4 ^ (k + 23) ≤ n := by
  intro k q
  have hs : 2 ^ 23 ≤ n.sqrt := by
    rw [Nat.le_sqrt']
    exact le_trans (by norm_num) h
  have hk : 2 ^ (k + 23) ≤ n.sqrt ∧ n.sqrt < 2 ^ (k + 24) := by
    by_cases hb : 2 ^ 24 ≤ n.sqrt
    · have := excess_bounds hb
      exact ⟨by simpa [k] using this.1, by simpa [k] using lt_excess n.sqrt⟩
    · have e : k = 0 := excess_zero (by omega)
      rw [e]
      exact ⟨by simpa using hs, by simpa using Nat.lt_of_not_le hb⟩
  have h4 : ∀ m, (2 ^ m) ^ 2 = 4 ^ m := fun m => by
    rw [← pow_mul, Nat.mul_comm, pow_mul]; rfl
  have l1 : 4 ^ (k + 23) ≤ n := by
    have := Nat.le_sqrt'.mp hk.1
    rwa [h4] at this
  have l2 : n < 4 ^ (k + 24) := by
    have := Nat.sqrt_lt'.mp hk.2
    rwa [h4] at this
  have hp : 0 < 4 ^ k := by positivity
  have d1 : 4 ^ 23 ≤ n / 4 ^ k := by
    rw [Nat.le_div_iff_mul_le hp, ← pow_add, Nat.add_comm]
    exact l1
  have d2 : n / 4 ^ k < 4 ^ 24 := by
    rw [Nat.div_lt_iff_lt_mul hp, ← pow_add, Nat.add_comm]
    exact l2
  refine ⟨?_, ?_, ?_, ?_, l1⟩
  · rw [Nat.le_sqrt', h4]; exact d1
  · rw [Nat.sqrt_lt', h4]; exact d2
  · have := Nat.sqrt_le' (n / 4 ^ k)
    exact (Nat.mul_le_mul_right _ this).trans (Nat.div_mul_le_self _ _)
  · have := Nat.lt_succ_sqrt' (n / 4 ^ k)
    rwa [Nat.div_lt_iff_lt_mul hp] at this

set_option exponentiation.threshold 500 in
/-- the square root: finite, not negative, with a relative error of at most `2^-24` -/
theorem sqrt_error {x : F32} (hf : x.isFinite = true) (hs : x.sign = false) :
    (sqrt x).isFinite = true ∧ (sqrt x).sign = false ∧
      |(sqrt x).toReal - Real.sqrt x.toReal| ≤ Real.sqrt x.toReal / 2 ^ 24 := by
  by_cases h0 : x.code = 0
  · have e : sqrt x = x := by
      unfold sqrt
      rw [finite_nan hf, if_neg (by simp), if_pos h0]
    have e0 : x.toReal = 0 := by
      rw [toReal_eq, h0, units_zero]; simp
    rw [e, e0]
    exact ⟨hf, hs, by simp⟩
  · have e : sqrt x = mk' false (sqrtCode (units x.code)) := by
      unfold sqrt
      rw [finite_nan hf, if_neg (by simp), if_neg h0, hs, if_neg (by simp), finite_inf hf,
        if_neg (by simp)]
    have hx : x.toReal = units x.code / 2 ^ 149 := by rw [toReal_eq, hs]; simp
    have hpos : 0 < units x.code := units_pos.mpr (by omega)
    have hlt : units x.code < 2 ^ (23 + 254) := by
      rw [finite_iff] at hf
      have := units_lt.mpr hf
      rw [show infCode = (254 + 1) * 2 ^ 23 by rfl, units_pow] at this
      exact this
    rw [e]
    generalize hn : units x.code * 2 ^ 149 = n
    have hn4 : 4 ^ 23 ≤ n := by
      rw [← hn]
      calc 4 ^ 23 ≤ 1 * 2 ^ 149 := by norm_num
        _ ≤ _ := Nat.mul_le_mul_right _ hpos
    obtain ⟨q1, q2, q3, q4, q5⟩ := sqrt_parts hn4
    have hk : excess n.sqrt ≤ 190 := by
      by_contra hc
      have : (4 : Nat) ^ (191 + 23) ≤ 4 ^ (excess n.sqrt + 23) :=
        Nat.pow_le_pow_right (by norm_num) (by omega)
      have h2 : n < 2 ^ (23 + 254) * 2 ^ 149 := by
        rw [← hn]
        exact Nat.mul_lt_mul_of_pos_right hlt (by positivity)
      have h3 : (2 : Nat) ^ 277 * 2 ^ 149 < 4 ^ (191 + 23) := by
        rw [show (4 : Nat) = 2 ^ 2 by rfl, ← pow_mul, ← pow_add]
        exact Nat.pow_lt_pow_right (by norm_num) (by norm_num)
      omega
    have hc : sqrtCode (units x.code) = excess n.sqrt * 2 ^ 23 +
        (if 4 * n < (2 * (n / 4 ^ excess n.sqrt).sqrt + 1) ^ 2 * 4 ^ excess n.sqrt
          then (n / 4 ^ excess n.sqrt).sqrt
          else if (2 * (n / 4 ^ excess n.sqrt).sqrt + 1) ^ 2 * 4 ^ excess n.sqrt < 4 * n
            then (n / 4 ^ excess n.sqrt).sqrt + 1
            else (n / 4 ^ excess n.sqrt).sqrt + (n / 4 ^ excess n.sqrt).sqrt % 2) := by
      unfold sqrtCode
      simp only
      rw [hn]
    generalize excess n.sqrt = k at *
    generalize (n / 4 ^ k).sqrt = q at *
    generalize hR : (if 4 * n < (2 * q + 1) ^ 2 * 4 ^ k then q
      else if (2 * q + 1) ^ 2 * 4 ^ k < 4 * n then q + 1 else q + q % 2) = R at *
    have hR1 : q ≤ R ∧ R ≤ q + 1 := by
      rw [← hR]; split
      · omega
      · split <;> omega
    have hcode : sqrtCode (units x.code) < infCode := by
      rw [hc]; unfold infCode; omega
    have hlt31 : sqrtCode (units x.code) < 2 ^ 31 := hcode.trans infCode_lt
    refine ⟨?_, mk'_sign hlt31, ?_⟩
    · rw [finite_iff, mk'_code hlt31]; exact hcode
    · rw [toReal_mk' hlt31, hc, units_code (by omega) (Or.inr (by omega)), hx]
      have hroot : Real.sqrt ((units x.code : ℝ) / 2 ^ 149) = Real.sqrt n / 2 ^ 149 := by
        rw [← hn, Nat.cast_mul, Nat.cast_pow, Nat.cast_ofNat]
        rw [show (units x.code : ℝ) / 2 ^ 149 = units x.code * 2 ^ 149 / (2 ^ 149) ^ 2 by
          field_simp, Real.sqrt_div (by positivity), Real.sqrt_sq (by positivity)]
      rw [hroot]
      have hn0 : (0 : ℝ) ≤ n := by positivity
      have hr0 := Real.sqrt_nonneg (n : ℝ)
      have hsq : Real.sqrt n ^ 2 = n := Real.sq_sqrt hn0
      generalize Real.sqrt (n : ℝ) = r at *
      have h2k : (0 : ℝ) < 2 ^ k := by positivity
      have h4k : ((4 : ℝ)) ^ k = (2 ^ k) ^ 2 := by
        rw [← pow_mul, Nat.mul_comm, pow_mul]; norm_num
      have a1 : (q : ℝ) * 2 ^ k ≤ r := by
        apply le_of_sq_le_sq _ hr0
        rw [hsq, mul_pow, ← h4k]
        exact_mod_cast q3
      have a2 : r ≤ (q + 1) * 2 ^ k := by
        apply le_of_sq_le_sq _ (by positivity)
        rw [hsq, mul_pow, ← h4k]
        exact_mod_cast q4.le
      have a3 : (2 : ℝ) ^ 23 * 2 ^ k ≤ r := by
        refine le_trans ?_ a1
        apply mul_le_mul_of_nonneg_right _ h2k.le
        exact_mod_cast q1
      have key : |(R : ℝ) * 2 ^ k - r| ≤ 2 ^ k / 2 := by
        rw [abs_le]
        rw [← hR]
        split
        · next hlt =>
          have : r ≤ (2 * q + 1) * 2 ^ k / 2 := by
            apply le_of_sq_le_sq _ (by positivity)
            rw [hsq, div_pow, mul_pow, ← h4k, le_div_iff₀ (by norm_num)]
            have : ((4 * n : Nat) : ℝ) ≤ (((2 * q + 1) ^ 2 * 4 ^ k : Nat) : ℝ) := by
              exact_mod_cast hlt.le
            push_cast at this
            linarith
          constructor <;> linarith
        · next hge =>
          have hge' : (2 * q + 1) * 2 ^ k / 2 ≤ r := by
            apply le_of_sq_le_sq _ hr0
            rw [hsq, div_pow, mul_pow, ← h4k, div_le_iff₀ (by norm_num)]
            have : (((2 * q + 1) ^ 2 * 4 ^ k : Nat) : ℝ) ≤ ((4 * n : Nat) : ℝ) := by
              exact_mod_cast Nat.le_of_not_lt hge
            push_cast at this
            linarith
          split
          · push_cast
            constructor <;> linarith
          · next hle =>
            have hle' : r ≤ (2 * q + 1) * 2 ^ k / 2 := by
              apply le_of_sq_le_sq _ (by positivity)
              rw [hsq, div_pow, mul_pow, ← h4k, le_div_iff₀ (by norm_num)]
              have : ((4 * n : Nat) : ℝ) ≤ (((2 * q + 1) ^ 2 * 4 ^ k : Nat) : ℝ) := by
                exact_mod_cast Nat.le_of_not_lt hle
              push_cast at this
              linarith
            rcases Nat.mod_two_eq_zero_or_one q with hm | hm <;> rw [hm] <;> push_cast <;>
              constructor <;> linarith
      have hP : (0 : ℝ) < 2 ^ 149 := by positivity
      simp only [Bool.false_eq_true, if_false, one_mul]
      push_cast
      rw [← sub_div, abs_div, abs_of_pos hP, div_right_comm]
      apply div_le_div_of_nonneg_right _ hP.le
      refine key.trans ?_
      rw [le_div_iff₀ (by positivity)]
      linarith

/-- the root of a perturbed number -/
theorem root_error {S s c e : ℝ} (hS : 0 ≤ S) (hs : 0 ≤ s) (hc : 0 ≤ c) (hc1 : c ≤ 1) (he : 0 ≤ e)
    (h : |S - s| ≤ c * s + e) :
    |Real.sqrt S - Real.sqrt s| ≤ c * Real.sqrt s + Real.sqrt e := by
  have hS2 := Real.sq_sqrt hS
  have hs2 := Real.sq_sqrt hs
  have he2 := Real.sq_sqrt he
  have a := Real.sqrt_nonneg S
  have b := Real.sqrt_nonneg s
  have d := Real.sqrt_nonneg e
  generalize Real.sqrt S = A at *
  generalize Real.sqrt s = B at *
  generalize Real.sqrt e = D at *
  subst hS2 hs2 he2
  obtain ⟨h1, h2⟩ := abs_le.mp h
  have hcB : 0 ≤ c * B := mul_nonneg hc b
  have hcB2 : c * B * (c * B) ≤ c * B * B := by
    apply mul_le_mul_of_nonneg_left _ hcB
    nlinarith
  rw [abs_le]
  constructor
  · by_contra hlt
    push Not at hlt
    have q : A + D < (1 - c) * B := by linarith
    have q2 : (A + D) ^ 2 < ((1 - c) * B) ^ 2 := by
      apply pow_lt_pow_left₀ q (by linarith) (by norm_num)
    nlinarith [mul_nonneg a d]
  · by_contra hlt
    push Not at hlt
    have q : (1 + c) * B + D < A := by linarith
    have q2 : ((1 + c) * B + D) ^ 2 < A ^ 2 := by
      apply pow_lt_pow_left₀ q (by positivity) (by norm_num)
    nlinarith [mul_nonneg b d, mul_nonneg hcB d, mul_nonneg hcB b]

/-- a square is never negative -/
theorem square_sign {x : F32} (h : x.isNaN = false) :
    (mul x x).sign = false ∧ (mul x x).isNaN = false := by
  unfold mul
  rw [h]
  simp only [Bool.or_self, Bool.false_eq_true, if_false, bne_self_eq_false]
  have h0 : ∀ c ≤ infCode, (mk' false c).sign = false ∧ (mk' false c).isNaN = false := by
    intro c hc
    have hc' : c < 2 ^ 31 := Nat.lt_of_le_of_lt hc infCode_lt
    refine ⟨mk'_sign hc', ?_⟩
    unfold isNaN
    rw [mk'_code hc']
    simp [hc]
  split
  · next hi =>
    unfold isInf at hi
    simp only [decide_eq_true_eq] at hi
    rw [if_neg (by rw [hi]; decide)]
    exact h0 _ (le_refl _)
  · exact h0 _ (roundCode_le _ _)

theorem square_nan {x : F32} (h : x.isNaN = true) : (mul x x).isNaN = true := by
  unfold mul
  rw [h]
  simp only [Bool.or_self, if_true]
  exact nan_isNaN

theorem add_nan_left {x y : F32} (h : x.isNaN = true) : (add x y).isNaN = true := by
  unfold add
  rw [h]
  simp only [Bool.true_or, if_true]
  exact nan_isNaN

theorem add_nan_right {x y : F32} (h : y.isNaN = true) : (add x y).isNaN = true := by
  unfold add
  rw [h]
  simp only [Bool.or_true, if_true]
  exact nan_isNaN

/-- A sum of squares is NaN exactly if some summand is, and otherwise not negative. -/
theorem squares_sum [Libm] (l : List F32) :
    ((Spec.sum (l.map fun x => mul x x)).isNaN = true ↔ ∃ x ∈ l, x.isNaN = true) ∧
    ((∀ x ∈ l, x.isNaN = false) → (Spec.sum (l.map fun x => mul x x)).sign = false) := by
  induction l using List.reverseRecOn with
  | nil =>
    refine ⟨?_, fun _ => ?_⟩
    · change (mk' false 0).isNaN = true ↔ _
      simp only [List.not_mem_nil, false_and, exists_false, iff_false, Bool.not_eq_true]
      decide
    · change (mk' false 0).sign = false
      decide
  | append_singleton l x ih =>
    rw [List.map_append, List.map_singleton, sum_append_singleton]
    obtain ⟨ih1, ih2⟩ := ih
    by_cases hl : ∃ y ∈ l, y.isNaN = true
    · have hn := ih1.mpr hl
      obtain ⟨y, hy, hy'⟩ := hl
      refine ⟨⟨fun _ => ⟨y, List.mem_append_left _ hy, hy'⟩, fun _ => add_nan_left hn⟩, fun h => ?_⟩
      rw [h y (List.mem_append_left _ hy)] at hy'
      cases hy'
    · have hl' : ∀ y ∈ l, y.isNaN = false := fun y hy => by
        by_contra hc
        exact hl ⟨y, hy, by simpa using hc⟩
      have hn : (Spec.sum (l.map fun x => mul x x)).isNaN = false := by
        by_contra hc
        exact hl (ih1.mp (by simpa using hc))
      by_cases hx : x.isNaN = true
      · refine ⟨⟨fun _ => ⟨x, List.mem_append_right _ (List.mem_singleton.mpr rfl), hx⟩,
          fun _ => add_nan_right (square_nan hx)⟩, fun h => ?_⟩
        rw [h x (List.mem_append_right _ (List.mem_singleton.mpr rfl))] at hx
        cases hx
      · simp only [Bool.not_eq_true] at hx
        obtain ⟨s1, s2⟩ := add_sign (ih2 hl') (square_sign hx).1 hn (square_sign hx).2
        refine ⟨⟨fun h => (by rw [s2] at h; cases h), ?_⟩, fun _ => s1⟩
        rintro ⟨y, hy, hy'⟩
        rcases List.mem_append.mp hy with h | h
        · exact absurd ⟨y, h, hy'⟩ hl
        · rw [List.mem_singleton.mp h, hx] at hy'
          cases hy'

theorem sqrt_nan {x : F32} (hs : x.sign = false) :
    ((sqrt x).isNaN = true ↔ x.isNaN = true) ∧ (x.isNaN = false → (sqrt x).sign = false) := by
  by_cases hn : x.isNaN = true
  · refine ⟨⟨fun _ => hn, fun _ => ?_⟩, fun h => by rw [h] at hn; cases hn⟩
    unfold sqrt
    rw [hn]
    exact nan_isNaN
  · by_cases hf : x.isFinite = true
    · obtain ⟨h1, h2, _⟩ := sqrt_error hf hs
      exact ⟨⟨fun h => (by rw [finite_nan h1] at h; cases h), fun h => absurd h hn⟩, fun _ => h2⟩
    · simp only [Bool.not_eq_true] at hn
      have hi : x.isInf = true := by
        by_contra hc
        exact hf (isFinite_iff.mpr ⟨hn, by simpa using hc⟩)
      have hc : x.code ≠ 0 := by
        unfold isInf at hi
        simp only [decide_eq_true_eq] at hi
        rw [hi]
        decide
      have e : sqrt x = x := by
        unfold sqrt
        rw [hn, hs, hi, if_neg (by simp), if_neg hc, if_neg (by simp), if_pos rfl]
      rw [e, hn]
      exact ⟨Iff.rfl, fun _ => hs⟩

end Rusty.F32
