import Verif.Lemmas.IEEEIdentity
import Verif.Lemmas.BatchError

/-! # Helper lemmas: sums of many small floats stop growing -/

namespace Rusty

open F32Ops Spec F32

namespace F32

theorem units_digits (c : Nat) : ∃ m e, m < 2 ^ 24 ∧ units c = m * 2 ^ e := by
  unfold units
  split
  · next h => exact ⟨c, 0, by omega, by simp⟩
  · exact ⟨_, _, by omega, rfl⟩

/-- a float is less than half a unit in the last place of its multiple by `2^25` -/
theorem rawCode_saturated {c : Nat} (hc : 0 < units c) :
    units (rawCode (2 ^ 25 * units c + units c) 1) = 2 ^ 25 * units c := by
  obtain ⟨m, e, hm, hu⟩ := units_digits c
  generalize units c = u at hc hu ⊢
  have l1 : 2 ^ u.log2 ≤ u := Nat.log2_self_le (by omega)
  have l2 : u < 2 ^ (u.log2 + 1) := Nat.lt_log2_self
  generalize u.log2 = L at l1 l2
  have hL : L < 24 + e := by
    rw [← Nat.pow_lt_pow_iff_right (a := 2) (by decide), pow_add]
    calc 2 ^ L ≤ m * 2 ^ e := hu ▸ l1
      _ < 2 ^ 24 * 2 ^ e := Nat.mul_lt_mul_of_pos_right hm (by positivity)
  obtain ⟨q, hq⟩ : ∃ q, 2 ^ 25 * u = q * 2 ^ (L + 2) := by
    refine ⟨m * 2 ^ (e + 23 - L), ?_⟩
    rw [hu, mul_assoc, ← pow_add, show e + 23 - L + (L + 2) = 25 + e by omega, pow_add]
    ring
  have e2 : 2 ^ (L + 2) = 4 * 2 ^ L := by rw [pow_add]; ring
  have e1 : 2 ^ (L + 1) = 2 * 2 ^ L := by rw [pow_add]; ring
  have hP : 0 < 2 ^ L := by positivity
  have q1 : 2 ^ 23 ≤ q := by
    by_contra h
    have h : q ≤ 2 ^ 23 - 1 := by omega
    have := Nat.mul_le_mul_right (2 ^ (L + 2)) h
    rw [e2] at this hq
    omega
  have q2 : q < 2 ^ 24 := by
    by_contra h
    have h : 2 ^ 24 ≤ q := by omega
    have := Nat.mul_le_mul_right (2 ^ (L + 2)) h
    rw [e2] at this hq
    omega
  have ha1 : 2 ^ (L + 2 + 23) ≤ 2 ^ 25 * u + u := by
    rw [show L + 2 + 23 = L + 25 by omega, pow_add]
    omega
  have ha2 : 2 ^ 25 * u + u < 2 ^ (L + 2 + 24) := by
    have := Nat.mul_le_mul_right (2 ^ (L + 2)) (show q + 1 ≤ 2 ^ 24 by omega)
    rw [show L + 2 + 24 = 24 + (L + 2) by omega, pow_add 2 24]
    rw [Nat.add_mul, Nat.one_mul] at this
    omega
  unfold rawCode
  rw [Nat.div_one, Nat.one_mul, excess_eq ha1 ha2]
  have hr : rne (2 ^ 25 * u + u) (2 ^ (L + 2)) = q := by
    unfold rne
    have hlt : u < 2 ^ (L + 2) := by omega
    have d1 : (2 ^ 25 * u + u) % 2 ^ (L + 2) = u := by
      rw [hq, Nat.mul_comm q, Nat.mul_add_mod, Nat.mod_eq_of_lt hlt]
    have d2 : (2 ^ 25 * u + u) / 2 ^ (L + 2) = q := by
      rw [hq, Nat.mul_comm q, Nat.mul_add_div (by positivity), Nat.div_eq_of_lt hlt, Nat.add_zero]
    rw [d1, d2, if_pos (by omega)]
  rw [hr, units_code (by omega) (.inr q1), hq]

/-- adding a float of magnitude `B` cannot lead beyond `2^25 B` -/
theorem add_saturated {c : Nat} (hc : 2 ^ 25 * units c < 2 ^ 277) {x y : F32} (fx : x.isFinite = true)
    (fy : y.isFinite = true) (hx : units x.code ≤ 2 ^ 25 * units c) (hy : units y.code ≤ units c) :
    (add x y).isFinite = true ∧ units (add x y).code ≤ 2 ^ 25 * units c := by
  have hz : (x.toInt + y.toInt).natAbs ≤ 2 ^ 25 * units c + units c := by
    have h1 : x.toInt.natAbs = units x.code := by
      unfold toInt; split <;> omega
    have h2 : y.toInt.natAbs = units y.code := by
      unfold toInt; split <;> omega
    omega
  unfold add
  rw [finite_nan fx, finite_nan fy, finite_inf fx, finite_inf fy]
  simp only [Bool.or_self, Bool.false_eq_true, if_false]
  generalize x.toInt + y.toInt = z at hz ⊢
  split
  · rw [finite_iff, mk'_code (by decide), units_zero]
    exact ⟨by decide, Nat.zero_le _⟩
  · next h0 =>
    have hpos : 0 < units c := by omega
    have hs := rawCode_saturated hpos
    have hC : rawCode (2 ^ 25 * units c + units c) 1 < infCode := by
      rw [← units_lt, hs, units_inf]
      exact hc
    have hle : roundCode z.natAbs 1 ≤ rawCode (2 ^ 25 * units c + units c) 1 := by
      rw [roundCode_eq]
      exact (Nat.min_le_right _ _).trans (rawCode_mono (by decide) (by decide) (by omega))
    rw [finite_iff, mk'_code (roundCode_lt _ _)]
    exact ⟨lt_of_le_of_lt hle hC, hs ▸ units_le.mpr hle⟩

theorem foldl_saturated {c : Nat} (hc : 2 ^ 25 * units c < 2 ^ 277) (L : List F32)
    (hL : ∀ y ∈ L, y.isFinite = true ∧ units y.code ≤ units c) (x : F32) (fx : x.isFinite = true)
    (hx : units x.code ≤ 2 ^ 25 * units c) :
    (L.foldl add x).isFinite = true ∧ units (L.foldl add x).code ≤ 2 ^ 25 * units c := by
  induction L generalizing x with
  | nil => exact ⟨fx, hx⟩
  | cons y L ih =>
    obtain ⟨h1, h2⟩ := hL y List.mem_cons_self
    obtain ⟨h3, h4⟩ := add_saturated hc fx h1 hx h2
    exact ih (fun z hz => hL z (List.mem_cons_of_mem _ hz)) _ h3 h4

theorem toReal_units (x : F32) : |x.toReal| = (units x.code : ℝ) / 2 ^ 149 := by
  unfold toReal
  rw [abs_div, abs_of_pos (show (0 : ℝ) < 2 ^ 149 by positivity)]
  congr 1
  unfold toInt
  split
  · push_cast; rw [abs_neg, abs_of_nonneg (Nat.cast_nonneg _)]
  · push_cast; exact abs_of_nonneg (Nat.cast_nonneg _)

set_option exponentiation.threshold 300 in
/-- the bound in terms of real numbers -/
theorem foldl_saturated_real (B : F32) (hB : 2 ^ 25 * |B.toReal| < 2 ^ 128) (L : List F32)
    (hL : ∀ y ∈ L, y.isFinite = true ∧ |y.toReal| ≤ |B.toReal|) (x : F32) (fx : x.isFinite = true)
    (hx : x.toReal = 0) :
    (L.foldl add x).isFinite = true ∧ |(L.foldl add x).toReal| ≤ 2 ^ 25 * |B.toReal| := by
  simp only [toReal_units] at hB hL ⊢
  have hc : 2 ^ 25 * units B.code < 2 ^ 277 := by
    rw [mul_div_assoc', div_lt_iff₀ (by positivity), ← pow_add] at hB
    exact_mod_cast hB
  obtain ⟨h1, h2⟩ := foldl_saturated hc L (fun y hy => ⟨(hL y hy).1, by
    have := (hL y hy).2
    rw [div_le_div_iff_of_pos_right (by positivity)] at this
    exact_mod_cast this⟩) x fx (by
      have := toReal_units x
      rw [hx, abs_zero, eq_comm, div_eq_zero_iff] at this
      rcases this with h | h
      · have : units x.code = 0 := by exact_mod_cast h
        omega
      · norm_num at h)
  refine ⟨h1, ?_⟩
  rw [mul_div_assoc', div_le_div_iff_of_pos_right (by positivity)]
  exact_mod_cast h2

/-- the positive float with a given value -/
theorem eq_of_value {x y : F32} (h : x.toReal = y.toReal) (hy : 0 < y.toReal) : x = y := by
  have hs : ∀ v : F32, 0 < v.toReal → v.sign = false := by
    intro v hv
    by_contra hn
    rw [Bool.not_eq_false] at hn
    unfold toReal toInt at hv
    rw [if_pos hn] at hv
    push_cast at hv
    have : (0 : ℝ) ≤ (units v.code : ℝ) / 2 ^ 149 := by positivity
    rw [neg_div] at hv
    linarith
  exact eq_of_toReal ((hs x (h ▸ hy)).trans (hs y hy).symm) h

theorem one_value : (mk' false (127 * 2 ^ 23)).toReal = 1 := by
  rw [toReal_mk' (by decide), units_one]
  norm_num

theorem limit_value : (mk' false (151 * 2 ^ 23)).toReal = 2 ^ 24 := by
  rw [toReal_mk' (by decide), units_pow 150]
  norm_num

/-- counting by ones stops at `2^24` -/
theorem foldl_count (L : List F32) (hL : ∀ y ∈ L, y.isFinite = true ∧ y.toReal = 1) (x : F32)
    (fx : x.isFinite = true) (j : Nat) (hj : j ≤ 2 ^ 24) (hx : x.toReal = j) :
    (L.foldl add x).isFinite = true ∧ (L.foldl add x).toReal = (min (j + L.length) (2 ^ 24) : Nat) := by
  induction L generalizing x j with
  | nil => exact ⟨fx, by rw [List.foldl_nil, hx, List.length_nil, Nat.add_zero, Nat.min_eq_left hj]⟩
  | cons y L ih =>
    obtain ⟨h1, h2⟩ := hL y List.mem_cons_self
    have hL' := fun z hz => hL z (List.mem_cons_of_mem _ hz)
    rw [List.foldl_cons, List.length_cons]
    rcases Nat.lt_or_ge j (2 ^ 24) with h | h
    · obtain ⟨e1, e2⟩ := add_exact fx h1 (z := (j : Int) + 1) (p := 0) (by decide) (by omega)
        (by rw [hx, h2]; push_cast; ring)
      have := ih hL' _ e1 (j + 1) (by omega) (by rw [e2, hx, h2]; push_cast; ring)
      rwa [show j + 1 + L.length = j + (L.length + 1) by omega] at this
    · obtain rfl : j = 2 ^ 24 := by omega
      have ey : y = mk' false (127 * 2 ^ 23) := eq_of_value (h2.trans one_value.symm) (by rw [one_value]; norm_num)
      have ex : x = mk' false (151 * 2 ^ 23) :=
        eq_of_value (hx.trans (by rw [limit_value]; norm_num)) (by rw [limit_value]; positivity)
      have es : add x y = x := by rw [ex, ey]; decide +kernel
      have := ih hL' x fx (2 ^ 24) (Nat.le_refl _) hx
      rw [es]
      rwa [Nat.min_eq_right (by omega)] at this ⊢

end F32

end Rusty
