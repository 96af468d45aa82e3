import Verif.Model.IEEE
import Mathlib.Order.Monotone.Basic
import Mathlib.Tactic.Linarith
import Mathlib.Tactic.Ring

/-! # Helper lemmas: IEEE 754 binary32 -/

namespace Rusty.F32

/-! ## Fields -/

theorem code_lt (x : F32) : x.code < 2 ^ 31 := Nat.mod_lt _ (by decide)

theorem bits_eq (x : F32) : x.bits.toNat = (if x.sign then 2 ^ 31 else 0) + x.code := by
  have h : x.bits.toNat < 2 ^ 32 := x.bits.toNat_lt
  unfold sign code
  by_cases c : 2 ^ 31 ≤ x.bits.toNat
  · simp only [c, decide_true, if_true]
    omega
  · simp only [c, decide_false]
    simp only [Bool.false_eq_true, if_false]
    omega

theorem ext_fields {x y : F32} (hs : x.sign = y.sign) (hc : x.code = y.code) : x = y := by
  cases x with | mk a => cases y with | mk c =>
  congr
  apply UInt32.toNat_inj.mp
  have h1 := bits_eq ⟨a⟩
  have h2 := bits_eq ⟨c⟩
  rw [hs, hc] at h1
  exact h1.trans h2.symm

theorem mk'_toNat {s : Bool} {c : Nat} (h : c < 2 ^ 31) :
    (mk' s c).bits.toNat = (if s then 2 ^ 31 else 0) + c := by
  unfold mk'
  simp only [UInt32.toNat_ofNat']
  cases s <;> simp <;> omega

theorem mk'_sign {s : Bool} {c : Nat} (h : c < 2 ^ 31) : (mk' s c).sign = s := by
  unfold sign
  rw [mk'_toNat h]
  cases s <;> simp; omega

theorem mk'_code {s : Bool} {c : Nat} (h : c < 2 ^ 31) : (mk' s c).code = c := by
  unfold code
  rw [mk'_toNat h]
  cases s <;> simp <;> omega

theorem mk'_eta (x : F32) : mk' x.sign x.code = x :=
  ext_fields (mk'_sign (code_lt x)) (mk'_code (code_lt x))

theorem infCode_lt : infCode < 2 ^ 31 := by decide

theorem finite_iff {x : F32} : x.isFinite = true ↔ x.code < infCode := by
  unfold isFinite; simp

theorem finite_nan {x : F32} (h : x.isFinite = true) : x.isNaN = false := by
  rw [finite_iff] at h
  unfold isNaN
  simp only [decide_eq_false_iff_not]
  omega

theorem finite_inf {x : F32} (h : x.isFinite = true) : x.isInf = false := by
  rw [finite_iff] at h
  unfold isInf
  simp only [decide_eq_false_iff_not]
  omega

theorem isFinite_iff {x : F32} : x.isFinite = true ↔ x.isNaN = false ∧ x.isInf = false := by
  unfold isFinite isNaN isInf
  simp only [decide_eq_true_eq, decide_eq_false_iff_not]
  omega

theorem nan_isNaN : nan.isNaN = true := by decide

/-! ## Magnitudes -/

theorem units_lt_succ (c : Nat) : units c < units (c + 1) := by
  unfold units
  by_cases h1 : c + 1 < 2 ^ 23
  · rw [if_pos (by omega), if_pos h1]; omega
  · rw [if_neg h1]
    by_cases h2 : c < 2 ^ 23
    · have : c = 2 ^ 23 - 1 := by omega
      subst this
      decide
    · rw [if_neg h2]
      by_cases h3 : c % 2 ^ 23 = 2 ^ 23 - 1
      · have e1 : (c + 1) % 2 ^ 23 = 0 := by omega
        have e2 : (c + 1) / 2 ^ 23 - 1 = (c / 2 ^ 23 - 1) + 1 := by omega
        rw [e1, e2, h3, show 2 ^ (c / 2 ^ 23 - 1 + 1) = 2 ^ (c / 2 ^ 23 - 1) * 2 from Nat.pow_succ _ _]
        have : 0 < 2 ^ (c / 2 ^ 23 - 1) := Nat.pow_pos (by decide)
        generalize 2 ^ (c / 2 ^ 23 - 1) = p at *
        omega
      · have e1 : (c + 1) % 2 ^ 23 = c % 2 ^ 23 + 1 := by omega
        have e2 : (c + 1) / 2 ^ 23 = c / 2 ^ 23 := by omega
        rw [e1, e2]
        apply Nat.mul_lt_mul_of_pos_right (by omega) (Nat.pow_pos (by decide))

theorem units_strictMono : StrictMono units := strictMono_nat_of_lt_succ units_lt_succ

theorem units_le {c d : Nat} : units c ≤ units d ↔ c ≤ d := units_strictMono.le_iff_le

theorem units_lt {c d : Nat} : units c < units d ↔ c < d := units_strictMono.lt_iff_lt

theorem units_zero : units 0 = 0 := by decide

theorem units_pos {c : Nat} : 0 < units c ↔ 0 < c := by
  conv => lhs; rw [← units_zero]
  exact units_lt

/-- the code of a power of two -/
theorem units_pow (k : Nat) : units ((k + 1) * 2 ^ 23) = 2 ^ (23 + k) := by
  unfold units
  rw [if_neg (by omega), Nat.mul_mod_left, Nat.mul_div_cancel _ (by decide), pow_add]
  simp

theorem units_one : units (127 * 2 ^ 23) = 2 ^ 149 := units_pow 126

/-! ## Rounding -/

theorem rne_spec {a d : Nat} (hd : 0 < d) :
    2 * (rne a d * d) ≤ 2 * a + d ∧ 2 * a ≤ 2 * (rne a d * d) + d ∧
    (2 * (rne a d * d) = 2 * a + d → rne a d % 2 = 0) ∧
    (2 * a = 2 * (rne a d * d) + d → rne a d % 2 = 0) := by
  have h := Nat.div_add_mod a d
  have hl := Nat.mod_lt a hd
  unfold rne
  generalize a / d = q at *
  generalize a % d = r at *
  have hc : q * d = d * q := Nat.mul_comm _ _
  split
  · rw [hc]; refine ⟨by omega, by omega, by omega, by omega⟩
  · split
    · rw [Nat.add_mul, Nat.one_mul, hc]; refine ⟨by omega, by omega, by omega, by omega⟩
    · rcases Nat.mod_two_eq_zero_or_one q with e | e
      · rw [e, Nat.add_zero, hc]; refine ⟨by omega, by omega, fun _ => e, fun _ => e⟩
      · rw [e, Nat.add_mul, Nat.one_mul, hc]; refine ⟨by omega, by omega, by omega, by omega⟩

theorem rne_mono {a d a' d' : Nat} (hd : 0 < d) (hd' : 0 < d') (h : a * d' ≤ a' * d) :
    rne a d ≤ rne a' d' := by
  obtain ⟨p1, p2, p3, p4⟩ := rne_spec (a := a) hd
  obtain ⟨q1, q2, q3, q4⟩ := rne_spec (a := a') hd'
  generalize rne a d = q at *
  generalize rne a' d' = q' at *
  by_contra hlt
  have hlt : q' + 1 ≤ q := by omega
  have h1 : (2 * (q * d)) * d' ≤ (2 * a + d) * d' := Nat.mul_le_mul_right _ p1
  have h2 : (2 * a') * d ≤ (2 * (q' * d') + d') * d := Nat.mul_le_mul_right _ q2
  have h3 : (q' + 1) * (d * d') ≤ q * (d * d') := Nat.mul_le_mul_right _ hlt
  have hdd : 0 < d * d' := Nat.mul_pos hd hd'
  -- all inequalities are equalities
  have e3 : (q' + 1) * (d * d') = q * (d * d') := by nlinarith
  have eq : q' + 1 = q := Nat.eq_of_mul_eq_mul_right hdd e3
  have e1 : (2 * (q * d)) * d' = (2 * a + d) * d' := by nlinarith
  have e2 : (2 * a') * d = (2 * (q' * d') + d') * d := by nlinarith
  have f1 := p3 (Nat.eq_of_mul_eq_mul_right hd' e1)
  have f2 := q4 (Nat.eq_of_mul_eq_mul_right hd e2)
  omega

theorem rne_mul {q d : Nat} (hd : 0 < d) : rne (q * d) d = q := by
  unfold rne
  rw [Nat.mul_mod_left, Nat.mul_div_cancel _ hd, if_pos (by omega)]

theorem rne_le {a d q : Nat} (hd : 0 < d) (h : a ≤ q * d) : rne a d ≤ q := by
  have := rne_mono (a := a) (a' := q * d) hd hd (Nat.mul_le_mul_right _ h)
  rwa [rne_mul hd] at this

theorem le_rne {a d q : Nat} (hd : 0 < d) (h : q * d ≤ a) : q ≤ rne a d := by
  have := rne_mono (a := q * d) (a' := a) hd hd (Nat.mul_le_mul_right _ h)
  rwa [rne_mul hd] at this

theorem excess_zero {n : Nat} (h : n < 2 ^ 24) : excess n = 0 := by
  unfold excess
  by_cases h0 : n = 0
  · subst h0; decide
  · have := (Nat.log2_lt h0).mpr h
    omega

theorem excess_bounds {n : Nat} (h : 2 ^ 24 ≤ n) :
    2 ^ (excess n + 23) ≤ n ∧ n < 2 ^ (excess n + 24) := by
  have h0 : n ≠ 0 := by rintro rfl; simp at h
  have h1 : 24 ≤ n.log2 := (Nat.le_log2 h0).mpr h
  unfold excess
  rw [show n.log2 - 23 + 23 = n.log2 by omega, show n.log2 - 23 + 24 = n.log2 + 1 by omega]
  exact ⟨Nat.log2_self_le h0, Nat.lt_log2_self⟩

theorem lt_excess (n : Nat) : n < 2 ^ (excess n + 24) := by
  by_cases h : n < 2 ^ 24
  · rw [excess_zero h]; exact h
  · exact (excess_bounds (by omega)).2

theorem excess_eq {n k : Nat} (h1 : 2 ^ (k + 23) ≤ n) (h2 : n < 2 ^ (k + 24)) : excess n = k := by
  have h0 : n ≠ 0 := by rintro rfl; have : 0 < 2 ^ (k + 23) := Nat.pow_pos (by decide); omega
  have a : k + 23 ≤ n.log2 := (Nat.le_log2 h0).mpr h1
  have b : n.log2 < k + 24 := (Nat.log2_lt h0).mpr h2
  unfold excess
  omega

theorem excess_mono {n m : Nat} (h : n ≤ m) : excess n ≤ excess m := by
  by_contra hlt
  have hn : ¬ n < 2 ^ 24 := by
    intro hn
    rw [excess_zero hn] at hlt
    omega
  have h1 := (excess_bounds (n := n) (by omega)).1
  have h2 := lt_excess m
  have : 2 ^ (excess m + 24) ≤ 2 ^ (excess n + 23) := Nat.pow_le_pow_right (by decide) (by omega)
  omega

/-- the code before it is limited to infinity -/
def rawCode (a d : Nat) : Nat := excess (a / d) * 2 ^ 23 + rne a (d * 2 ^ excess (a / d))

theorem roundCode_eq (a d : Nat) : roundCode a d = min infCode (rawCode a d) := rfl

theorem roundCode_le (a d : Nat) : roundCode a d ≤ infCode := Nat.min_le_left _ _

theorem roundCode_lt (a d : Nat) : roundCode a d < 2 ^ 31 :=
  lt_of_le_of_lt (roundCode_le a d) infCode_lt

/-- rounding is monotone -/
theorem rawCode_mono {a d a' d' : Nat} (hd : 0 < d) (hd' : 0 < d') (h : a * d' ≤ a' * d) :
    rawCode a d ≤ rawCode a' d' := by
  have hdiv : a / d ≤ a' / d' := by
    rw [Nat.le_div_iff_mul_le hd']
    have h1 : a / d * d ≤ a := Nat.div_mul_le_self a d
    have h2 : a / d * d * d' ≤ a * d' := Nat.mul_le_mul_right _ h1
    have h3 : a / d * d' * d ≤ a' * d := by
      calc a / d * d' * d = a / d * d * d' := by ring
        _ ≤ _ := h2.trans h
    exact Nat.le_of_mul_le_mul_right h3 hd
  have hk := excess_mono hdiv
  unfold rawCode
  rcases Nat.lt_or_ge (excess (a / d)) (excess (a' / d')) with hlt | hge
  · -- the larger one is in a higher binade
    have u : rne a (d * 2 ^ excess (a / d)) ≤ 2 ^ 24 := by
      apply rne_le (Nat.mul_pos hd (Nat.pow_pos (by decide)))
      have := lt_excess (a / d)
      rw [Nat.div_lt_iff_lt_mul hd, pow_add] at this
      rw [show 2 ^ 24 * (d * 2 ^ excess (a / d)) = 2 ^ excess (a / d) * 2 ^ 24 * d by ring]
      exact this.le
    have hn : 2 ^ 24 ≤ a' / d' := by
      by_contra hc
      rw [excess_zero (n := a' / d') (by omega)] at hlt
      omega
    have l : 2 ^ 23 ≤ rne a' (d' * 2 ^ excess (a' / d')) := by
      apply le_rne (Nat.mul_pos hd' (Nat.pow_pos (by decide)))
      have := (excess_bounds hn).1
      rw [Nat.le_div_iff_mul_le hd', pow_add] at this
      rw [show 2 ^ 23 * (d' * 2 ^ excess (a' / d')) = 2 ^ excess (a' / d') * 2 ^ 23 * d' by ring]
      exact this
    have : (excess (a / d) + 1) * 2 ^ 23 ≤ excess (a' / d') * 2 ^ 23 :=
      Nat.mul_le_mul_right _ hlt
    omega
  · have e : excess (a / d) = excess (a' / d') := by omega
    rw [e]
    apply Nat.add_le_add_left
    have hp : 0 < 2 ^ excess (a' / d') := Nat.pow_pos (by decide)
    apply rne_mono (Nat.mul_pos hd hp) (Nat.mul_pos hd' hp)
    calc a * (d' * 2 ^ excess (a' / d')) = a * d' * 2 ^ excess (a' / d') := by ring
      _ ≤ a' * d * 2 ^ excess (a' / d') := Nat.mul_le_mul_right _ h
      _ = _ := by ring

theorem roundCode_mono {a d a' d' : Nat} (hd : 0 < d) (hd' : 0 < d') (h : a * d' ≤ a' * d) :
    roundCode a d ≤ roundCode a' d' := by
  rw [roundCode_eq, roundCode_eq]
  have := rawCode_mono hd hd' h
  omega

/-- a representable magnitude is not changed -/
theorem rawCode_units {c d : Nat} (hd : 0 < d) : rawCode (units c * d) d = c := by
  unfold rawCode
  rw [Nat.mul_div_cancel _ hd]
  by_cases h : c < 2 ^ 23
  · have e : units c = c := by unfold units; rw [if_pos h]
    rw [e, excess_zero (by omega), pow_zero, Nat.mul_one, rne_mul hd]
    omega
  · have e : units c = (2 ^ 23 + c % 2 ^ 23) * 2 ^ (c / 2 ^ 23 - 1) := by
      unfold units; rw [if_neg h]
    have hm : c % 2 ^ 23 < 2 ^ 23 := Nat.mod_lt _ (by decide)
    have hp : 0 < 2 ^ (c / 2 ^ 23 - 1) := Nat.pow_pos (by decide)
    have k : excess (units c) = c / 2 ^ 23 - 1 := by
      apply excess_eq
      · rw [e, pow_add, Nat.mul_comm]
        exact Nat.mul_le_mul_right _ (by omega)
      · rw [e, pow_add, Nat.mul_comm]
        exact Nat.mul_lt_mul_of_pos_left (by omega) hp
    rw [k, e, show (2 ^ 23 + c % 2 ^ 23) * 2 ^ (c / 2 ^ 23 - 1) * d =
      (2 ^ 23 + c % 2 ^ 23) * (d * 2 ^ (c / 2 ^ 23 - 1)) by ring, rne_mul (Nat.mul_pos hd hp)]
    omega

theorem roundCode_units {c d : Nat} (hd : 0 < d) (h : c ≤ infCode) :
    roundCode (units c * d) d = c := by
  rw [roundCode_eq, rawCode_units hd]
  omega

theorem roundCode_le_of {a d c : Nat} (hd : 0 < d) (h : a ≤ units c * d) (hc : c ≤ infCode) :
    roundCode a d ≤ c := by
  have := roundCode_mono (a := a) (a' := units c * d) hd hd (Nat.mul_le_mul_right _ h)
  rwa [roundCode_units hd hc] at this

theorem le_roundCode_of {a d c : Nat} (hd : 0 < d) (h : units c * d ≤ a) (hc : c ≤ infCode) :
    c ≤ roundCode a d := by
  have := roundCode_mono (a := units c * d) (a' := a) hd hd (Nat.mul_le_mul_right _ h)
  rwa [roundCode_units hd hc] at this

/-! ## Rounding is to nearest, ties to even -/

theorem units_code {k q : Nat} (h : q ≤ 2 ^ 24) (h' : k = 0 ∨ 2 ^ 23 ≤ q) :
    units (k * 2 ^ 23 + q) = q * 2 ^ k := by
  unfold units
  by_cases h1 : q < 2 ^ 23
  · have : k = 0 := by omega
    subst this
    rw [if_pos (by omega)]
    simp
  · rw [if_neg (by omega)]
    by_cases h2 : q = 2 ^ 24
    · subst h2
      have e1 : (k * 2 ^ 23 + 2 ^ 24) % 2 ^ 23 = 0 := by omega
      have e2 : (k * 2 ^ 23 + 2 ^ 24) / 2 ^ 23 - 1 = k + 1 := by omega
      rw [e1, e2, show 2 ^ (k + 1) = 2 ^ k * 2 from Nat.pow_succ _ _]
      ring
    · have e1 : (k * 2 ^ 23 + q) % 2 ^ 23 = q - 2 ^ 23 := by omega
      have e2 : (k * 2 ^ 23 + q) / 2 ^ 23 - 1 = k := by omega
      rw [e1, e2, show 2 ^ 23 + (q - 2 ^ 23) = q by omega]

/-- the significand that rounding produces -/
theorem rne_bounds {a d : Nat} (hd : 0 < d) :
    rne a (d * 2 ^ excess (a / d)) ≤ 2 ^ 24 ∧
    (excess (a / d) = 0 ∨ 2 ^ 23 ≤ rne a (d * 2 ^ excess (a / d))) := by
  have hp : 0 < 2 ^ excess (a / d) := Nat.pow_pos (by decide)
  constructor
  · apply rne_le (Nat.mul_pos hd hp)
    have := lt_excess (a / d)
    rw [Nat.div_lt_iff_lt_mul hd, pow_add] at this
    rw [show 2 ^ 24 * (d * 2 ^ excess (a / d)) = 2 ^ excess (a / d) * 2 ^ 24 * d by ring]
    exact this.le
  · by_cases hn : a / d < 2 ^ 24
    · exact .inl (excess_zero hn)
    · right
      apply le_rne (Nat.mul_pos hd hp)
      have := (excess_bounds (n := a / d) (by omega)).1
      rw [Nat.le_div_iff_mul_le hd, pow_add] at this
      rw [show 2 ^ 23 * (d * 2 ^ excess (a / d)) = 2 ^ excess (a / d) * 2 ^ 23 * d by ring]
      exact this

theorem units_rawCode {a d : Nat} (hd : 0 < d) :
    units (rawCode a d) = rne a (d * 2 ^ excess (a / d)) * 2 ^ excess (a / d) :=
  units_code (rne_bounds hd).1 (rne_bounds hd).2

/-- the rounding error is at most half a unit in the last place -/
theorem rawCode_half {a d : Nat} (hd : 0 < d) :
    2 * (units (rawCode a d) * d) ≤ 2 * a + d * 2 ^ excess (a / d) ∧
    2 * a ≤ 2 * (units (rawCode a d) * d) + d * 2 ^ excess (a / d) := by
  have hp : 0 < 2 ^ excess (a / d) := Nat.pow_pos (by decide)
  have h := rne_spec (a := a) (Nat.mul_pos hd hp)
  rw [units_rawCode hd]
  rw [show rne a (d * 2 ^ excess (a / d)) * 2 ^ excess (a / d) * d =
    rne a (d * 2 ^ excess (a / d)) * (d * 2 ^ excess (a / d)) by ring]
  exact ⟨h.1, h.2.1⟩

/-- a magnitude of at least `2^-126` is rounded with relative error at most `2^-24` -/
theorem rawCode_relative {a d : Nat} (hd : 0 < d) (h : 2 ^ 23 * d ≤ a) :
    2 ^ 24 * (units (rawCode a d) * d) ≤ 2 ^ 24 * a + a ∧
    2 ^ 24 * a ≤ 2 ^ 24 * (units (rawCode a d) * d) + a := by
  obtain ⟨h1, h2⟩ := rawCode_half (a := a) hd
  have hk : 2 ^ 23 * (d * 2 ^ excess (a / d)) ≤ a := by
    by_cases hn : a / d < 2 ^ 24
    · rw [excess_zero hn, pow_zero, Nat.mul_one]
      exact h
    · have := (excess_bounds (n := a / d) (by omega)).1
      rw [Nat.le_div_iff_mul_le hd, pow_add] at this
      calc 2 ^ 23 * (d * 2 ^ excess (a / d)) = 2 ^ excess (a / d) * 2 ^ 23 * d := by ring
        _ ≤ a := this
  generalize d * 2 ^ excess (a / d) = p at *
  generalize units (rawCode a d) * d = u at *
  omega

/-- No representable magnitude is closer to `a / d` than the rounded one. -/
theorem rawCode_nearest {a d : Nat} (hd : 0 < d) (c : Nat) :
    ((units (rawCode a d) * d : Nat) - a : Int).natAbs ≤ ((units c * d : Nat) - a : Int).natAbs := by
  obtain ⟨h1, h2⟩ := rawCode_half (a := a) hd
  have hp : 0 < 2 ^ excess (a / d) := Nat.pow_pos (by decide)
  have hdp : 0 < d * 2 ^ excess (a / d) := Nat.mul_pos hd hp
  rcases Nat.lt_or_ge a (units c * d) with hlt | hge
  · -- `c` is above
    have hle : rawCode a d ≤ c := by
      have := rawCode_mono (a := a) (a' := units c * d) hd hd (Nat.mul_le_mul_right _ hlt.le)
      rwa [rawCode_units hd] at this
    have hu : units (rawCode a d) * d ≤ units c * d := Nat.mul_le_mul_right _ (units_le.mpr hle)
    rcases Nat.lt_or_ge (units (rawCode a d) * d) a with hr | hr
    · -- rounded down although `c` is above: the next representable one is far enough
      have hne : rawCode a d + 1 ≤ c := by
        rcases Nat.eq_or_lt_of_le hle with e | e
        · rw [e] at hr; omega
        · exact e
      have hn : units (rawCode a d) * d + d * 2 ^ excess (a / d) ≤ units c * d := by
        refine le_trans ?_ (Nat.mul_le_mul_right _ (units_le.mpr hne))
        have hb := rne_bounds (a := a) hd
        have hlt24 : rne a (d * 2 ^ excess (a / d)) < 2 ^ 24 := by
          rcases Nat.eq_or_lt_of_le hb.1 with e | e
          · exfalso
            rw [units_rawCode hd, e] at hr
            have := lt_excess (a / d)
            rw [Nat.div_lt_iff_lt_mul hd, pow_add, Nat.mul_comm (2 ^ _)] at this
            omega
          · exact e
        have e : units (rawCode a d + 1) =
            (rne a (d * 2 ^ excess (a / d)) + 1) * 2 ^ excess (a / d) := by
          unfold rawCode
          rw [Nat.add_assoc]
          exact units_code (by omega) (by have := hb.2; omega)
        rw [e, units_rawCode hd]
        apply le_of_eq
        ring
      omega
    · omega
  · -- `c` is not above
    have hle : c ≤ rawCode a d := by
      have := rawCode_mono (a := units c * d) (a' := a) hd hd (Nat.mul_le_mul_right _ hge)
      rwa [rawCode_units hd] at this
    have hu : units c * d ≤ units (rawCode a d) * d := Nat.mul_le_mul_right _ (units_le.mpr hle)
    rcases Nat.lt_or_ge a (units (rawCode a d) * d) with hr | hr
    · -- rounded up although `c` is not above
      have hb := rne_bounds (a := a) hd
      have hq0 : 0 < rne a (d * 2 ^ excess (a / d)) := by
        rcases Nat.eq_zero_or_pos (rne a (d * 2 ^ excess (a / d))) with e | e
        · rw [units_rawCode hd, e] at hr; omega
        · exact e
      -- the representable magnitude below
      let q' := rne a (d * 2 ^ excess (a / d)) - 1
      have hq' : excess (a / d) = 0 ∨ 2 ^ 23 ≤ q' := by
        rcases Nat.lt_or_ge (a / d) (2 ^ 24) with hn | hn
        · exact .inl (excess_zero hn)
        · right
          have h3 := (excess_bounds hn).1
          rw [Nat.le_div_iff_mul_le hd, pow_add] at h3
          have h4 : 2 ^ 23 < rne a (d * 2 ^ excess (a / d)) := by
            by_contra hc
            have : units (rawCode a d) * d ≤ 2 ^ 23 * 2 ^ excess (a / d) * d := by
              rw [units_rawCode hd]
              exact Nat.mul_le_mul_right _ (Nat.mul_le_mul_right _ (by omega))
            rw [Nat.mul_comm (2 ^ 23)] at this
            omega
          change 2 ^ 23 ≤ rne a (d * 2 ^ excess (a / d)) - 1
          omega
      have e : units (excess (a / d) * 2 ^ 23 + q') = q' * 2 ^ excess (a / d) :=
        units_code (by change rne a (d * 2 ^ excess (a / d)) - 1 ≤ _; omega) hq'
      have hcl : units c * d ≤ units (excess (a / d) * 2 ^ 23 + q') * d := by
        apply Nat.mul_le_mul_right
        rw [units_le]
        have hcc : c ≠ rawCode a d := by rintro rfl; omega
        have : rawCode a d = excess (a / d) * 2 ^ 23 + q' + 1 := by
          unfold rawCode
          change _ = _ + (rne a (d * 2 ^ excess (a / d)) - 1) + 1
          omega
        omega
      have hstep : units (rawCode a d) * d =
          units (excess (a / d) * 2 ^ 23 + q') * d + d * 2 ^ excess (a / d) := by
        rw [e, units_rawCode hd]
        have : rne a (d * 2 ^ excess (a / d)) = q' + 1 := by
          change _ = rne a (d * 2 ^ excess (a / d)) - 1 + 1
          omega
        rw [this]
        ring
      omega
    · omega

end Rusty.F32
