import Verif.Model.Random
import Verif.Lemmas.IEEEAccuracy

/-! # Helper lemmas: rounded operations are monotone; uniform samples stay in range -/

namespace Rusty

open F32

/-- the key of the float nearest to `z` units -/
def rk (z : Int) : Int := if z < 0 then -(roundCode z.natAbs 1 : Int) else roundCode z.natAbs 1

theorem rk_mono {z z' : Int} (h : z ≤ z') : rk z ≤ rk z' := by
  have m : ∀ {a c : Nat}, a ≤ c → roundCode a 1 ≤ roundCode c 1 := fun {a c} h =>
    roundCode_mono Nat.one_pos Nat.one_pos (Nat.mul_le_mul_right 1 h)
  unfold rk
  split <;> split
  · have := @m z'.natAbs z.natAbs (by omega)
    omega
  · omega
  · omega
  · have := @m z.natAbs z'.natAbs (by omega)
    omega

theorem key_le_iff {x y : F32} : x.key ≤ y.key ↔ x.toInt ≤ y.toInt := by
  have m1 := @units_lt x.code y.code
  have m2 := @units_lt y.code x.code
  have z1 := @units_pos x.code
  have z2 := @units_pos y.code
  unfold key toInt
  cases x.sign <;> cases y.sign <;> simp only [Bool.false_eq_true, if_true, if_false] <;> omega

theorem rk_toInt {x : F32} (h : x.isFinite = true) : rk x.toInt = x.key := by
  rw [finite_iff] at h
  have e := roundCode_units (c := x.code) Nat.one_pos h.le
  rw [Nat.mul_one] at e
  have z := @units_pos x.code
  unfold rk toInt key
  cases x.sign
  · simp only [Bool.false_eq_true, if_false]
    rw [if_neg (by omega), Int.natAbs_natCast, e]
  · simp only [if_true]
    by_cases h0 : units x.code = 0
    · have : x.code = 0 := by omega
      rw [this, units_zero]
      decide
    · rw [if_pos (by omega), Int.natAbs_neg, Int.natAbs_natCast, e]

theorem key_add {x y : F32} (hx : x.isFinite = true) (hy : y.isFinite = true) :
    (add x y).key = rk (x.toInt + y.toInt) ∧ (add x y).isNaN = false := by
  unfold add
  rw [finite_nan hx, finite_nan hy, finite_inf hx, finite_inf hy]
  simp only [Bool.or_self, Bool.false_eq_true, if_false]
  split
  · next h =>
    rw [h]
    unfold key isNaN
    rw [mk'_code (by decide)]
    refine ⟨?_, by decide⟩
    rw [show rk 0 = 0 by decide]
    split <;> rfl
  · unfold key rk isNaN
    rw [mk'_code (roundCode_lt _ _), mk'_sign (roundCode_lt _ _)]
    have := roundCode_le (x.toInt + y.toInt).natAbs 1
    exact ⟨by simp only [decide_eq_true_eq], by simp only [decide_eq_false_iff_not]; omega⟩

theorem key_neg {x : F32} : (neg x).key = -x.key ∧ (neg x).toInt = -x.toInt ∧
    (neg x).isFinite = x.isFinite := by
  unfold neg key toInt isFinite
  rw [mk'_sign (code_lt x), mk'_code (code_lt x)]
  cases x.sign <;> simp

/-- products of numbers that are not negative -/
theorem key_mul {x y : F32} (hx : x.isFinite = true) (hy : y.isFinite = true) (h1 : 0 ≤ x.key)
    (h2 : 0 ≤ y.key) : (mul x y).code = roundCode (units x.code * units y.code) (2 ^ 149) ∧
    (mul x y).key = roundCode (units x.code * units y.code) (2 ^ 149) := by
  have e : mul x y = mk' (x.sign != y.sign) (roundCode (units x.code * units y.code) (2 ^ 149)) := by
    unfold mul
    rw [finite_nan hx, finite_nan hy, finite_inf hx, finite_inf hy]
    simp only [Bool.or_self, Bool.false_eq_true, if_false]
  have hz : (x.sign = false ∨ x.code = 0) ∧ (y.sign = false ∨ y.code = 0) := by
    unfold key at h1 h2
    constructor
    · cases hs : x.sign
      · exact .inl rfl
      · rw [hs] at h1; simp only [if_true] at h1; right; omega
    · cases hs : y.sign
      · exact .inl rfl
      · rw [hs] at h2; simp only [if_true] at h2; right; omega
  rw [e, mk'_code (roundCode_lt _ _)]
  refine ⟨rfl, ?_⟩
  unfold key
  rw [mk'_code (roundCode_lt _ _), mk'_sign (roundCode_lt _ _)]
  rcases hz with ⟨hx | hx, hy | hy⟩
  · rw [hx, hy]; rfl
  · rw [hy, units_zero, Nat.mul_zero, roundCode_zero]; split <;> rfl
  · rw [hx, units_zero, Nat.zero_mul, roundCode_zero]; split <;> rfl
  · rw [hx, units_zero, Nat.zero_mul, roundCode_zero]; split <;> rfl

theorem key_nonneg {x : F32} (h : 0 ≤ x.key) : x.key = x.code := by
  unfold key at *
  split at h
  · rw [if_pos (by assumption)]; omega
  · rw [if_neg (by assumption)]

/-- a factor of at most one does not enlarge a product -/
theorem mul_shrinks {x y : F32} (hx : x.isFinite = true) (hy : y.isFinite = true) (h1 : 0 ≤ x.key)
    (h2 : 0 ≤ y.key) (hle : x.code ≤ 127 * 2 ^ 23) :
    (mul x y).isFinite = true ∧ 0 ≤ (mul x y).key ∧ (mul x y).code ≤ y.code := by
  obtain ⟨e1, e2⟩ := key_mul hx hy h1 h2
  rw [finite_iff] at hy ⊢
  have : roundCode (units x.code * units y.code) (2 ^ 149) ≤ y.code := by
    refine roundCode_le_of (by positivity) ?_ hy.le
    rw [Nat.mul_comm]
    exact Nat.mul_le_mul_left _ (by rw [← units_one]; exact units_le.mpr hle)
  rw [e1, e2]
  exact ⟨by omega, by omega, this⟩

theorem mul_mono {x x' y : F32} (hx : x.isFinite = true) (hx' : x'.isFinite = true)
    (hy : y.isFinite = true) (h0 : 0 ≤ x.key) (h1 : x.key ≤ x'.key) (h2 : 0 ≤ y.key) :
    (mul x y).key ≤ (mul x' y).key := by
  rw [(key_mul hx hy h0 h2).2, (key_mul hx' hy (h0.trans h1) h2).2]
  have e := key_nonneg h0
  have e' := key_nonneg (h0.trans h1)
  have := roundCode_mono (a := units x.code * units y.code) (a' := units x'.code * units y.code)
    (d := 2 ^ 149) (d' := 2 ^ 149) (by positivity) (by positivity)
    (Nat.mul_le_mul_right _ (Nat.mul_le_mul_right _ (units_le.mpr (by omega))))
  exact_mod_cast this

theorem mul_comm' (x y : F32) : mul x y = mul y x := by
  unfold mul
  have hs : (y.sign != x.sign) = (x.sign != y.sign) := by
    cases x.sign <;> cases y.sign <;> rfl
  rw [hs, Bool.or_comm, Nat.mul_comm]
  by_cases hx : x.isInf = true <;> by_cases hy : y.isInf = true
  · have cx : x.code = infCode := by unfold isInf at hx; simpa using hx
    have cy : y.code = infCode := by unfold isInf at hy; simpa using hy
    simp only [hx, hy, if_true, cx, cy]
  · simp only [hx, hy, if_true, if_false, Bool.false_eq_true]
  · simp only [hx, hy, if_true, if_false, Bool.false_eq_true]
  · simp only [hx, hy, if_false, Bool.false_eq_true]

theorem finite_of_key {x lo hi : F32} (hlo : lo.isFinite = true)
    (hhi : hi.isFinite = true) (h1 : lo.key ≤ x.key) (h2 : x.key ≤ hi.key) : x.isFinite = true := by
  rw [finite_iff] at *
  unfold key at *
  revert h1 h2
  cases x.sign <;> cases lo.sign <;> cases hi.sign <;>
    simp only [Bool.false_eq_true, if_true, if_false] <;> omega

/-! ## The uniform distribution -/

namespace UniformFloat

theorem unit_range (w : UInt32) : (unit w).isFinite = true ∧ 0 ≤ (unit w).key ∧
    (unit w).key ≤ max_rand.key := by
  -- the number in [1, 2) is between 1 and the one with all bits set
  have hb : ∀ w : UInt32, (⟨(0x3f800000 : UInt32) ||| (w >>> 9)⟩ : F32).sign = false ∧
      127 * 2 ^ 23 ≤ (⟨(0x3f800000 : UInt32) ||| (w >>> 9)⟩ : F32).code ∧
      (⟨(0x3f800000 : UInt32) ||| (w >>> 9)⟩ : F32).code ≤ 127 * 2 ^ 23 + (2 ^ 23 - 1) := by
    intro w
    have hw := w.toNat_lt
    have e : ((0x3f800000 : UInt32) ||| (w >>> 9)).toNat = 127 * 2 ^ 23 + w.toNat / 2 ^ 9 := by
      rw [UInt32.toNat_or, UInt32.toNat_shiftRight]
      have h9 : w.toNat >>> ((9 : UInt32).toNat % 32) = w.toNat / 2 ^ 9 := by
        rw [Nat.shiftRight_eq_div_pow]; rfl
      rw [h9]
      have := Nat.two_pow_add_eq_or_of_lt (i := 23) (b := w.toNat / 2 ^ 9) (by omega) 127
      rw [Nat.mul_comm 127, this]
      rfl
    unfold sign code
    simp only
    rw [e]
    refine ⟨by simp only [decide_eq_false_iff_not]; omega, by omega, by omega⟩
  have hf : ∀ w : UInt32, (⟨(0x3f800000 : UInt32) ||| (w >>> 9)⟩ : F32).isFinite = true := fun w => by
    rw [finite_iff]
    have := (hb w).2.2
    unfold infCode
    omega
  have key_of : ∀ w : UInt32, (⟨(0x3f800000 : UInt32) ||| (w >>> 9)⟩ : F32).key =
      (⟨(0x3f800000 : UInt32) ||| (w >>> 9)⟩ : F32).code := fun w => by
    unfold key
    rw [(hb w).1]
    rfl
  have hone : (neg ⟨0x3f800000⟩ : F32).isFinite = true := by decide
  have mono : ∀ x : F32, x.isFinite = true → (⟨0x3f800000⟩ : F32).key ≤ x.key →
      x.key ≤ (⟨(0x3f800000 : UInt32) ||| ((0xffffffff : UInt32) >>> 9)⟩ : F32).key →
      0 ≤ (sub x ⟨0x3f800000⟩).key ∧ (sub x ⟨0x3f800000⟩).key ≤ max_rand.key ∧
        (sub x ⟨0x3f800000⟩).isNaN = false := by
    intro x hx h1 h2
    obtain ⟨k1, k2⟩ := key_add hx hone
    refine ⟨?_, ?_, k2⟩
    · unfold sub
      rw [k1]
      have := rk_mono (z := 0) (z' := x.toInt + (neg ⟨0x3f800000⟩ : F32).toInt) (by
        rw [key_neg.2.1]
        have := key_le_iff.mp h1
        omega)
      rw [show rk 0 = 0 by decide] at this
      exact this
    · unfold max_rand unit sub
      rw [k1, (key_add (hf _) hone).1]
      apply rk_mono
      have := key_le_iff.mp h2
      omega
  have hk := key_of w
  have hm := hb w
  have hmax : (⟨(0x3f800000 : UInt32) ||| ((0xffffffff : UInt32) >>> 9)⟩ : F32).key =
      127 * 2 ^ 23 + (2 ^ 23 - 1) := by decide
  have hmin : (⟨0x3f800000⟩ : F32).key = 127 * 2 ^ 23 := by decide
  obtain ⟨m1, m2, m3⟩ := mono _ (hf w) (by rw [hmin, hk]; omega) (by rw [hmax, hk]; omega)
  refine ⟨finite_of_key (lo := ⟨0⟩) (hi := max_rand) (by decide) (by decide) ?_ m2, m1, m2⟩
  exact m1

theorem max_rand_facts : max_rand.isFinite = true ∧ 0 < max_rand.key ∧
    max_rand.code ≤ 127 * 2 ^ 23 ∧ max_rand.sign = false ∧ 0 < max_rand.code := by decide

/-- with a zero scale the loop condition is false -/
theorem zero_scale {low high s : F32} (hl : low.isFinite = true) (h : low.key ≤ high.key)
    (hs : s.code = 0) : gt (add (mul s max_rand) low) high = false := by
  obtain ⟨f1, f2, f3, _⟩ := max_rand_facts
  have fs : s.isFinite = true := by rw [finite_iff, hs]; decide
  have ks : s.key = 0 := by unfold key; rw [hs]; split <;> rfl
  obtain ⟨e1, e2⟩ := key_mul fs f1 (by omega) f2.le
  rw [hs, units_zero, Nat.zero_mul, roundCode_zero] at e1 e2
  have fm : (mul s max_rand).isFinite = true := by rw [finite_iff, e1]; decide
  have hz : (mul s max_rand).toInt = 0 := by
    unfold toInt; rw [e1, units_zero]; split <;> rfl
  obtain ⟨k1, _⟩ := key_add fm hl
  rw [hz, zero_add, rk_toInt hl] at k1
  unfold gt
  rw [k1]
  simp only [Bool.and_eq_false_iff, decide_eq_false_iff_not]
  right
  omega

/-- The loop is left by its condition, with a scale that is finite and not negative. -/
theorem shrink_exits {low high : F32} (hl : low.isFinite = true) (h : low.key ≤ high.key) :
    ∀ (n : Nat) (s : F32), s.isFinite = true → 0 ≤ s.key → s.bits.toNat < n →
      gt (add (mul (shrink low high n s) max_rand) low) high = false ∧
      (shrink low high n s).isFinite = true ∧ 0 ≤ (shrink low high n s).key := by
  intro n
  induction n with
  | zero => intro s _ _ hn; omega
  | succ n ih =>
    intro s fs ks hn
    unfold shrink
    by_cases hg : gt (add (mul s max_rand) low) high = true
    · rw [if_pos hg]
      have hc : s.code ≠ 0 := by
        intro h0
        rw [zero_scale hl h h0] at hg
        cases hg
      have hsg : s.sign = false := by
        cases hs : s.sign
        · rfl
        · unfold key at ks
          rw [hs] at ks
          simp only [if_true] at ks
          omega
      have hb := bits_eq s
      rw [hsg] at hb
      simp only [Bool.false_eq_true, if_false, Nat.zero_add] at hb
      have hpos : 1 ≤ s.bits.toNat := by omega
      have e : (s.bits - 1).toNat = s.code - 1 := by
        rw [UInt32.toNat_sub_of_le _ _ (by
          rw [UInt32.le_iff_toNat_le]; exact hpos), hb]
        rfl
      have hcl := code_lt s
      have c' : (⟨s.bits - 1⟩ : F32).code = s.code - 1 := by
        unfold code
        rw [e]
        exact Nat.mod_eq_of_lt (by unfold code at hcl ⊢; omega)
      have s' : (⟨s.bits - 1⟩ : F32).sign = false := by
        unfold sign
        rw [e]
        simp only [decide_eq_false_iff_not]
        omega
      refine ih ⟨s.bits - 1⟩ ?_ ?_ ?_
      · rw [finite_iff] at fs ⊢
        rw [c']
        omega
      · unfold key
        rw [s']
        simp
      · rw [e]
        omega
    · rw [if_neg hg]
      exact ⟨by simpa using hg, fs, ks⟩

theorem scale_nonneg {low high : F32} (hl : low.isFinite = true) (hh : high.isFinite = true)
    (h : low.key ≤ high.key) (hf : (div (sub high low) max_rand).isFinite = true) :
    0 ≤ (div (sub high low) max_rand).key := by
  obtain ⟨f1, f2, f3, f4, f5⟩ := max_rand_facts
  have hn : (neg low).isFinite = true := by rw [key_neg.2.2]; exact hl
  obtain ⟨k1, k2⟩ := key_add hh hn
  have k0 : 0 ≤ (sub high low).key := by
    unfold sub
    rw [k1, key_neg.2.1]
    have := rk_mono (z := 0) (z' := high.toInt + -low.toInt) (by
      have := key_le_iff.mp h
      omega)
    rwa [show rk 0 = 0 by decide] at this
  have hnan : (sub high low).isNaN = false := k2
  have fs : (sub high low).isInf = false := by
    cases hi : (sub high low).isInf
    · rfl
    · unfold div at hf
      rw [hnan, finite_nan f1, hi, finite_inf f1] at hf
      simp only [Bool.or_self, Bool.false_eq_true, if_false, if_true] at hf
      rw [mk'_inf_not_finite] at hf
      cases hf
  have e : div (sub high low) max_rand = mk' (sub high low).sign
      (roundCode (units (sub high low).code * 2 ^ 149) (units max_rand.code)) := by
    unfold div
    rw [hnan, finite_nan f1, fs, finite_inf f1, f4]
    simp only [Bool.or_self, Bool.false_eq_true, if_false]
    rw [if_neg (by omega), Bool.bne_false]
  rw [e]
  unfold key
  rw [mk'_code (roundCode_lt _ _), mk'_sign (roundCode_lt _ _)]
  cases hs : (sub high low).sign
  · simp
  · have : (sub high low).code = 0 := by
      unfold key at k0
      rw [hs] at k0
      simp only [if_true] at k0
      omega
    rw [this, units_zero, Nat.zero_mul, roundCode_zero]
    simp

/-- Samples lie between the bounds. -/
theorem sample_range {low high s : F32} (hl : low.isFinite = true) (hh : high.isFinite = true)
    (fs : s.isFinite = true) (ks : 0 ≤ s.key)
    (hg : gt (add (mul s max_rand) low) high = false) (w : UInt32) :
    (sample ⟨low, s⟩ w).isFinite = true ∧ low.key ≤ (sample ⟨low, s⟩ w).key ∧
      (sample ⟨low, s⟩ w).key ≤ high.key := by
  obtain ⟨f1, f2, f3, _⟩ := max_rand_facts
  obtain ⟨u1, u2, u3⟩ := unit_range w
  have uc : (unit w).code ≤ 127 * 2 ^ 23 := by
    have := key_nonneg u2
    have := key_nonneg f2.le
    omega
  obtain ⟨a1, a2, a3⟩ := mul_shrinks u1 fs u2 ks uc
  obtain ⟨b1, b2, b3⟩ := mul_shrinks f1 fs f2.le ks f3
  have hm := mul_mono u1 f1 fs u2 u3 ks
  obtain ⟨k1, k2⟩ := key_add a1 hl
  obtain ⟨l1, l2⟩ := key_add b1 hl
  have h1 : low.key ≤ (sample ⟨low, s⟩ w).key := by
    unfold sample
    rw [k1, ← rk_toInt hl]
    apply rk_mono
    have : (⟨0⟩ : F32).toInt ≤ (mul (unit w) s).toInt := key_le_iff.mp a2
    have e0 : (⟨0⟩ : F32).toInt = 0 := by decide
    omega
  have h2 : (sample ⟨low, s⟩ w).key ≤ (add (mul max_rand s) low).key := by
    unfold sample
    rw [k1, l1]
    apply rk_mono
    have := key_le_iff.mp hm
    omega
  have h3 : (add (mul max_rand s) low).key ≤ high.key := by
    rw [mul_comm'] at hg
    unfold gt at hg
    rw [l2, finite_nan hh] at hg
    simp only [Bool.not_false, Bool.and_self, Bool.true_and, decide_eq_false_iff_not] at hg
    omega
  exact ⟨finite_of_key hl hh h1 (h2.trans h3), h1, h2.trans h3⟩

end UniformFloat

end Rusty
