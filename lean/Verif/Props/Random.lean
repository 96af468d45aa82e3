import Verif.Lemmas.IEEEMono
import Verif.Lemmas.Layout
import Verif.Props.IEEE

/-! # C75: filling tensors with random numbers -/

namespace Rusty

open F32Ops Spec F32

variable [Libm]

/-- The bounds are finite numbers, the first at most the second, and their distance, divided by
`1 - 2^-23`, does not overflow. -/
def Spec.UniformBounds (lo hi : F32) : Prop :=
  lo.isFinite = true ∧ hi.isFinite = true ∧ lo.toReal ≤ hi.toReal ∧
    (F32.div (F32.sub hi lo) UniformFloat.max_rand).isFinite = true

omit [Libm] in
theorem key_le_real {x y : F32} : x.key ≤ y.key ↔ x.toReal ≤ y.toReal := by
  rw [key_le_iff]
  unfold toReal
  rw [div_le_div_iff_of_pos_right (by positivity)]
  exact_mod_cast Iff.rfl

theorem get_item_samples {t : Tensor F32} (ht : t.WF) (b : Build) (f : Nat → F32) {i j k : Nat}
    (hin : t.shape.Inside i j k) :
    (t.fill_with_samples f).get_item b (ix i j k) = .ok (f (pos t.shape i j k)) := by
  have hl : (t.fill_with_samples f).WF :=
    ⟨ht.fits, ht.si, ht.sj, ht.sk, by simpa [Tensor.fill_with_samples] using ht.len⟩
  rw [get_item_ok hl hin]
  unfold val Tensor.fill_with_samples
  simp only
  rw [List.getElem?_map, List.getElem?_range (by rw [ht.len]; exact pos_lt hin)]
  rfl

/-- C75: whatever the generator yields, with proper bounds `fill_with_uniform(min, max)` returns, keeps
the shape, and sets every entry to a finite number between `min` and `max`, both included. -/
theorem C75_uniform (b : Build) (rng : Nat → UInt32) (t : Tensor F32) (ht : t.WF) (lo hi : F32)
    (h : UniformBounds lo hi) :
    ∃ t', t.fill_with_uniform b rng lo hi = .ok t' ∧ t'.WF ∧ t'.shape = t.shape ∧
      ∀ i j k, t.shape.Inside i j k → ∃ v, t'.get_item b (ix i j k) = .ok v ∧ v.isFinite = true ∧
        lo.toReal ≤ v.toReal ∧ v.toReal ≤ hi.toReal := by
  obtain ⟨h1, h2, h3, h4⟩ := h
  have hk := key_le_real.mpr h3
  obtain ⟨g1, g2, g3⟩ := UniformFloat.shrink_exits h1 hk _ _ h4
    (UniformFloat.scale_nonneg h1 h2 hk h4) (Nat.lt_succ_self _)
  have hle : F32.le lo hi = true := by
    unfold F32.le
    rw [finite_nan h1, finite_nan h2]
    simpa using hk
  refine ⟨t.fill_with_samples fun n => UniformFloat.sample ⟨lo, UniformFloat.shrink lo hi
    ((F32.div (F32.sub hi lo) UniformFloat.max_rand).bits.toNat + 1)
    (F32.div (F32.sub hi lo) UniformFloat.max_rand)⟩ (rng n), ?_, ?_, rfl, fun i j k hin =>
    ⟨_, get_item_samples ht b _ hin, ?_⟩⟩
  · unfold Tensor.fill_with_uniform UniformFloat.new_inclusive
    rw [if_neg (fun hc => hc.2 ⟨h1, h2⟩), if_neg (fun hc => hc hle)]
    simp only
    rw [if_neg (fun hc => hc h4)]
    rfl
  · exact ⟨ht.fits, ht.si, ht.sj, ht.sk, by simpa [Tensor.fill_with_samples] using ht.len⟩
  · obtain ⟨s1, s2, s3⟩ := UniformFloat.sample_range h1 h2 g2 g3 g1 (rng (pos t.shape i j k))
    exact ⟨s1, key_le_real.mp s2, key_le_real.mp s3⟩

/-- C75: with any other bounds it panics, in both profiles. -/
theorem C75_uniform_panics (b : Build) (rng : Nat → UInt32) (t : Tensor F32) (lo hi : F32)
    (h : ¬ UniformBounds lo hi) : t.fill_with_uniform b rng lo hi = .error .assert := by
  suffices H : UniformFloat.new_inclusive b lo hi = .error .assert by
    unfold Tensor.fill_with_uniform
    rw [H]
    rfl
  unfold UniformFloat.new_inclusive
  by_cases h1 : lo.isFinite = true ∧ hi.isFinite = true
  · rw [if_neg (fun hc => hc.2 h1)]
    split
    · rfl
    · next hle =>
      have hle : F32.le lo hi = true := by simpa using hle
      have hk : lo.key ≤ hi.key := by
        unfold F32.le at hle
        rw [finite_nan h1.1, finite_nan h1.2] at hle
        simpa using hle
      simp only
      rw [if_pos (fun hc => h ⟨h1.1, h1.2, key_le_real.mp hk, hc⟩)]
  · split
    · rfl
    · split
      · rfl
      · simp only
        rw [if_pos]
        -- the difference is infinite or NaN, and so is the scale
        have hsub : (F32.sub hi lo).isFinite = false := by
          by_contra hc
          have hc : (F32.sub hi lo).isFinite = true := by simpa using hc
          obtain ⟨f1, f2⟩ := finite_of_add hc
          rw [key_neg.2.2] at f2
          exact h1 ⟨f2, f1⟩
        intro hc
        obtain ⟨m1, _, _, m4, m5⟩ := UniformFloat.max_rand_facts
        unfold F32.div at hc
        rw [finite_nan m1, finite_inf m1] at hc
        by_cases hn : (F32.sub hi lo).isNaN = true
        · rw [hn] at hc
          simp only [Bool.true_or, if_true] at hc
          rw [nan_not_finite] at hc
          cases hc
        · have hi' : (F32.sub hi lo).isInf = true := by
            by_contra hi'
            have := isFinite_iff.mpr ⟨by simpa using hn, by simpa using hi'⟩
            rw [hsub] at this
            cases this
          rw [show (F32.sub hi lo).isNaN = false by simpa using hn, hi'] at hc
          simp only [Bool.or_self, Bool.false_eq_true, if_false, if_true] at hc
          rw [mk'_inf_not_finite] at hc
          cases hc

omit [Libm] in
/-- C75: a distance of at most `2^127` is never too large. -/
theorem C75_bounds (lo hi : F32) (h1 : lo.isFinite = true) (h2 : hi.isFinite = true)
    (h3 : lo.toReal ≤ hi.toReal) (h4 : hi.toReal - lo.toReal ≤ 2 ^ 127) : UniformBounds lo hi := by
  refine ⟨h1, h2, h3, ?_⟩
  have hn : (F32.neg lo).isFinite = true := by rw [key_neg.2.2]; exact h1
  have hneg : (F32.neg lo).toReal = -lo.toReal := by
    unfold toReal
    rw [key_neg.2.1]
    push_cast
    ring
  have fs : (F32.sub hi lo).isFinite = true := add_finite h2 hn (by
    rw [hneg, abs_le]
    constructor
    · have : (0 : ℝ) ≤ 2 ^ 127 := by positivity
      linarith
    · linarith)
  obtain ⟨m1, _, _, m4, m5⟩ := UniformFloat.max_rand_facts
  have hle : (F32.sub hi lo).code ≤ 254 * 2 ^ 23 := by
    unfold F32.sub F32.add
    rw [finite_nan h2, finite_nan hn, finite_inf h2, finite_inf hn]
    simp only [Bool.or_self, Bool.false_eq_true, if_false]
    split
    · rw [mk'_code (by decide)]; decide
    · rw [mk'_code (roundCode_lt _ _)]
      refine roundCode_le_of (by decide) ?_ (by decide)
      rw [units_big, Nat.mul_one]
      have hsum : hi.toReal - lo.toReal = ((hi.toInt + (F32.neg lo).toInt : Int) : ℝ) / 2 ^ 149 := by
        rw [key_neg.2.1]
        unfold toReal
        push_cast
        ring
      have h0 : |hi.toReal - lo.toReal| ≤ 2 ^ 127 := by rw [abs_of_nonneg (by linarith)]; exact h4
      rw [hsum, abs_div, abs_of_pos (a := (2 : ℝ) ^ 149) (by positivity),
        div_le_iff₀ (by positivity), ← Int.cast_abs, Int.abs_eq_natAbs, Int.cast_natCast] at h0
      exact_mod_cast h0
  unfold F32.div
  rw [finite_nan fs, finite_nan m1, finite_inf fs, finite_inf m1]
  simp only [Bool.or_self, Bool.false_eq_true, if_false]
  rw [if_neg (by omega), finite_iff, mk'_code (roundCode_lt _ _)]
  have : roundCode (units (F32.sub hi lo).code * 2 ^ 149) (units UniformFloat.max_rand.code) ≤
      infCode - 1 := by
    refine roundCode_le_of (units_pos.mpr m5) ?_ (by decide)
    refine (Nat.mul_le_mul_right _ (units_le.mpr hle)).trans ?_
    rw [units_big]
    decide
  have h5 : 0 < infCode := by decide
  omega

/-- The assumptions of C75 can be met: the bounds -1 and 1. -/
example : UniformBounds ⟨0xbf800000⟩ ⟨0x3f800000⟩ := by
  refine ⟨by decide, by decide, key_le_real.mp (by decide), by decide⟩

/-- C75: the range from the smallest to the largest `f32` is refused. -/
theorem C75_full_range (b : Build) (rng : Nat → UInt32) (t : Tensor F32) :
    t.fill_with_uniform b rng ⟨0xff7fffff⟩ ⟨0x7f7fffff⟩ = .error .assert :=
  C75_uniform_panics b rng t _ _ fun h => absurd h.2.2.2 (by decide)

/-- C75: `fill_with_gaussian` panics exactly if the standard deviation is not finite; otherwise the
entry at `(i,j,k)` is the mean plus the standard deviation times the sample drawn for it.  The mean is
not checked. -/
theorem C75_gaussian (b : Build) (rng : Nat → F32) (t : Tensor F32) (ht : t.WF) (mean sd : F32) :
    (sd.isFinite = true → ∃ t', t.fill_with_gaussian rng mean sd = .ok t' ∧ t'.WF ∧
      t'.shape = t.shape ∧ ∀ i j k, t.shape.Inside i j k → t'.get_item b (ix i j k) =
        .ok (F32.add mean (F32.mul sd (rng (pos t.shape i j k))))) ∧
    (sd.isFinite = false → t.fill_with_gaussian rng mean sd = .error .unwrap) := by
  constructor
  · intro h
    refine ⟨t.fill_with_samples fun n => F32.add mean (F32.mul sd (rng n)), ?_, ?_, rfl,
      fun i j k hin => get_item_samples ht b _ hin⟩
    · unfold Tensor.fill_with_gaussian
      rw [if_pos h]
    · exact ⟨ht.fits, ht.si, ht.sj, ht.sk, by simpa [Tensor.fill_with_samples] using ht.len⟩
  · intro h
    unfold Tensor.fill_with_gaussian
    rw [if_neg (by rw [h]; simp)]

/-- C75 applies: a tensor, a finite and an infinite standard deviation -/
example : (single ⟨0⟩).WF ∧ (⟨0x3f800000⟩ : F32).isFinite = true ∧
    (⟨0x7f800000⟩ : F32).isFinite = false := ⟨single_wf _, by decide, by decide⟩

end Rusty
