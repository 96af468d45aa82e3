import Verif.Spec.Uniform
import Verif.Lemmas.Uniform
import Verif.Props.Random

/-! # C135: random numbers are spread evenly between the bounds -/

namespace Rusty

open F32Ops Spec F32

variable [Libm]

/-- C135, own words: the number at every place depends on the random word drawn for it and on nothing else, in the same
way at every place of every tensor. -/
theorem C135_entries (lo hi : F32) (h : UniformBounds lo hi) : ∃ f, Entries lo hi f := by
  obtain ⟨h1, h2, h3, h4⟩ := h
  have hle : F32.le lo hi = true := by
    unfold F32.le
    rw [finite_nan h1, finite_nan h2]
    simpa using key_le_real.mpr h3
  refine ⟨fun w => UniformFloat.sample ⟨lo, UniformFloat.shrink lo hi
    ((F32.div (F32.sub hi lo) UniformFloat.max_rand).bits.toNat + 1)
    (F32.div (F32.sub hi lo) UniformFloat.max_rand)⟩ w, fun b rng t ht =>
    ⟨t.fill_with_samples fun n => UniformFloat.sample ⟨lo, UniformFloat.shrink lo hi
    ((F32.div (F32.sub hi lo) UniformFloat.max_rand).bits.toNat + 1)
    (F32.div (F32.sub hi lo) UniformFloat.max_rand)⟩ (rng n), ?_, fun i j k hin => get_item_samples ht b _ hin⟩⟩
  unfold Tensor.fill_with_uniform UniformFloat.new_inclusive
  rw [if_neg (fun hc => hc.2 ⟨h1, h2⟩), if_neg (fun hc => hc hle)]
  simp only
  rw [if_neg (fun hc => hc h4)]
  rfl

/-- the function of `Entries` -/
theorem entries_eq {lo hi : F32} (h : UniformBounds lo hi) {f : UInt32 → F32} (hf : Entries lo hi f) (w : UInt32) :
    f w = UniformFloat.sample ⟨lo, UniformFloat.shrink lo hi
      ((F32.div (F32.sub hi lo) UniformFloat.max_rand).bits.toNat + 1)
      (F32.div (F32.sub hi lo) UniformFloat.max_rand)⟩ w := by
  obtain ⟨h1, h2, h3, h4⟩ := h
  have hle : F32.le lo hi = true := by
    unfold F32.le
    rw [finite_nan h1, finite_nan h2]
    simpa using key_le_real.mpr h3
  obtain ⟨t', e, h⟩ := hf .debug (fun _ => w) (single ⟨0⟩) (single_wf _)
  have e' : (single ⟨0⟩ : Tensor F32).fill_with_uniform .debug (fun _ => w) lo hi =
      .ok ((single ⟨0⟩ : Tensor F32).fill_with_samples fun _ => UniformFloat.sample ⟨lo, UniformFloat.shrink lo hi
      ((F32.div (F32.sub hi lo) UniformFloat.max_rand).bits.toNat + 1)
      (F32.div (F32.sub hi lo) UniformFloat.max_rand)⟩ w) := by
    unfold Tensor.fill_with_uniform UniformFloat.new_inclusive
    rw [if_neg (fun hc => hc.2 ⟨h1, h2⟩), if_neg (fun hc => hc hle)]
    simp only
    rw [if_neg (fun hc => hc h4)]
    rfl
  rw [e'] at e
  cases e
  have hin : (single ⟨0⟩ : Tensor F32).shape.Inside 0 0 0 := ⟨by decide, by decide, by decide⟩
  have := h 0 0 0 hin
  rw [get_item_samples (single_wf _) .debug _ hin] at this
  exact (Except.ok.inj this).symm

/-- C135, values: with `m` the first 23 bits of the word, the number is `lo + m / (2^23 - 1) (hi - lo)` up to rounding.
So the `2^23` numbers that can come out, each of them from `2^9` words, lie evenly from `lo` to `hi`. -/
theorem C135_values (lo hi : F32) (h : UniformBounds lo hi) (f : UInt32 → F32) (hf : Entries lo hi f) (w : UInt32) :
    |(f w).toReal - (lo.toReal + ((w.toNat / 2 ^ 9 : Nat) : ℝ) / (2 ^ 23 - 1) * (hi.toReal - lo.toReal))| ≤
      uniformError lo hi := by
  rw [entries_eq h hf]
  obtain ⟨h1, h2, h3, h4⟩ := h
  have hk := key_le_real.mpr h3
  obtain ⟨g1, g2, g3⟩ := UniformFloat.shrink_exits h1 hk _ _ h4
    (UniformFloat.scale_nonneg h1 h2 hk h4) (Nat.lt_succ_self _)
  exact UniformFloat.sample_close h1 h2 hk h4 _ _ rfl g2 g3 g1 w

/-- C135, order: a word with larger first 23 bits makes no smaller number, and a word with the same makes the same. -/
theorem C135_order (lo hi : F32) (h : UniformBounds lo hi) (f : UInt32 → F32) (hf : Entries lo hi f) (w w' : UInt32)
    (hw : w.toNat / 2 ^ 9 ≤ w'.toNat / 2 ^ 9) : (f w).toReal ≤ (f w').toReal := by
  rw [entries_eq h hf, entries_eq h hf]
  obtain ⟨h1, h2, h3, h4⟩ := h
  have hk := key_le_real.mpr h3
  obtain ⟨g1, g2, g3⟩ := UniformFloat.shrink_exits h1 hk _ _ h4
    (UniformFloat.scale_nonneg h1 h2 hk h4) (Nat.lt_succ_self _)
  exact key_le_real.mp (UniformFloat.sample_mono h1 g2 g3 hw)

open Classical in
/-- C135, distribution: among all random words, the fraction of those that make a number up to `t` is the fraction of the
interval up to `t`, but for the rounding error. -/
theorem C135_distribution (lo hi : F32) (h : UniformBounds lo hi) (hlt : lo.toReal < hi.toReal) (f : UInt32 → F32)
    (hf : Entries lo hi f) (t : ℝ) (h1 : lo.toReal ≤ t) (h2 : t ≤ hi.toReal) :
    |fraction (fun w => (f w).toReal ≤ t) - (t - lo.toReal) / (hi.toReal - lo.toReal)| ≤
      uniformError lo hi / (hi.toReal - lo.toReal) + 1 / 2 ^ 23 := by
  have hv : ∀ w, w < 2 ^ 32 → |(f (UInt32.ofNat w)).toReal -
      (lo.toReal + ((w / 2 ^ 9 : Nat) : ℝ) / (2 ^ 23 - 1) * (hi.toReal - lo.toReal))| ≤ uniformError lo hi := by
    intro w hw
    have := C135_values lo hi h f hf (UInt32.ofNat w)
    rwa [UInt32.toNat_ofNat_of_lt' hw] at this
  have := UniformFloat.fraction_close (sub_pos.mpr hlt) (by unfold uniformError; positivity) hv h1 (by linarith)
  unfold fraction
  convert this using 6

/-- C135, average: the average over all random words is the middle of the interval, but for the rounding error. -/
theorem C135_average (lo hi : F32) (h : UniformBounds lo hi) (f : UInt32 → F32) (hf : Entries lo hi f) :
    |average (fun w => (f w).toReal) - (lo.toReal + hi.toReal) / 2| ≤ uniformError lo hi := by
  have := UniformFloat.average_close (g := fun w => (f (UInt32.ofNat w)).toReal) (x := lo.toReal)
    (d := hi.toReal - lo.toReal) (e := uniformError lo hi) (P := 2 ^ 9) (K := 2 ^ 23) (by decide) (by decide) (by
      intro w hw
      have := C135_values lo hi h f hf (UInt32.ofNat w)
      rw [UInt32.toNat_ofNat_of_lt' (by omega)] at this
      rw [Nat.cast_pow, Nat.cast_ofNat]
      exact this)
  rw [show 2 ^ 9 * 2 ^ 23 = 2 ^ 32 by decide, Nat.cast_pow, Nat.cast_pow, Nat.cast_ofNat, ← pow_add] at this
  rw [show (lo.toReal + hi.toReal) / 2 = lo.toReal + (hi.toReal - lo.toReal) / 2 by ring]
  exact this

/-- C135 applies: with bounds -1 and 1 the error of the distribution is below one millionth. -/
example : ∃ lo hi : F32, UniformBounds lo hi ∧ lo.toReal = -1 ∧ hi.toReal = 1 ∧
    uniformError lo hi / (hi.toReal - lo.toReal) + 1 / 2 ^ 23 < 1 / 10 ^ 6 := by
  have e1 : (⟨0xbf800000⟩ : F32).toReal = -1 := by
    rw [toReal_eq, show (⟨0xbf800000⟩ : F32).sign = true by decide,
      show (⟨0xbf800000⟩ : F32).code = 127 * 2 ^ 23 by decide, units_one]
    norm_num
  have e2 : (⟨0x3f800000⟩ : F32).toReal = 1 := by
    rw [toReal_eq, show (⟨0x3f800000⟩ : F32).sign = false by decide,
      show (⟨0x3f800000⟩ : F32).code = 127 * 2 ^ 23 by decide, units_one]
    norm_num
  refine ⟨⟨0xbf800000⟩, ⟨0x3f800000⟩, ⟨by decide, by decide, by rw [e1, e2]; norm_num, by decide⟩, e1, e2, ?_⟩
  unfold uniformError
  rw [e1, e2]
  norm_num

end Rusty
