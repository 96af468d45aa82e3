import Verif.Lemmas.IEEESqrt
import Verif.Props.Equality
import Verif.Props.IEEE

/-! # C71: `get_norm` in `f32` -/

namespace Rusty

open F32Ops Spec F32

variable [Libm]

/-- C71: for fewer than `2^22` finite entries whose squares add up to at most `2^125`, `get_norm` is a
finite number that differs from the Euclidean norm by at most a relative `(n+2) 2^-23`, plus
`2 sqrt(n 2^-149)`. -/
theorem C71_accurate (t : Tensor F32) (ht : t.WF) (hn : t.shape.count < 2 ^ 22)
    (hf : ∀ i j k, t.shape.Inside i j k → (val t i j k).isFinite = true)
    (hA : (t.shape.indices.map fun p => (val t p.1 p.2.1 p.2.2).toReal ^ 2).sum ≤ 2 ^ 125) :
    t.get_norm.isFinite = true ∧ 0 ≤ t.get_norm.toReal ∧
      |t.get_norm.toReal -
          Real.sqrt (t.shape.indices.map fun p => (val t p.1 p.2.1 p.2.2).toReal ^ 2).sum| ≤
        (t.shape.count + 2) / 2 ^ 23 *
          Real.sqrt (t.shape.indices.map fun p => (val t p.1 p.2.1 p.2.2).toReal ^ 2).sum +
        2 * Real.sqrt (t.shape.count / 2 ^ 149) := by
  have e : t.get_norm = F32.sqrt (Spec.sum (t.shape.indices.map fun p =>
      F32.mul (val t p.1 p.2.1 p.2.2) (val t p.1 p.2.1 p.2.2))) := C54_norm t ht
  have hl : t.shape.indices.length = t.shape.count := indices_length _
  have hsq : (t.shape.indices.map fun p => |(val t p.1 p.2.1 p.2.2).toReal *
      (val t p.1 p.2.1 p.2.2).toReal|) =
      t.shape.indices.map fun p => (val t p.1 p.2.1 p.2.2).toReal ^ 2 := by
    apply List.map_congr_left
    intro p _
    rw [abs_mul_self, sq]
  have hsq' : (t.shape.indices.map fun p => (val t p.1 p.2.1 p.2.2).toReal *
      (val t p.1 p.2.1 p.2.2).toReal) =
      t.shape.indices.map fun p => (val t p.1 p.2.1 p.2.2).toReal ^ 2 := by
    apply List.map_congr_left
    intro p _
    rw [sq]
  have hfin := dot_finite t.shape.indices (fun p => val t p.1 p.2.1 p.2.2)
    (fun p => val t p.1 p.2.1 p.2.2) (by rw [hl]; exact hn)
    (fun p hp => ⟨hf _ _ _ (mem_indices.mp hp), hf _ _ _ (mem_indices.mp hp)⟩) (by rw [hsq]; exact hA)
  have he := (dot_error _ _ _ hfin).2
  rw [hsq, hsq', hl] at he
  have hs0 : 0 ≤ (t.shape.indices.map fun p => (val t p.1 p.2.1 p.2.2).toReal ^ 2).sum :=
    List.sum_nonneg fun x hx => by
      obtain ⟨p, _, rfl⟩ := List.mem_map.mp hx
      exact sq_nonneg _
  have he := he.trans (errBound_le (by omega) hs0)
  have hsign : (Spec.sum (t.shape.indices.map fun p =>
      F32.mul (val t p.1 p.2.1 p.2.2) (val t p.1 p.2.1 p.2.2))).sign = false := by
    have := (squares_sum (t.shape.indices.map fun p => val t p.1 p.2.1 p.2.2)).2 (fun x hx => by
      obtain ⟨p, hp, rfl⟩ := List.mem_map.mp hx
      exact finite_nan (hf _ _ _ (mem_indices.mp hp)))
    rwa [List.map_map] at this
  obtain ⟨r1, r2, r3⟩ := sqrt_error hfin hsign
  rw [← e] at r1 r2 r3
  have hS0 : 0 ≤ (Spec.sum (t.shape.indices.map fun p =>
      F32.mul (val t p.1 p.2.1 p.2.2) (val t p.1 p.2.1 p.2.2))).toReal := by
    rw [toReal_nonneg hsign]; positivity
  refine ⟨r1, by rw [toReal_nonneg r2]; positivity, ?_⟩
  change |(Spec.sum (t.shape.indices.map fun p =>
      F32.mul (val t p.1 p.2.1 p.2.2) (val t p.1 p.2.1 p.2.2))).toReal - _| ≤ _ at he
  generalize (Spec.sum (t.shape.indices.map fun p =>
      F32.mul (val t p.1 p.2.1 p.2.2) (val t p.1 p.2.1 p.2.2))).toReal = S at *
  generalize (t.shape.indices.map fun p => (val t p.1 p.2.1 p.2.2).toReal ^ 2).sum = s at *
  have hc1 : ((t.shape.count : ℝ) + 1) / 2 ^ 23 ≤ 1 := by
    rw [div_le_one (by positivity)]
    have : ((t.shape.count + 1 : Nat) : ℝ) ≤ ((2 ^ 23 : Nat) : ℝ) := by
      exact_mod_cast (by omega)
    norm_num at this ⊢
    exact this
  have root := root_error hS0 hs0 (by positivity) hc1 (by positivity) he
  have hb := Real.sqrt_nonneg s
  have hd := Real.sqrt_nonneg ((t.shape.count : ℝ) / 2 ^ 149)
  have ha := Real.sqrt_nonneg S
  generalize Real.sqrt S = A at *
  generalize Real.sqrt s = B at *
  generalize Real.sqrt ((t.shape.count : ℝ) / 2 ^ 149) = D at *
  generalize hc : ((t.shape.count : ℝ) + 1) / 2 ^ 23 = c at *
  have hc0 : 0 ≤ c := by rw [← hc]; positivity
  have e2 : ((t.shape.count : ℝ) + 2) / 2 ^ 23 = c + 1 / 2 ^ 23 := by rw [← hc]; ring
  rw [e2]
  have hA2 : A ≤ B + (c * B + D) := by
    have := (abs_le.mp root).2
    linarith
  have hcB : c * B ≤ B := by nlinarith
  have tri := abs_sub_le t.get_norm.toReal A B
  have h24 : A / 2 ^ 24 ≤ (B + (B + D)) / 2 ^ 24 := by
    apply div_le_div_of_nonneg_right _ (by positivity)
    linarith
  norm_num at h24 r3 ⊢
  linarith

/-- C71: `get_norm` is NaN exactly for tensors that contain NaN; otherwise its sign bit is not set. -/
theorem C71_nan (t : Tensor F32) (ht : t.WF) :
    (t.get_norm.isNaN = true ↔
      ∃ i j k, t.shape.Inside i j k ∧ (val t i j k).isNaN = true) ∧
    (t.get_norm.isNaN = false → t.get_norm.sign = false) := by
  have e : t.get_norm = F32.sqrt (Spec.sum ((t.shape.indices.map fun p =>
      val t p.1 p.2.1 p.2.2).map fun x => F32.mul x x)) := by
    rw [List.map_map]
    exact C54_norm t ht
  rw [e]
  have hiff : (∃ x ∈ t.shape.indices.map fun p => val t p.1 p.2.1 p.2.2, x.isNaN = true) ↔
      ∃ i j k, t.shape.Inside i j k ∧ (val t i j k).isNaN = true := by
    constructor
    · rintro ⟨x, hx, h⟩
      obtain ⟨p, hp, rfl⟩ := List.mem_map.mp hx
      exact ⟨_, _, _, mem_indices.mp hp, h⟩
    · rintro ⟨i, j, k, hin, h⟩
      exact ⟨_, List.mem_map.mpr ⟨(i, j, k), mem_indices.mpr hin, rfl⟩, h⟩
  rw [← hiff]
  generalize (t.shape.indices.map fun p => val t p.1 p.2.1 p.2.2) = l
  obtain ⟨s1, s2⟩ := squares_sum l
  by_cases h : ∃ x ∈ l, x.isNaN = true
  · have hn := s1.mpr h
    have : F32.sqrt (Spec.sum (l.map fun x => F32.mul x x)) = nan := by
      unfold F32.sqrt
      rw [hn]
      rfl
    rw [this]
    exact ⟨⟨fun _ => h, fun _ => nan_isNaN⟩, fun hc => by rw [nan_isNaN] at hc; cases hc⟩
  · have hl : ∀ x ∈ l, x.isNaN = false := fun x hx => by
      by_contra hc
      exact h ⟨x, hx, by simpa using hc⟩
    obtain ⟨q1, q2⟩ := sqrt_nan (s2 hl)
    have hn : (Spec.sum (l.map fun x => F32.mul x x)).isNaN = false := by
      by_contra hc
      exact h (s1.mp (by simpa using hc))
    exact ⟨q1.trans s1, fun _ => q2 hn⟩

theorem norm_single (x : F32) : (single x).get_norm = F32.sqrt (F32.add (mk' false 0) (F32.mul x x)) := by
  unfold Tensor.get_norm single
  rw [List.foldl_cons, List.foldl_nil]
  rfl

theorem norm_pair (x y : F32) :
    (⟨⟨1, 2, 2⟩, ⟨2, 1, 1⟩, [x, y]⟩ : Tensor F32).get_norm =
      F32.sqrt (F32.add (F32.add (mk' false 0) (F32.mul x x)) (F32.mul y y)) := by
  unfold Tensor.get_norm
  rw [List.foldl_cons, List.foldl_cons, List.foldl_nil]
  rfl

/-- C71: outside that range `get_norm` can be infinite although the norm is a small float: the norm of
the single entry `2^64` is `2^64`. -/
theorem C71_overflow : ∃ t : Tensor F32, t.WF ∧
    (∀ i j k, t.shape.Inside i j k → (val t i j k).isFinite = true) ∧
    Real.sqrt (t.shape.indices.map fun p => (val t p.1 p.2.1 p.2.2).toReal ^ 2).sum = 2 ^ 64 ∧
    t.get_norm.isInf = true := by
  have v : val (single ⟨0x5f800000⟩) 0 0 0 = ⟨0x5f800000⟩ := rfl
  have e0 : (⟨0x5f800000⟩ : F32).toReal = 2 ^ 64 := by
    unfold toReal
    rw [show (⟨0x5f800000⟩ : F32).toInt = 2 ^ 213 by decide]
    norm_num
  refine ⟨single ⟨0x5f800000⟩, single_wf _, ?_, ?_, ?_⟩
  · rintro i j k ⟨hi, hj, hk⟩
    change i < 1 at hi
    change j < 1 at hj
    change k < 1 at hk
    obtain rfl : i = 0 := by omega
    obtain rfl : j = 0 := by omega
    obtain rfl : k = 0 := by omega
    rw [v]
    decide
  · change Real.sqrt ([(0, 0, 0)].map fun p : Nat × Nat × Nat =>
      (val (single ⟨0x5f800000⟩) p.1 p.2.1 p.2.2).toReal ^ 2).sum = 2 ^ 64
    rw [List.map_singleton, List.sum_singleton]
    change Real.sqrt ((val (single ⟨0x5f800000⟩) 0 0 0).toReal ^ 2) = 2 ^ 64
    rw [v, e0, Real.sqrt_sq (by positivity)]
  · rw [norm_single]
    decide

/-- C71: and it can be 0 for a tensor that is not 0: the square of `2^-80` rounds to 0. -/
theorem C71_underflow : ∃ t : Tensor F32, t.WF ∧
    Real.sqrt (t.shape.indices.map fun p => (val t p.1 p.2.1 p.2.2).toReal ^ 2).sum = 1 / 2 ^ 80 ∧
    t.get_norm = ⟨0⟩ := by
  have v : val (single ⟨0x17800000⟩) 0 0 0 = ⟨0x17800000⟩ := rfl
  have e0 : (⟨0x17800000⟩ : F32).toReal = 1 / 2 ^ 80 := by
    unfold toReal
    rw [show (⟨0x17800000⟩ : F32).toInt = 2 ^ 69 by decide]
    norm_num
  refine ⟨single ⟨0x17800000⟩, single_wf _, ?_, ?_⟩
  · change Real.sqrt ([(0, 0, 0)].map fun p : Nat × Nat × Nat =>
      (val (single ⟨0x17800000⟩) p.1 p.2.1 p.2.2).toReal ^ 2).sum = 1 / 2 ^ 80
    rw [List.map_singleton, List.sum_singleton]
    change Real.sqrt ((val (single ⟨0x17800000⟩) 0 0 0).toReal ^ 2) = 1 / 2 ^ 80
    rw [v, e0, Real.sqrt_sq (by positivity)]
  · rw [norm_single]
    decide

/-- The assumptions of C71 can be met. -/
example : (single (⟨0x3f800000⟩ : F32)).WF ∧ (single (⟨0x3f800000⟩ : F32)).shape.count < 2 ^ 22 ∧
    (∀ i j k, (single (⟨0x3f800000⟩ : F32)).shape.Inside i j k →
      (val (single (⟨0x3f800000⟩ : F32)) i j k).isFinite = true) ∧
    ((single (⟨0x3f800000⟩ : F32)).shape.indices.map fun p =>
      (val (single (⟨0x3f800000⟩ : F32)) p.1 p.2.1 p.2.2).toReal ^ 2).sum ≤ 2 ^ 125 := by
  have v : val (single (⟨0x3f800000⟩ : F32)) 0 0 0 = ⟨0x3f800000⟩ := rfl
  have e0 : (⟨0x3f800000⟩ : F32).toReal = 1 := by
    unfold toReal
    rw [show (⟨0x3f800000⟩ : F32).toInt = 2 ^ 149 by decide]
    norm_num
  refine ⟨single_wf _, ?_, ?_, ?_⟩
  · change (1 : Nat) < 2 ^ 22
    decide
  · rintro i j k ⟨hi, hj, hk⟩
    change i < 1 at hi
    change j < 1 at hj
    change k < 1 at hk
    obtain rfl : i = 0 := by omega
    obtain rfl : j = 0 := by omega
    obtain rfl : k = 0 := by omega
    rw [v]
    decide
  · change ([(0, 0, 0)].map fun p : Nat × Nat × Nat =>
      (val (single (⟨0x3f800000⟩ : F32)) p.1 p.2.1 p.2.2).toReal ^ 2).sum ≤ 2 ^ 125
    rw [List.map_singleton, List.sum_singleton]
    change (val (single (⟨0x3f800000⟩ : F32)) 0 0 0).toReal ^ 2 ≤ 2 ^ 125
    rw [v, e0]
    norm_num

/-- The root is rounded: the norm of `(1, 1)` is `0x3fb504f3`, the binary32 number nearest to the root
of 2. -/
example : (⟨⟨1, 2, 2⟩, ⟨2, 1, 1⟩, [⟨0x3f800000⟩, ⟨0x3f800000⟩]⟩ : Tensor F32).get_norm =
    ⟨0x3fb504f3⟩ := by
  rw [norm_pair, show F32.add (F32.add (mk' false 0) (F32.mul ⟨0x3f800000⟩ ⟨0x3f800000⟩))
    (F32.mul ⟨0x3f800000⟩ ⟨0x3f800000⟩) = ⟨0x40000000⟩ by decide]
  have e : F32.sqrt ⟨0x40000000⟩ = mk' false (sqrtCode (units 0x40000000)) := by
    unfold F32.sqrt
    rw [if_neg (by decide), if_neg (by decide), if_neg (by decide), if_neg (by decide)]
    rfl
  have r1 : Nat.sqrt (units 0x40000000 * 2 ^ 149) =
      1009216521945237994791381332037992686769626072 :=
    (Nat.eq_sqrt'.mpr (by decide)).symm
  have r2 : Nat.sqrt (units 0x40000000 * 2 ^ 149 / 4 ^ 126) = 11863283 :=
    (Nat.eq_sqrt'.mpr (by decide)).symm
  rw [e]
  unfold sqrtCode
  simp only
  rw [r1, show excess 1009216521945237994791381332037992686769626072 = 126 by decide, r2]
  decide

end Rusty
