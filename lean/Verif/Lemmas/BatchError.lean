import Verif.Lemmas.IEEESum
import Verif.Lemmas.IEEEIdle
import Verif.Lemmas.IEEEScaling

/-! # Lemmas for C127: sums of finite floats -/

namespace Rusty

open F32Ops Spec F32

variable [Libm]

omit [Libm] in
/-- floats without magnitude are zero -/
theorem code_zero_toReal {x : F32} (h : x.code = 0) : x.toReal = 0 := by
  rw [toReal_eq, h, units_zero]
  simp

omit [Libm] in
/-- adding a float to zero does not change it -/
theorem zero_add_toReal {x z : F32} (hz : z.code = 0) (h : (F32.add z x).isFinite = true) :
    x.isFinite = true ∧ (F32.add z x).toReal = x.toReal := by
  obtain ⟨_, hx⟩ := finite_of_add h
  refine ⟨hx, ?_⟩
  have hs := add_zero_same hx hz
  have hf : (F32.add x z).isFinite = true := by
    rcases hs with e | ⟨e, _⟩
    · rw [e]; exact hx
    · unfold F32.isFinite
      rw [e]
      decide
  have : (F32.add x z).toReal = x.toReal := by
    rcases hs with e | ⟨e1, e2⟩
    · rw [e]
    · rw [code_zero_toReal e1, code_zero_toReal e2]
  rw [← this, add_finite_eq h, add_finite_eq hf, Int.add_comm]

/-- a sum of finite floats whose absolute values are small does not overflow -/
theorem sum_finite (l : List F32) (hl : l.length < 2 ^ 22) (hf : ∀ x ∈ l, x.isFinite = true)
    (hs : (l.map fun x => |x.toReal|).sum ≤ 2 ^ 126) : (Spec.sum l).isFinite = true := by
  induction l using List.reverseRecOn with
  | nil =>
    change (mk' false 0).isFinite = true
    decide
  | append_singleton l x ih =>
    rw [List.length_append, List.length_singleton] at hl
    simp only [List.map_append, List.map_cons, List.map_nil, List.sum_append, List.sum_cons, List.sum_nil,
      add_zero] at hs
    have h0 : 0 ≤ (l.map fun x => |x.toReal|).sum := List.sum_nonneg fun y hy => by
      obtain ⟨z, _, rfl⟩ := List.mem_map.mp hy
      exact abs_nonneg _
    have hS := ih (by omega) (fun y hy => hf y (List.mem_append_left _ hy)) (by linarith [abs_nonneg x.toReal])
    have he := (sum_error l hS).2
    have ha := abs_sum_le l toReal
    have hp := pow_le_linear (m := l.length) (by omega)
    have hu : 2 * (l.length : ℝ) * u ≤ 1 / 2 := by
      have : (l.length : ℝ) ≤ 2 ^ 22 := by exact_mod_cast (by omega : l.length ≤ 2 ^ 22)
      unfold u
      rw [mul_one_div, div_le_iff₀ (by positivity)]
      rw [show (1 / 2 * 2 ^ 24 : ℝ) = 2 * 2 ^ 22 by norm_num]
      linarith
    generalize (1 + u) ^ l.length = P at he hp
    generalize 2 * (l.length : ℝ) * u = Q at hp hu
    rw [sum_append_singleton]
    refine add_finite hS (hf x (by simp)) ?_
    have e1 : |(Spec.sum l).toReal| ≤ (1 + 1 / 2) * (l.map fun x => |x.toReal|).sum := by
      have h1 : (P - 1) * (l.map fun x => |x.toReal|).sum ≤
          1 / 2 * (l.map fun x => |x.toReal|).sum := mul_le_mul_of_nonneg_right (by linarith) h0
      have h2 : |(Spec.sum l).toReal| ≤ |(Spec.sum l).toReal - (l.map toReal).sum| + |(l.map toReal).sum| := by
        have := abs_add_le ((Spec.sum l).toReal - (l.map toReal).sum) (l.map toReal).sum
        rwa [sub_add_cancel] at this
      linarith
    refine (abs_add_le _ _).trans ?_
    have h3 : (2 : ℝ) ^ 127 = 2 * 2 ^ 126 := by norm_num
    rw [h3]
    linarith [abs_nonneg x.toReal]

/-- summing floats that are near given numbers -/
theorem sum_near {ι : Type} (l : List ι) (f : ι → F32) (D ε : ι → ℝ) (hl : l.length < 2 ^ 22)
    (hf : ∀ x ∈ l, (f x).isFinite = true ∧ |(f x).toReal - D x| ≤ ε x) :
    ((l.map fun x => |D x| + ε x).sum ≤ 2 ^ 126 → (Spec.sum (l.map f)).isFinite = true) ∧
    ((Spec.sum (l.map f)).isFinite = true → |(Spec.sum (l.map f)).toReal - (l.map D).sum| ≤
      (l.map ε).sum + l.length / 2 ^ 23 * (l.map fun x => |D x| + ε x).sum) := by
  have hle : ((l.map f).map fun x => |x.toReal|).sum ≤ (l.map fun x => |D x| + ε x).sum := by
    rw [List.map_map]
    refine List.sum_le_sum fun x hx => ?_
    have := abs_add_le ((f x).toReal - D x) (D x)
    rw [sub_add_cancel] at this
    change |(f x).toReal| ≤ _
    linarith [(hf x hx).2]
  refine ⟨fun hs => sum_finite (l.map f) (by rw [List.length_map]; exact hl)
    (fun y hy => by
      obtain ⟨x, hx, rfl⟩ := List.mem_map.mp hy
      exact (hf x hx).1) (hle.trans hs), fun hfin => ?_⟩
  have he := (sum_error _ hfin).2
  rw [List.length_map] at he
  have h0 : 0 ≤ ((l.map f).map fun x => |x.toReal|).sum := List.sum_nonneg fun y hy => by
    obtain ⟨z, _, rfl⟩ := List.mem_map.mp hy
    exact abs_nonneg _
  have hp := pow_le_linear (m := l.length) (by omega)
  have hu : 2 * (l.length : ℝ) * u = l.length / 2 ^ 23 := by
    unfold u
    ring
  rw [hu] at hp
  generalize (1 + u) ^ l.length = P at he hp
  have h1 : (P - 1) * ((l.map f).map fun x => |x.toReal|).sum ≤
      l.length / 2 ^ 23 * (l.map fun x => |D x| + ε x).sum :=
    mul_le_mul (by linarith) hle h0 (by positivity)
  have h2 : |((l.map f).map toReal).sum - (l.map D).sum| ≤ (l.map ε).sum := by
    have h : ((l.map f).map toReal).sum - (l.map D).sum = (l.map fun x => (f x).toReal - D x).sum := by
      clear hf hle hfin he h0 h1 hl hp hu
      induction l with
      | nil => simp
      | cons x l ih =>
        simp only [List.map_cons, List.sum_cons]
        rw [← ih]
        ring
    rw [h]
    exact (abs_sum_le l _).trans (List.sum_le_sum fun x hx => (hf x hx).2)
  have h3 := abs_add_le ((Spec.sum (l.map f)).toReal - ((l.map f).map toReal).sum)
    (((l.map f).map toReal).sum - (l.map D).sum)
  rw [sub_add_sub_cancel] at h3
  linarith

end Rusty
