import Verif.Spec.ReadOff
import Verif.Lemmas.Balance
import Verif.Lemmas.Folding
import Verif.Lemmas.IEEEIdentity
import Verif.Lemmas.IEEENetwork

/-! # Helper lemmas: what predictions say about parameters -/

namespace Rusty

open Spec Exact

/-- an affine function is determined by its positive part, unless it is nowhere positive -/
theorem positive_part_unique {ι : Type} [DecidableEq ι] (S : Finset ι) (w w' : ι → ℝ) (c c' : ℝ)
    (h : ∀ v : ι → ℝ, max ((∑ i ∈ S, w i * v i) + c) 0 = max ((∑ i ∈ S, w' i * v i) + c') 0) :
    (∀ i, i ∈ S → w i = w' i) ∧ c = c' ∨
    ((∀ i, i ∈ S → w i = 0) ∧ c ≤ 0) ∧ ((∀ i, i ∈ S → w' i = 0) ∧ c' ≤ 0) := by
  have shift : ∀ (u : ι → ℝ) (v : ι → ℝ) (i : ι) (e : ℝ), i ∈ S →
      ∑ m ∈ S, u m * (v m + if m = i then e else 0) = (∑ m ∈ S, u m * v m) + u i * e := by
    intro u v i e hi
    simp only [mul_add, Finset.sum_add_distrib, mul_ite, mul_zero]
    rw [Finset.sum_ite_eq' S i fun m => u m * e, if_pos hi]
  have silent : ∀ (u : ι → ℝ) (d : ℝ), (∀ v : ι → ℝ, (∑ i ∈ S, u i * v i) + d ≤ 0) →
      (∀ i, i ∈ S → u i = 0) ∧ d ≤ 0 := by
    intro u d hu
    have hd : d ≤ 0 := by simpa using hu fun _ => 0
    refine ⟨fun i hi => ?_, hd⟩
    by_contra hne
    have := hu fun m => 0 + if m = i then (1 - d) / u i else 0
    rw [shift u (fun _ => 0) i _ hi, mul_div_cancel₀ _ hne] at this
    simp only [mul_zero, Finset.sum_const_zero] at this
    linarith
  by_cases hp : ∃ v : ι → ℝ, 0 < (∑ i ∈ S, w i * v i) + c
  · left
    obtain ⟨v, hv⟩ := hp
    have agree : ∀ u : ι → ℝ, 0 < (∑ i ∈ S, w i * u i) + c →
        (∑ i ∈ S, w i * u i) + c = (∑ i ∈ S, w' i * u i) + c' := by
      intro u hu
      have := h u
      rw [max_eq_left hu.le] at this
      rcases max_choice ((∑ i ∈ S, w' i * u i) + c') 0 with e | e
      · rw [this, e]
      · rw [e] at this
        linarith
    have hw : ∀ i, i ∈ S → w i = w' i := by
      intro i hi
      set P := (∑ i ∈ S, w i * v i) + c with hP
      set e := P / (2 * (|w i| + 1)) with he
      have ha : 0 < |w i| + 1 := by positivity
      have he0 : 0 < e := by positivity
      have hlt : |w i * e| < P := by
        rw [abs_mul, abs_of_pos he0, he, mul_div_assoc', div_lt_iff₀ (by positivity)]
        nlinarith [abs_nonneg (w i)]
      have h1 := agree v hv
      have h2 := agree (fun m => v m + if m = i then e else 0) (by
        rw [shift w v i e hi]
        linarith [(abs_lt.mp hlt).1])
      rw [shift w v i e hi, shift w' v i e hi] at h2
      have : w i * e = w' i * e := by linarith
      exact mul_right_cancel₀ he0.ne' this
    refine ⟨hw, ?_⟩
    have := agree v hv
    rw [Finset.sum_congr rfl fun i hi => by rw [hw i hi]] at this
    linarith
  · right
    push Not at hp
    refine ⟨silent w c hp, silent w' c' fun v => ?_⟩
    have := h v
    rw [max_eq_right (hp v)] at this
    rw [this]
    exact le_max_left _ _

theorem conv_real (x kernel : Tensor ℝ) (s i j : Nat) :
    conv x kernel s i j = ∑ p ∈ kernel.shape.indices.toFinset,
      val kernel p.1 p.2.1 p.2.2 * val x (i * s + p.1) (j * s + p.2.1) p.2.2 := by
  unfold conv
  rw [sum_real, List.sum_toFinset _ (indices_nodup _)]
  exact congrArg List.sum (List.map_congr_left fun p _ => mul_comm _ _)

namespace F32

variable [Libm]

/-- a unit without bias answers an input with one entry `±1` by the positive part of one weight, with its sign -/
theorem act_unit_input (m : NetworkRunState) (l : FullyConnectedLayer F32) (x : Tensor F32) (o i : Nat)
    (hi : i < l.weights.shape.dj.toNat) {v : F32} (hv : v.isFinite = true) {c : F32} (hc : c.isFinite = true)
    (hw : ∀ m, m < l.weights.shape.dj.toNat → (val l.weights o m 0).isFinite = true)
    (hb : (val l.bias o 0 0).code = 0)
    (hx : ∀ m, m < l.weights.shape.dj.toNat → val x m 0 0 = if m = i then v else ⟨0⟩)
    (hcv : (val l.weights o i 0).toReal * v.toReal = c.toReal) :
    (act m (preact l x o)).isFinite = true ∧ (act m (preact l x o)).toReal = max 0 c.toReal := by
  have hz : (⟨0⟩ : F32).isFinite = true := by decide
  have hz0 : (⟨0⟩ : F32).toReal = 0 := toReal_zero
  obtain ⟨s1, s2⟩ := dot_single (List.range l.weights.shape.dj.toNat) List.nodup_range (fun m => val l.weights o m 0)
    (fun m => val x m 0 0) i hc (fun m hm => by
      have hm := List.mem_range.mp hm
      rw [hx m hm]
      by_cases e : m = i
      · subst e
        rw [if_pos rfl, if_pos rfl]
        exact ⟨hw _ hm, hv, hcv⟩
      · rw [if_neg e, if_neg e]
        exact ⟨hw _ hm, hz, by rw [hz0, mul_zero]⟩)
  have hbf : (val l.bias o 0 0).isFinite = true := finite_iff.mpr (by rw [hb]; decide)
  have hb0 : (val l.bias o 0 0).toReal = 0 := by rw [toReal_eq, hb, units_zero]; simp
  have h := add_rounds s1 hbf
  rw [s2, if_pos (List.mem_range.mpr hi), hb0, add_zero] at h
  obtain ⟨q1, q2⟩ := rounds_exact h hc rfl
  rw [act_relu m (summed_preact _ _ _)]
  obtain ⟨_, _, r3⟩ := relu_spec (preact l x o)
  obtain ⟨t1, t2⟩ := r3 q1
  exact ⟨t1, by rw [t2]; exact congrArg (max 0) q2⟩

end F32

end Rusty
