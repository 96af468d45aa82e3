import Verif.Spec.Toy
import Verif.Spec.Derivative
import Mathlib.Algebra.BigOperators.Field
import Verif.Lemmas.Real
import Verif.Lemmas.Softmax
import Verif.Props.TensorAccess

/-! # C24: softmax -/

namespace Rusty

open F32Ops Spec

/-! ## C24 -/

open Exact in
/-- the sum of exponentials is positive for tensors that are not empty -/
theorem sum_exp_pos {x : Tensor ℝ} {i j k : Nat} (h : x.shape.Inside i j k) :
    0 < total x.shape fun i j k => Real.exp (val x i j k) := by
  unfold total
  refine Finset.sum_pos (fun k _ => Finset.sum_pos (fun j _ => Finset.sum_pos
    (fun i _ => Real.exp_pos _) ?_) ?_) ?_
  · exact ⟨i, Finset.mem_range.mpr h.1⟩
  · exact ⟨j, Finset.mem_range.mpr h.2.1⟩
  · exact ⟨k, Finset.mem_range.mpr h.2.2⟩

open Exact in
theorem softmax_real {x out : Tensor ℝ} (hx : x.WF) (ho : out.WF) (hs : x.shape = out.shape) :
    ∃ y, Tensor.softmax x out = .ok y ∧ y.WF ∧ y.shape = out.shape ∧
      ∀ i j k, out.shape.Inside i j k → val y i j k =
        Real.exp (val x i j k) / total x.shape fun i j k => Real.exp (val x i j k) := by
  obtain ⟨y, h1, h2, h3, h4⟩ := softmax_ok hx ho hs
  refine ⟨y, h1, h2, h3, fun i j k h => ?_⟩
  rw [h4 i j k h]
  unfold softmaxAt
  rw [sum_indices_real]
  rfl

open Exact in
/-- C24: in exact arithmetic `softmax` writes the normalised exponential of the input: strictly
positive numbers that sum to 1. -/
theorem C24_distribution (b : Build) (x out : Tensor ℝ) (hx : x.WF) (ho : out.WF)
    (hs : x.shape = out.shape) (hne : 0 < x.shape.count) :
    ∃ y, Tensor.softmax x out = .ok y ∧ y.WF ∧ y.shape = out.shape ∧
      (∀ i j k, out.shape.Inside i j k → ∃ v, y.get_item b (ix i j k) = .ok v ∧ 0 < v ∧ v ≤ 1 ∧
        v = Real.exp (val x i j k) / total x.shape fun i j k => Real.exp (val x i j k)) ∧
      (total y.shape fun i j k => val y i j k) = 1 := by
  obtain ⟨y, h1, h2, h3, h4⟩ := softmax_real hx ho hs
  obtain ⟨i0, j0, k0, hi, hj, hk, _⟩ := lin_surj hne
  have hpos := sum_exp_pos (x := x) ⟨hi, hj, hk⟩
  refine ⟨y, h1, h2, h3, fun i j k hin => ?_, ?_⟩
  · refine ⟨_, get_item_ok h2 (h3 ▸ hin), ?_, ?_, h4 i j k hin⟩
    · rw [h4 i j k hin]
      exact div_pos (Real.exp_pos _) hpos
    · rw [h4 i j k hin, div_le_one hpos]
      have hin' : x.shape.Inside i j k := hs ▸ hin
      unfold total
      calc Real.exp (val x i j k)
          ≤ ∑ i ∈ Finset.range x.shape.di.toNat, Real.exp (val x i j k) :=
            Finset.single_le_sum (f := fun i => Real.exp (val x i j k))
              (fun _ _ => (Real.exp_pos _).le) (Finset.mem_range.mpr hin'.1)
        _ ≤ ∑ j ∈ Finset.range x.shape.dj.toNat, ∑ i ∈ Finset.range x.shape.di.toNat,
              Real.exp (val x i j k) :=
            Finset.single_le_sum (f := fun j => ∑ i ∈ Finset.range x.shape.di.toNat,
              Real.exp (val x i j k))
              (fun _ _ => Finset.sum_nonneg fun _ _ => (Real.exp_pos _).le)
              (Finset.mem_range.mpr hin'.2.1)
        _ ≤ _ :=
            Finset.single_le_sum (f := fun k => ∑ j ∈ Finset.range x.shape.dj.toNat,
              ∑ i ∈ Finset.range x.shape.di.toNat, Real.exp (val x i j k))
              (fun _ _ => Finset.sum_nonneg fun _ _ => Finset.sum_nonneg fun _ _ =>
                (Real.exp_pos _).le) (Finset.mem_range.mpr hin'.2.2)
  · rw [h3, ← hs]
    have : (total x.shape fun i j k => val y i j k) = total x.shape fun i j k =>
        Real.exp (val x i j k) / total x.shape fun i j k => Real.exp (val x i j k) := by
      unfold total
      refine Finset.sum_congr rfl fun k hk => Finset.sum_congr rfl fun j hj =>
        Finset.sum_congr rfl fun i hi => ?_
      exact h4 i j k (hs ▸ ⟨Finset.mem_range.mp hi, Finset.mem_range.mp hj, Finset.mem_range.mp hk⟩)
    rw [this]
    have e : ∀ c : ℝ, (total x.shape fun i j k => Real.exp (val x i j k) / c) =
        (total x.shape fun i j k => Real.exp (val x i j k)) / c := by
      intro c
      unfold total
      simp only [Finset.sum_div]
    rw [e, div_self hpos.ne']

open Exact in
example : ∃ x : Tensor ℝ, x.WF ∧ 0 < x.shape.count :=
  ⟨zeros ⟨2, 3, 1⟩, zeros_wf (by decide), by decide⟩

open Exact in
/-- C24: in exact arithmetic `softmax` preserves the order of the entries, strictly. -/
theorem C24_order (x out y : Tensor ℝ) (hx : x.WF) (ho : out.WF) (hs : x.shape = out.shape)
    (h : Tensor.softmax x out = .ok y) (i j k i' j' k' : Nat) (hi : x.shape.Inside i j k)
    (hi' : x.shape.Inside i' j' k') :
    (val y i j k < val y i' j' k' ↔ val x i j k < val x i' j' k') ∧
    (val y i j k = val y i' j' k' ↔ val x i j k = val x i' j' k') := by
  obtain ⟨y', h1, _, _, h4⟩ := softmax_real hx ho hs
  rw [h] at h1
  cases h1
  rw [h4 i j k (hs ▸ hi), h4 i' j' k' (hs ▸ hi')]
  have hpos := sum_exp_pos hi
  constructor
  · rw [div_lt_div_iff_of_pos_right hpos, Real.exp_lt_exp]
  · rw [div_left_inj' hpos.ne', Real.exp_eq_exp]

open Exact in
/-- C24: in exact arithmetic adding a constant to all entries does not change what `softmax` writes. -/
theorem C24_shift (x x' out : Tensor ℝ) (c : ℝ) (hx : x.WF) (hx' : x'.WF) (ho : out.WF)
    (hs : x.shape = out.shape) (hs' : x'.shape = out.shape)
    (hc : ∀ i j k, x.shape.Inside i j k → val x' i j k = val x i j k + c) :
    ∃ y, Tensor.softmax x out = .ok y ∧ Tensor.softmax x' out = .ok y := by
  obtain ⟨y, h1, h2, h3, h4⟩ := softmax_real hx ho hs
  obtain ⟨y', h1', h2', h3', h4'⟩ := softmax_real hx' ho hs'
  have e : y' = y := by
    refine tensor_ext h2' h2 (h3'.trans h3.symm) fun i j k hin => ?_
    rw [h3'] at hin
    rw [h4 i j k hin, h4' i j k hin, hc i j k (hs ▸ hin)]
    have : (total x'.shape fun i j k => Real.exp (val x' i j k)) =
        (total x.shape fun i j k => Real.exp (val x i j k)) * Real.exp c := by
      rw [hs', ← hs]
      unfold total
      simp only [Finset.sum_mul]
      refine Finset.sum_congr rfl fun k hk => Finset.sum_congr rfl fun j hj =>
        Finset.sum_congr rfl fun i hi => ?_
      rw [hc i j k ⟨Finset.mem_range.mp hi, Finset.mem_range.mp hj, Finset.mem_range.mp hk⟩,
        Real.exp_add]
    rw [this, Real.exp_add, mul_div_mul_right _ _ (Real.exp_pos c).ne']
  exact ⟨y, h1, e ▸ h1'⟩

/-- C24: whatever the arithmetic, a shape mismatch leaves the output as it is. -/
theorem C24_mismatch {F : Type} [F32Ops F] (x out : Tensor F) (hs : x.shape ≠ out.shape) :
    Tensor.softmax x out = .ok out := softmax_mismatch x out hs

/-- C24: whatever the arithmetic, `softmax` writes `exp(x) / sum of exp`, the sum taken in storage
order. -/
theorem C24_formula {F : Type} [F32Ops F] (b : Build) (x out : Tensor F) (hx : x.WF) (ho : out.WF)
    (hs : x.shape = out.shape) :
    ∃ y, Tensor.softmax x out = .ok y ∧ y.WF ∧ y.shape = out.shape ∧
      ∀ i j k, out.shape.Inside i j k → y.get_item b (ix i j k) = .ok (softmaxAt x i j k) := by
  obtain ⟨y, h1, h2, h3, h4⟩ := softmax_ok hx ho hs
  refine ⟨y, h1, h2, h3, fun i j k h => ?_⟩
  rw [get_item_ok h2 (h3 ▸ h), h4 i j k h]

open Toy in
example : Tensor.softmax (⟨⟨1, 2, 2⟩, ⟨2, 1, 1⟩, [0, 2]⟩ : Tensor Int)
    ⟨⟨1, 2, 2⟩, ⟨2, 1, 1⟩, [7, 7]⟩ = .ok ⟨⟨1, 2, 2⟩, ⟨2, 1, 1⟩, [0, 0]⟩ := rfl

end Rusty
