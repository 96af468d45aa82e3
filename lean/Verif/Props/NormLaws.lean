import Verif.Props.Norm
import Verif.Lemmas.NormLaws

/-! # C156: the laws of norms, and which of them survive rounding -/

namespace Rusty

open F32Ops Spec

section
open Exact

/-- C156: in exact arithmetic the norm of a sum is at most the sum of the norms. -/
theorem C156_triangle (t u out : Tensor ℝ) (ht : t.WF) (hu : u.WF) (ho : out.WF) (hs : t.shape = u.shape)
    (hs' : t.shape = out.shape) : (Tensor.add t u out).get_norm ≤ t.get_norm + u.get_norm := by
  obtain ⟨w, s, v⟩ := add_ok ht hu ho hs hs'
  rw [norm_idx w, norm_idx ht, norm_idx hu, s, ← hs', ← hs]
  have e : ∑ p ∈ idxSet t.shape, val (Tensor.add t u out) p.2.2 p.2.1 p.1 ^ 2 =
      ∑ p ∈ idxSet t.shape, val t p.2.2 p.2.1 p.1 ^ 2 +
        2 * ∑ p ∈ idxSet t.shape, val t p.2.2 p.2.1 p.1 * val u p.2.2 p.2.1 p.1 +
        ∑ p ∈ idxSet t.shape, val u p.2.2 p.2.1 p.1 ^ 2 := by
    rw [Finset.mul_sum, ← Finset.sum_add_distrib, ← Finset.sum_add_distrib]
    refine Finset.sum_congr rfl fun p hp => ?_
    rw [v _ _ _ (hs' ▸ mem_idxSet.mp hp)]
    change (val t p.2.2 p.2.1 p.1 + val u p.2.2 p.2.1 p.1) ^ 2 = _
    ring
  rw [e]
  have a0 : 0 ≤ ∑ p ∈ idxSet t.shape, val t p.2.2 p.2.1 p.1 ^ 2 := Finset.sum_nonneg fun _ _ => sq_nonneg _
  have b0 : 0 ≤ ∑ p ∈ idxSet t.shape, val u p.2.2 p.2.1 p.1 ^ 2 := Finset.sum_nonneg fun _ _ => sq_nonneg _
  have cs := Finset.sum_mul_sq_le_sq_mul_sq (idxSet t.shape) (fun p => val t p.2.2 p.2.1 p.1)
    fun p => val u p.2.2 p.2.1 p.1
  generalize ∑ p ∈ idxSet t.shape, val t p.2.2 p.2.1 p.1 ^ 2 = a at *
  generalize ∑ p ∈ idxSet t.shape, val u p.2.2 p.2.1 p.1 ^ 2 = c at *
  generalize ∑ p ∈ idxSet t.shape, val t p.2.2 p.2.1 p.1 * val u p.2.2 p.2.1 p.1 = d at *
  have h1 : d ≤ Real.sqrt a * Real.sqrt c := by
    rw [← Real.sqrt_mul a0]
    exact Real.le_sqrt_of_sq_le cs
  refine Real.sqrt_le_iff.mpr ⟨by positivity, ?_⟩
  have h2 := Real.sq_sqrt a0
  have h3 := Real.sq_sqrt b0
  nlinarith

/-- C156: in exact arithmetic no entry exceeds the norm, and the norm of `n` entries of size at most `m` is at most
`sqrt n * m`. -/
theorem C156_entries (t : Tensor ℝ) (ht : t.WF) :
    (∀ i j k, t.shape.Inside i j k → |val t i j k| ≤ t.get_norm) ∧
    ∀ m, 0 ≤ m → (∀ i j k, t.shape.Inside i j k → |val t i j k| ≤ m) → t.get_norm ≤ Real.sqrt t.shape.count * m := by
  rw [norm_idx ht]
  constructor
  · intro i j k h
    rw [← Real.sqrt_sq_eq_abs]
    exact Real.sqrt_le_sqrt (Finset.single_le_sum (f := fun p : Nat × Nat × Nat => val t p.2.2 p.2.1 p.1 ^ 2)
      (fun _ _ => sq_nonneg _) (mem_idxSet.mpr h : (k, j, i) ∈ idxSet t.shape))
  · intro m hm h
    have hcard : (idxSet t.shape).card = t.shape.count := by
      unfold idxSet
      rw [Finset.card_product, Finset.card_product, Finset.card_range, Finset.card_range, Finset.card_range]
      unfold TensorShape.count
      ring
    rw [show m = Real.sqrt (m ^ 2) from (Real.sqrt_sq hm).symm, ← Real.sqrt_mul (by positivity)]
    refine Real.sqrt_le_sqrt ?_
    refine (Finset.sum_le_card_nsmul _ _ (m ^ 2) fun p hp => ?_).trans (by rw [hcard, nsmul_eq_mul])
    rw [← sq_abs]
    exact pow_le_pow_left₀ (abs_nonneg _) (h _ _ _ (mem_idxSet.mp hp)) 2

/-- tensors with different entries can be added -/
example : ∃ t u : Tensor ℝ, t.WF ∧ u.WF ∧ t.shape = u.shape ∧ val t 0 0 0 = 3 ∧ val u 0 0 0 = -4 ∧
    t.shape.Inside 0 0 0 :=
  ⟨{ (zeros ⟨1, 1, 1⟩ : Tensor ℝ) with data := [3] }, { (zeros ⟨1, 1, 1⟩ : Tensor ℝ) with data := [-4] },
    wf_data (zeros_wf (by decide)) _ rfl, wf_data (zeros_wf (by decide)) _ rfl, rfl, rfl, rfl, by decide⟩

end

open F32

variable [Libm]

/-- C156: in `f32`, if no entry of `u` is smaller in size than the entry of `t` at its place, then the norm of `u` is not
smaller than that of `t`, as long as both are finite. -/
theorem C156_monotone (t u : Tensor F32) (ht : t.WF) (hu : u.WF) (hs : t.shape = u.shape)
    (hft : t.get_norm.isFinite = true) (hfu : u.get_norm.isFinite = true)
    (h : ∀ i j k, t.shape.Inside i j k → (val t i j k).code ≤ (val u i j k).code) :
    F32.gt t.get_norm u.get_norm = false := by
  rw [C54_norm t ht] at hft ⊢
  rw [C54_norm u hu, ← hs] at hfu ⊢
  replace hft : (F32.sqrt (Spec.sum (t.shape.indices.map fun p =>
    F32.mul (val t p.1 p.2.1 p.2.2) (val t p.1 p.2.1 p.2.2)))).isFinite = true := hft
  replace hfu : (F32.sqrt (Spec.sum (t.shape.indices.map fun p =>
    F32.mul (val u p.1 p.2.1 p.2.2) (val u p.1 p.2.1 p.2.2)))).isFinite = true := hfu
  change F32.gt (F32.sqrt (Spec.sum (t.shape.indices.map fun p =>
      F32.mul (val t p.1 p.2.1 p.2.2) (val t p.1 p.2.1 p.2.2))))
    (F32.sqrt (Spec.sum (t.shape.indices.map fun p => F32.mul (val u p.1 p.2.1 p.2.2) (val u p.1 p.2.1 p.2.2)))) = false
  have f1 := finite_of_sqrt hft
  have f2 := finite_of_sqrt hfu
  have n1 := squares_nonneg _ f1
  have n2 := squares_nonneg _ f2
  have hm : (Spec.sum (t.shape.indices.map fun p =>
      F32.mul (val t p.1 p.2.1 p.2.2) (val t p.1 p.2.1 p.2.2))).toReal ≤
      (Spec.sum (t.shape.indices.map fun p => F32.mul (val u p.1 p.2.1 p.2.2) (val u p.1 p.2.1 p.2.2))).toReal := by
    refine foldl_add_mono _ _ _ _ f1 f2 fun p hp g1 g2 => mul_mono_real g1 g2 ?_
    have := (Nat.cast_le (α := ℝ)).mpr (units_le.mpr (h _ _ _ (mem_indices.mp hp)))
    rw [← sq, ← sq, toReal_sq, toReal_sq]
    gcongr
  refine Bool.eq_false_iff.mpr fun hgt => ?_
  exact absurd (rounds_mono (sqrt_rounds f1 n1) (sqrt_rounds f2 n2) hft hfu (Real.sqrt_le_sqrt hm))
    (not_le.mpr ((gt_real hft hfu).mp hgt))

theorem norm_three (x y z : F32) :
    (⟨⟨1, 3, 3⟩, ⟨3, 1, 1⟩, [x, y, z]⟩ : Tensor F32).get_norm =
      F32.sqrt (F32.add (F32.add (F32.add (mk' false 0) (F32.mul x x)) (F32.mul y y)) (F32.mul z z)) := by
  unfold Tensor.get_norm
  rw [List.foldl_cons, List.foldl_cons, List.foldl_cons, List.foldl_nil]
  rfl

/-- C156: in `f32` the norm of a sum can exceed the sum of the norms, although the entries are small whole numbers, and
the order of the entries matters: (1,1) + (6,6) = (7,7), and 5120, 3, 3 against 3, 3, 5120. -/
theorem C156_rounding :
    (∃ t u : Tensor F32, t.WF ∧ u.WF ∧ t.shape = u.shape ∧
      F32.gt (Tensor.add t u t).get_norm (F32.add t.get_norm u.get_norm) = true) ∧
    ∃ x y z : F32, F32.gt (⟨⟨1, 3, 3⟩, ⟨3, 1, 1⟩, [z, y, x]⟩ : Tensor F32).get_norm
      (⟨⟨1, 3, 3⟩, ⟨3, 1, 1⟩, [x, y, z]⟩ : Tensor F32).get_norm = true := by
  have w : ∀ v v' : F32, (⟨⟨1, 2, 2⟩, ⟨2, 1, 1⟩, [v, v']⟩ : Tensor F32).WF := fun v v' =>
    wf_data (zeros_wf (F := F32) (s := ⟨2, 1, 1⟩) (by decide)) [v, v'] rfl
  constructor
  · refine ⟨⟨⟨1, 2, 2⟩, ⟨2, 1, 1⟩, [⟨0x3f800000⟩, ⟨0x3f800000⟩]⟩,
      ⟨⟨1, 2, 2⟩, ⟨2, 1, 1⟩, [⟨0x40c00000⟩, ⟨0x40c00000⟩]⟩, w _ _, w _ _, rfl, ?_⟩
    have e : ∀ a c d f : F32, Tensor.add (⟨⟨1, 2, 2⟩, ⟨2, 1, 1⟩, [a, c]⟩ : Tensor F32) ⟨⟨1, 2, 2⟩, ⟨2, 1, 1⟩, [d, f]⟩
        ⟨⟨1, 2, 2⟩, ⟨2, 1, 1⟩, [a, c]⟩ = ⟨⟨1, 2, 2⟩, ⟨2, 1, 1⟩, [F32.add a d, F32.add c f]⟩ := fun _ _ _ _ => rfl
    rw [e, norm_pair, norm_pair, norm_pair]
    decide +kernel
  · refine ⟨⟨0x45a00000⟩, ⟨0x40400000⟩, ⟨0x40400000⟩, ?_⟩
    rw [norm_three, norm_three]
    decide +kernel

/-! ## Non-vacuity -/

/-- (3, -1) and (-4, 1) -/
example : let t : Tensor F32 := ⟨⟨1, 2, 2⟩, ⟨2, 1, 1⟩, [⟨0x40400000⟩, ⟨0xbf800000⟩]⟩
    let u : Tensor F32 := ⟨⟨1, 2, 2⟩, ⟨2, 1, 1⟩, [⟨0xc0800000⟩, ⟨0x3f800000⟩]⟩
    t.WF ∧ u.WF ∧ t.get_norm.isFinite = true ∧ u.get_norm.isFinite = true ∧
    (val t 0 0 0).code ≤ (val u 0 0 0).code ∧ (val t 1 0 0).code ≤ (val u 1 0 0).code := by
  intro t u
  have w : ∀ v v' : F32, (⟨⟨1, 2, 2⟩, ⟨2, 1, 1⟩, [v, v']⟩ : Tensor F32).WF := fun v v' =>
    wf_data (zeros_wf (F := F32) (s := ⟨2, 1, 1⟩) (by decide)) [v, v'] rfl
  rw [show t.get_norm = _ from norm_pair _ _, show u.get_norm = _ from norm_pair _ _]
  refine ⟨w _ _, w _ _, by decide +kernel, by decide +kernel, ?_, ?_⟩
  · change (⟨0x40400000⟩ : F32).code ≤ (⟨0xc0800000⟩ : F32).code
    decide +kernel
  · change (⟨0xbf800000⟩ : F32).code ≤ (⟨0x3f800000⟩ : F32).code
    decide +kernel

end Rusty
