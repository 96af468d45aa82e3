import Verif.Spec.Real
import Verif.Lemmas.Order
import Mathlib.Algebra.BigOperators.Group.Finset.Basic

/-! # Helper lemmas: the real instance -/

namespace Rusty

open F32Ops Spec Exact

@[simp] theorem real_add (x y : ℝ) : F32Ops.add x y = x + y := rfl
@[simp] theorem real_mul (x y : ℝ) : F32Ops.mul x y = x * y := rfl
@[simp] theorem real_div (x y : ℝ) : F32Ops.div x y = x / y := rfl
@[simp] theorem real_zero : (F32Ops.zero : ℝ) = 0 := rfl
@[simp] theorem real_one : (F32Ops.one : ℝ) = 1 := rfl
@[simp] theorem real_negOne : (F32Ops.negOne : ℝ) = -1 := rfl
@[simp] theorem real_exp (x : ℝ) : F32Ops.exp x = Real.exp x := rfl
@[simp] theorem real_square (x : ℝ) : F32Ops.square x = x ^ 2 := rfl
@[simp] theorem real_sqrt (x : ℝ) : F32Ops.sqrt x = Real.sqrt x := rfl
@[simp] theorem real_fmax (x y : ℝ) : F32Ops.fmax x y = max x y := rfl
@[simp] theorem real_gt (x y : ℝ) : F32Ops.gt x y = true ↔ y < x := by
  simp [F32Ops.gt]
@[simp] theorem real_feq (x y : ℝ) : F32Ops.feq x y = true ↔ x = y := by
  simp [F32Ops.feq]

theorem real_gt_false (x y : ℝ) : F32Ops.gt x y = false ↔ x ≤ y := by
  simp [F32Ops.gt]

theorem sum_real (l : List ℝ) : Spec.sum l = l.sum := by
  unfold Spec.sum
  rw [List.sum_eq_foldl]
  rfl

theorem list_sum_range (n : Nat) (f : Nat → ℝ) :
    ((List.range n).map f).sum = ∑ i ∈ Finset.range n, f i := by
  rw [Finset.sum_eq_multiset_sum, Finset.range_val, Multiset.range, Multiset.map_coe,
    Multiset.sum_coe]

theorem sum_range_real (n : Nat) (f : Nat → ℝ) :
    Spec.sum ((List.range n).map f) = ∑ i ∈ Finset.range n, f i := by
  rw [sum_real, list_sum_range]

theorem list_sum_flatMap {α β : Type} (l : List α) (g : α → List β) (f : β → ℝ) :
    ((l.flatMap g).map f).sum = (l.map fun x => ((g x).map f).sum).sum := by
  induction l with
  | nil => rfl
  | cons x xs ih => rw [List.flatMap_cons, List.map_append, List.sum_append, ih]; rfl

/-- sums over the entries of a shape -/
theorem sum_indices_real (s : TensorShape) (f : Nat × Nat × Nat → ℝ) :
    Spec.sum (s.indices.map f) = ∑ k ∈ Finset.range s.dk.toNat, ∑ j ∈ Finset.range s.dj.toNat,
      ∑ i ∈ Finset.range s.di.toNat, f (i, j, k) := by
  rw [sum_real]
  unfold TensorShape.indices idx3
  rw [list_sum_flatMap, list_sum_range]
  refine Finset.sum_congr rfl fun k _ => ?_
  rw [list_sum_flatMap, list_sum_range]
  refine Finset.sum_congr rfl fun j _ => ?_
  rw [List.map_map, list_sum_range]
  rfl

/-- the reals satisfy the laws the other theorems ask for -/
theorem realOrder : F32Order ℝ where
  gt_irrefl := fun x => by rw [real_gt_false]
  gt_trans := fun x y z h1 h2 => by
    rw [real_gt] at *
    exact lt_trans h2 h1
  gt_cotrans := fun x y z h _ => by
    rw [real_gt] at h
    rw [real_gt, real_gt]
    rcases lt_or_ge z x with h' | h'
    · exact .inl h'
    · exact .inr (lt_of_lt_of_le h h')

theorem realExact : ExactAdd ℝ where
  add_assoc := fun x y z => by simp only [real_add]; exact _root_.add_assoc x y z
  add_comm := fun x y => by simp only [real_add]; exact _root_.add_comm x y
  zero_add := fun x => by simp only [real_add, real_zero]; exact _root_.zero_add x

theorem realMaxZero : MaxZero ℝ where
  fmax_zero := fun x _ => by
    rw [real_fmax, real_zero]
    by_cases h : 0 < x
    · rw [if_pos ((real_gt x 0).mpr h), max_eq_left (le_of_lt h)]
    · rw [if_neg (fun h' => h ((real_gt x 0).mp h')), max_eq_right (not_lt.mp h)]

end Rusty
