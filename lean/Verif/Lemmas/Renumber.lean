import Verif.Spec.Renumber
import Verif.Lemmas.Robust
import Mathlib.Algebra.BigOperators.Group.List.Basic
import Mathlib.Data.List.Perm.Subperm

/-! # Helper lemmas: renumbered units -/

namespace Rusty

open F32Ops Spec F32

theorem renumbers_perm {n : Nat} {σ : Nat → Nat} (h : Renumbers n σ) :
    ((List.range n).map σ).Perm (List.range n) := by
  have hn : ((List.range n).map σ).Nodup := by
    refine List.Nodup.map_on (fun x hx y hy e => ?_) List.nodup_range
    exact h.2 x y (List.mem_range.mp hx) (List.mem_range.mp hy) e
  have hs : (List.range n).map σ ⊆ List.range n := by
    intro x hx
    obtain ⟨y, hy, rfl⟩ := List.mem_map.mp hx
    exact List.mem_range.mpr (h.1 y (List.mem_range.mp hy))
  exact (hn.subperm hs).perm_of_length_le (by simp)

/-- a sum over all units does not depend on their numbers -/
theorem renumbers_sum {n : Nat} {σ : Nat → Nat} (h : Renumbers n σ) (f : Nat → ℝ) :
    ((List.range n).map fun i => f (σ i)).sum = ((List.range n).map f).sum := by
  have := ((renumbers_perm h).map f).sum_eq
  rwa [List.map_map] at this

variable [Libm]

/-- a distance of 0 stays 0 -/
theorem accuracy_gain {ls : List (AnyLayer F32)} {M e M' e' : ℝ} (hA : Accuracy ls M e M' e') :
    Gain ls 0 0 := by
  induction hA with
  | nil => exact .nil 0
  | fc l ls A B M e M' e' _ hb hA0 _ _ _ _ ih =>
    exact .fc l ls A 0 0 (fun o ho => (hb o ho).2.1) hA0 (by rw [mul_zero]; exact ih)
  | conv l ls n A B M e M' e' hk _ hA0 _ _ _ _ ih =>
    exact .conv l ls A 0 0 (fun k hm => (hk k hm).2.2) hA0 (by rw [mul_zero]; exact ih)
  | mp l ls M e M' e' h1 h2 _ ih => exact .mp l ls 0 0 h1 h2 ih
  | sm l ls M e M' e' _ _ _ _ ih => exact .sm l ls 0 0 (by simpa using ih)

theorem accuracy_drop {pre ls : List (AnyLayer F32)} : ∀ {M e M' e' : ℝ},
    Accuracy (pre ++ ls) M e M' e' → ∃ M1 e1, Accuracy ls M1 e1 M' e' := by
  induction pre with
  | nil => exact fun h => ⟨_, _, h⟩
  | cons l pre ih =>
    intro M e M' e' h
    cases h with
    | fc _ _ _ _ _ _ _ _ _ _ _ _ _ _ h => exact ih h
    | conv _ _ _ _ _ _ _ _ _ _ _ _ _ _ _ h => exact ih h
    | mp _ _ _ _ _ _ _ _ h => exact ih h
    | sm _ _ _ _ _ _ _ _ _ h => exact ih h

/-- In exact arithmetic, renumbered hidden units give the same outputs of the second layer. -/
theorem exact_renumbered {σ : Nat → Nat} {l1 l1' l2 l2' : FullyConnectedLayer F32}
    (hσ : Renumbers l1.weights.shape.di.toNat σ) (h1 : RowsBy σ l1 l1') (h2 : ColumnsBy σ l2 l2')
    (hs : l2.weights.shape.dj = l1.weights.shape.di) (x : Nat → Nat → Nat → ℝ) {o : Nat}
    (ho : o < l2.weights.shape.di.toNat) (j k : Nat) :
    exactLayer (.fc l2') (exactLayer (.fc l1') x) o j k =
      exactLayer (.fc l2) (exactLayer (.fc l1) x) o j k := by
  have hy : ∀ i, i < l1.weights.shape.di.toNat → ∀ j k, exactLayer (.fc l1') x i j k =
      exactLayer (.fc l1) x (σ i) j k := by
    intro i hi j k
    simp only [exactLayer]
    rw [h1.bias i hi, h1.shape]
    congr 3
    refine List.map_congr_left fun m hm => ?_
    rw [h1.weights i m hi (List.mem_range.mp hm)]
  rw [show exactLayer (.fc l2') (exactLayer (.fc l1') x) o j k =
    max 0 (((List.range l2'.weights.shape.dj.toNat).map fun i =>
      (val l2'.weights o i 0).toReal * exactLayer (.fc l1') x i 0 0).sum + (val l2'.bias o 0 0).toReal)
    from rfl, show exactLayer (.fc l2) (exactLayer (.fc l1) x) o j k =
    max 0 (((List.range l2.weights.shape.dj.toNat).map fun i =>
      (val l2.weights o i 0).toReal * exactLayer (.fc l1) x i 0 0).sum + (val l2.bias o 0 0).toReal)
    from rfl, h2.bias, h2.shape]
  rw [hs]
  rw [← renumbers_sum hσ fun i => (val l2.weights o i 0).toReal * exactLayer (.fc l1) x i 0 0]
  congr 3
  refine List.map_congr_left fun m hm => ?_
  have hm := List.mem_range.mp hm
  rw [h2.weights o m ho (by rw [hs]; exact hm), hy m hm]

end Rusty
