import Verif.Spec.Layers
import Verif.Lemmas.Tensor
import Mathlib.Algebra.BigOperators.Group.List.Basic

set_option linter.unusedSectionVars false

/-! # Helper lemmas: storage order, exact sums -/

namespace Rusty

open F32Ops Spec

variable {F : Type} [F32Ops F]

theorem summed_foldl (l : List F) (s : F) (h : Summed s) : Summed (l.foldl add s) := by
  induction l generalizing s with
  | nil => exact h
  | cons a l ih => exact ih _ (.add _ _ h)

theorem summed_sum (l : List F) : Summed (Spec.sum l) := summed_foldl l zero .zero

theorem summed_preact (l : FullyConnectedLayer F) (x : Tensor F) (o : Nat) :
    Summed (preact l x o) := .add _ _ (summed_sum _)

theorem summed_convPre (l : ConvolutionalLayer F) (x : Tensor F) (i j k : Nat) :
    Summed (convPre l x i j k) := by
  unfold convPre
  split
  · exact .add _ _ (summed_sum _)
  · exact .zero

theorem mem_indices {s : TensorShape} {i j k : Nat} : (i, j, k) ∈ s.indices ↔ s.Inside i j k :=
  mem_idx3

theorem range_mul_eq (a b : Nat) : List.range (a * b) =
    (List.range b).flatMap fun j => (List.range a).map fun i => i + a * j := by
  induction b with
  | zero => simp
  | succ b ih =>
    rw [Nat.mul_succ, List.range_add, ih, List.range_succ, List.flatMap_append]
    simp [Nat.add_comm]

/-- storage order is the order of `indices` -/
theorem pos_indices (s : TensorShape) :
    s.indices.map (fun x => pos s x.1 x.2.1 x.2.2) = List.range s.count := by
  unfold TensorShape.indices idx3 TensorShape.count pos
  rw [range_mul_eq (s.di.toNat * s.dj.toNat) s.dk.toNat, List.map_flatMap]
  congr 1
  funext k
  rw [range_mul_eq, List.map_flatMap, List.map_flatMap]
  congr 1
  funext j
  rw [List.map_map, List.map_map]
  apply List.map_congr_left
  intro i _
  rfl

theorem indices_length (s : TensorShape) : s.indices.length = s.count := by
  have := congrArg List.length (pos_indices s)
  simpa using this

/-- a vector as long as a shape, listed by index -/
theorem list_indices {α : Type} (s : TensorShape) (l : List α) (d : α) (h : l.length = s.count) :
    l = s.indices.map fun x => l[pos s x.1 x.2.1 x.2.2]?.getD d := by
  have e : l = (List.range s.count).map fun p => l[p]?.getD d := by
    apply List.ext_getElem
    · simp [h]
    · intro n h1 h2
      simp [List.getElem?_eq_getElem h1]
  conv_lhs => rw [e, ← pos_indices, List.map_map]
  rfl

theorem data_indices {t : Tensor F} (h : t.WF) :
    t.data = t.shape.indices.map fun x => val t x.1 x.2.1 x.2.2 :=
  list_indices t.shape t.data zero h.len

theorem indices_nodup (s : TensorShape) : s.indices.Nodup := by
  have : (s.indices.map (fun x => pos s x.1 x.2.1 x.2.2)).Nodup := by
    rw [pos_indices]; exact List.nodup_range
  exact List.Pairwise.of_map _ (fun a b h e => h (by rw [e])) this

/-- exact addition as a Mathlib structure -/
@[reducible] def exactMonoid (F : Type) [F32Ops F] [ExactAdd F] : AddCommMonoid F where
  add := F32Ops.add
  zero := F32Ops.zero
  add_assoc := ExactAdd.add_assoc
  zero_add := ExactAdd.zero_add
  add_zero := fun x => (ExactAdd.add_comm x zero).trans (ExactAdd.zero_add x)
  add_comm := ExactAdd.add_comm
  nsmul := @nsmulRec F ⟨F32Ops.zero⟩ ⟨F32Ops.add⟩
  nsmul_zero := fun _ => rfl
  nsmul_succ := fun _ _ => rfl

theorem sum_single {M : Type} [AddCommMonoid M] (N d : Nat) (v : M) (h : d < N) :
    ((List.range N).map fun p => if d = p then v else 0).sum = v := by
  induction N with
  | zero => omega
  | succ N ih =>
    rw [List.range_succ, List.map_append, List.sum_append]
    by_cases e : d = N
    · subst e
      have : ((List.range d).map fun p => if d = p then v else 0) =
          (List.range d).map fun _ => 0 := by
        apply List.map_congr_left
        intro p hp
        have := List.mem_range.mp hp
        rw [if_neg (by omega)]
      rw [this]
      simp
    · rw [ih (by omega)]
      simp [e]

theorem sum_eq_list_sum [ExactAdd F] (l : List F) :
    Spec.sum l = @List.sum F (exactMonoid F).toAdd (exactMonoid F).toZero l := by
  let := exactMonoid F
  unfold Spec.sum
  rw [List.sum_eq_foldl]
  rfl

/-- distributing the entries of a list over their destinations keeps the total -/
theorem sum_scatter [ExactAdd F] {α : Type} (L : List α) (N : Nat) (dest : α → Nat) (g : α → F)
    (h : ∀ x ∈ L, dest x < N) :
    Spec.sum ((List.range N).map fun p => Spec.sum ((L.filter fun x => dest x = p).map g)) =
      Spec.sum (L.map g) := by
  let := exactMonoid F
  simp only [sum_eq_list_sum]
  induction L with
  | nil => simp
  | cons x L ih =>
    have ih := ih (fun y hy => h y (List.mem_cons_of_mem _ hy))
    have e : ∀ p, (((x :: L).filter fun x => decide (dest x = p)).map g).sum =
        (if dest x = p then g x else 0) + ((L.filter fun x => decide (dest x = p)).map g).sum := by
      intro p
      rw [List.filter_cons]
      by_cases hp : dest x = p
      · simp [hp]
      · simp [hp]
    simp only [e]
    rw [List.sum_map_add, ih, List.map_cons, List.sum_cons]
    congr 1
    exact sum_single _ _ _ (h x (List.mem_cons_self ..))

theorem filter_zipIdx_indices {α : Type} (s : TensorShape) (o : List α) (d : α)
    (ho : o.length = s.count) (P : α → Prop) [DecidablePred P] (f : Nat → F)
    (g : Nat → Nat → Nat → F) (hf : ∀ i j k, f (pos s i j k) = g i j k) :
    (o.zipIdx.filter (fun e => P e.1)).map (fun e => f e.2) =
      (s.indices.filter fun x => P (o[pos s x.1 x.2.1 x.2.2]?.getD d)).map
        fun x => g x.1 x.2.1 x.2.2 := by
  have e : o.zipIdx = s.indices.map fun x =>
      (o[pos s x.1 x.2.1 x.2.2]?.getD d, pos s x.1 x.2.1 x.2.2) := by
    have e1 : o.zipIdx = (List.range s.count).map fun p => (o[p]?.getD d, p) := by
      apply List.ext_getElem
      · simp [ho]
      · intro n h1 h2
        have : n < o.length := by simpa using h1
        simp [List.getElem?_eq_getElem this]
    rw [e1, ← pos_indices, List.map_map]
    rfl
  rw [e, List.filter_map, List.map_map]
  apply List.map_congr_left
  intro x _
  exact hf ..

end Rusty
