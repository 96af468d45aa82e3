import Verif.Spec.Toy
import Verif.Props.TensorAccess
import Verif.Lemmas.Real
import Mathlib.Algebra.Order.BigOperators.Group.Finset
import Mathlib.Algebra.BigOperators.Ring.Finset

/-! # C53, C54: tensor equality and norm -/

namespace Rusty

open F32Ops Spec

variable {F : Type} [F32Ops F]

/-! ## C53 -/

/-- C53: well formed tensors are `==` exactly when they have the same shape and `get_item` returns
`==` values at every inside index. -/
theorem C53_eq_iff (b : Build) (t u : Tensor F) (ht : t.WF) (hu : u.WF) :
    t.eq u = true ↔ t.shape = u.shape ∧ ∀ i j k, t.shape.Inside i j k →
      ∃ x y, t.get_item b (ix i j k) = .ok x ∧ u.get_item b (ix i j k) = .ok y ∧
        feq x y = true := by
  rw [eq_true_iff]
  by_cases hs : t.shape = u.shape
  · have hlen : t.data.length = u.data.length := by rw [ht.len, hu.len, hs]
    rw [List.all_eq_true]
    constructor
    · rintro ⟨_, _, h⟩
      refine ⟨hs, fun i j k hin => ⟨_, _, get_item_ok ht hin, get_item_ok hu (hs ▸ hin), ?_⟩⟩
      have hp := pos_lt_len ht hin
      have hp' : pos t.shape i j k < u.data.length := by rw [← hlen]; exact hp
      refine h (val t i j k, val u i j k) ?_
      have e1 : val t i j k = t.data[pos t.shape i j k] := by
        unfold val; rw [List.getElem?_eq_getElem hp]; rfl
      have e2 : val u i j k = u.data[pos t.shape i j k] := by
        unfold val; rw [← hs, List.getElem?_eq_getElem hp']; rfl
      rw [e1, e2]
      exact List.mem_iff_getElem.mpr ⟨pos t.shape i j k, by simp [hp, hp'], by simp⟩
    · rintro ⟨_, h⟩
      refine ⟨hs, hlen, fun p hp => ?_⟩
      obtain ⟨n, hn, rfl⟩ := List.mem_iff_getElem.mp hp
      have hn1 : n < t.data.length := by simp at hn; omega
      have hn2 : n < u.data.length := by omega
      obtain ⟨i, j, k, h1, h2, h3, h4⟩ := lin_surj (show n < _ from by rw [ht.len] at hn1; exact hn1)
      have hin : t.shape.Inside i j k := ⟨h1, h2, h3⟩
      obtain ⟨x, y, g1, g2, g3⟩ := h i j k hin
      rw [get_item_ok ht hin] at g1
      rw [get_item_ok hu (hs ▸ hin)] at g2
      cases g1
      cases g2
      have e1 : val t i j k = t.data[n] := by
        unfold val; rw [show pos t.shape i j k = n from h4.symm, List.getElem?_eq_getElem hn1]; rfl
      have e2 : val u i j k = u.data[n] := by
        unfold val
        rw [← hs, show pos t.shape i j k = n from h4.symm, List.getElem?_eq_getElem hn2]; rfl
      rw [e1, e2] at g3
      simpa using g3
  · simp [hs]

/-- C53: `!=` is the negation of `==`. -/
theorem C53_ne (t u : Tensor F) : t.ne u = true ↔ t.eq u = false := by
  unfold Tensor.ne
  cases t.eq u <;> simp

/-- C53: tensor equality is symmetric when float equality is, also for tensors that are not well
formed. -/
theorem C53_symm (hf : ∀ x y : F, feq x y = feq y x) (t u : Tensor F) : t.eq u = u.eq t := by
  have hz : ∀ l m : List F, (l.zip m).all (fun p => feq p.1 p.2) =
      (m.zip l).all (fun p => feq p.1 p.2) := by
    intro l
    induction l with
    | nil => intro m; cases m <;> rfl
    | cons x xs ih =>
      intro m
      cases m with
      | nil => rfl
      | cons y ys => simp only [List.zip_cons_cons, List.all_cons, ih ys, hf x y]
  rw [Bool.eq_iff_iff, eq_true_iff, eq_true_iff, hz t.data u.data]
  exact ⟨fun h => ⟨h.1.symm, h.2.1.symm, h.2.2⟩, fun h => ⟨h.1.symm, h.2.1.symm, h.2.2⟩⟩

/-- C53: a tensor equals itself exactly when every entry does, i.e. when it contains no NaN. -/
theorem C53_refl (t : Tensor F) : t.eq t = true ↔ ∀ x ∈ t.data, feq x x = true := by
  have hz : ∀ l : List F, (l.zip l).all (fun p => feq p.1 p.2) = l.all fun x => feq x x := by
    intro l
    induction l with
    | nil => rfl
    | cons x xs ih => simp only [List.zip_cons_cons, List.all_cons, ih]
  unfold Tensor.eq
  rw [hz]
  simp

/-- C53: tensor equality is transitive when float equality is. -/
theorem C53_trans (hf : ∀ x y z : F, feq x y = true → feq y z = true → feq x z = true)
    (t u v : Tensor F) (h1 : t.eq u = true) (h2 : u.eq v = true) : t.eq v = true := by
  have hz : ∀ l m n : List F, l.length = m.length → m.length = n.length →
      (l.zip m).all (fun p => feq p.1 p.2) = true → (m.zip n).all (fun p => feq p.1 p.2) = true →
      (l.zip n).all (fun p => feq p.1 p.2) = true := by
    intro l
    induction l with
    | nil => intros; rfl
    | cons x xs ih =>
      intro m n e1 e2 a1 a2
      cases m with
      | nil => cases e1
      | cons y ys =>
        cases n with
        | nil => cases e2
        | cons z zs =>
          simp only [List.zip_cons_cons, List.all_cons, Bool.and_eq_true] at a1 a2 ⊢
          exact ⟨hf x y z a1.1 a2.1, ih ys zs (by simpa using e1) (by simpa using e2) a1.2 a2.2⟩
  rw [eq_true_iff] at *
  exact ⟨h1.1.trans h2.1, h1.2.1.trans h2.2.1, hz _ _ _ h1.2.1 h2.2.1 h1.2.2 h2.2.2⟩

open Toy in
example : (⟨⟨1, 2, 2⟩, ⟨2, 1, 1⟩, [4, 5]⟩ : Tensor Int).eq ⟨⟨1, 2, 2⟩, ⟨2, 1, 1⟩, [4, 5]⟩ = true ∧
    (⟨⟨1, 2, 2⟩, ⟨2, 1, 1⟩, [4, 5]⟩ : Tensor Int).eq ⟨⟨1, 2, 2⟩, ⟨2, 1, 1⟩, [4, 6]⟩ = false := by
  decide

/-! ## C54 -/

/-- C54: `get_norm` is the square root of the sum, in storage order, of the squares of the entries. -/
theorem C54_norm (t : Tensor F) (ht : t.WF) :
    t.get_norm = sqrt (sum (t.shape.indices.map fun p => square (val t p.1 p.2.1 p.2.2))) := by
  unfold Tensor.get_norm Spec.sum
  conv_lhs => rw [data_indices ht]
  rw [List.foldl_map, List.foldl_map]

open Toy in
example : (⟨⟨1, 2, 2⟩, ⟨2, 1, 1⟩, [3, 4]⟩ : Tensor Int).get_norm = 25 := by decide

open Exact in
/-- C54: in exact arithmetic `get_norm` is the Euclidean norm: the root of the sum of squares, never
negative, and 0 exactly for tensors all of whose entries are 0. -/
theorem C54_exact (t : Tensor ℝ) (ht : t.WF) :
    t.get_norm ^ 2 = ∑ k ∈ Finset.range t.shape.dk.toNat, ∑ j ∈ Finset.range t.shape.dj.toNat,
      ∑ i ∈ Finset.range t.shape.di.toNat, val t i j k ^ 2 ∧
    0 ≤ t.get_norm ∧
    (t.get_norm = 0 ↔ ∀ i j k, t.shape.Inside i j k → val t i j k = 0) := by
  have hn : (0 : ℝ) ≤ ∑ k ∈ Finset.range t.shape.dk.toNat, ∑ j ∈ Finset.range t.shape.dj.toNat,
      ∑ i ∈ Finset.range t.shape.di.toNat, val t i j k ^ 2 :=
    Finset.sum_nonneg fun k _ => Finset.sum_nonneg fun j _ => Finset.sum_nonneg fun i _ => sq_nonneg _
  rw [C54_norm t ht, sum_indices_real]
  simp only [real_square, real_sqrt]
  refine ⟨Real.sq_sqrt hn, Real.sqrt_nonneg _, ?_⟩
  rw [Real.sqrt_eq_zero hn, Finset.sum_eq_zero_iff_of_nonneg fun k _ =>
    Finset.sum_nonneg fun j _ => Finset.sum_nonneg fun i _ => sq_nonneg _]
  constructor
  · intro h i j k hin
    have h1 := h k (Finset.mem_range.mpr hin.2.2)
    rw [Finset.sum_eq_zero_iff_of_nonneg fun j _ => Finset.sum_nonneg fun i _ => sq_nonneg _] at h1
    have h2 := h1 j (Finset.mem_range.mpr hin.2.1)
    rw [Finset.sum_eq_zero_iff_of_nonneg fun i _ => sq_nonneg _] at h2
    exact pow_eq_zero_iff (two_ne_zero) |>.mp (h2 i (Finset.mem_range.mpr hin.1))
  · intro h k hk
    refine Finset.sum_eq_zero fun j hj => Finset.sum_eq_zero fun i hi => ?_
    rw [h i j k ⟨Finset.mem_range.mp hi, Finset.mem_range.mp hj, Finset.mem_range.mp hk⟩]
    exact zero_pow two_ne_zero

open Exact in
example : ∃ t : Tensor ℝ, t.WF ∧ t.shape = ⟨2, 3, 1⟩ := ⟨zeros ⟨2, 3, 1⟩, zeros_wf (by decide), rfl⟩

open Exact in
/-- C54: in exact arithmetic scaling a tensor by `c` scales its norm by `|c|`. -/
theorem C54_scale (t : Tensor ℝ) (ht : t.WF) (c : ℝ) :
    (t.scale_self c).get_norm = |c| * t.get_norm := by
  have hw : (t.scale_self c).WF := wf_data ht _ (by simp)
  have hs : (t.scale_self c).shape = t.shape := rfl
  rw [C54_norm _ hw, C54_norm t ht, sum_indices_real, sum_indices_real, hs]
  simp only [real_square, real_sqrt]
  rw [← Real.sqrt_sq_eq_abs, ← Real.sqrt_mul (sq_nonneg c)]
  congr 1
  rw [Finset.mul_sum]
  refine Finset.sum_congr rfl fun k hk => ?_
  rw [Finset.mul_sum]
  refine Finset.sum_congr rfl fun j hj => ?_
  rw [Finset.mul_sum]
  refine Finset.sum_congr rfl fun i hi => ?_
  have := val_map ht (fun x => F32Ops.mul x c)
    (⟨Finset.mem_range.mp hi, Finset.mem_range.mp hj, Finset.mem_range.mp hk⟩ :
      t.shape.Inside i j k)
  unfold Tensor.scale_self
  rw [this, real_mul]
  ring

end Rusty
