import Verif.Lemmas.Tensor

set_option linter.unusedSectionVars false

/-! # Helper lemmas: elementwise loops -/

namespace Rusty

open F32Ops Spec

variable {F : Type} [F32Ops F]

theorem zipUpdate_eq {G : Type} (f : F → G → F) (rs : List F) (xs : List G)
    (h : rs.length = xs.length) : zipUpdate f rs xs = List.zipWith f rs xs := by
  induction rs generalizing xs with
  | nil => cases xs <;> rfl
  | cons r rs ih =>
    cases xs with
    | nil => simp at h
    | cons x xs => simp only [zipUpdate, List.zipWith_cons_cons]; rw [ih xs (by simpa using h)]

theorem zipAssign2_eq (f : F → F → F) (rs xs ys : List F) (h1 : rs.length = xs.length)
    (h2 : rs.length = ys.length) : zipAssign2 f rs xs ys = List.zipWith f xs ys := by
  induction rs generalizing xs ys with
  | nil =>
    cases xs with
    | nil => rfl
    | cons x xs => simp at h1
  | cons r rs ih =>
    cases xs with
    | nil => simp at h1
    | cons x xs =>
      cases ys with
      | nil => simp at h2
      | cons y ys =>
        simp only [zipAssign2, List.zipWith_cons_cons]
        rw [ih xs ys (by simpa using h1) (by simpa using h2)]

theorem zipUpdate_length {G : Type} (f : F → G → F) (rs : List F) (xs : List G) :
    (zipUpdate f rs xs).length = rs.length := by
  induction rs generalizing xs with
  | nil => cases xs <;> rfl
  | cons r rs ih =>
    cases xs with
    | nil => rfl
    | cons x xs => simp [zipUpdate, ih]

theorem zipAssign2_length (f : F → F → F) (rs xs ys : List F) :
    (zipAssign2 f rs xs ys).length = rs.length := by
  induction rs generalizing xs ys with
  | nil => rfl
  | cons r rs ih =>
    cases xs with
    | nil => rfl
    | cons x xs =>
      cases ys with
      | nil => rfl
      | cons y ys => simp [zipAssign2, ih]

theorem reluZip_length (xs ms : List F) :
    (Tensor.reluZip xs ms).1.length = xs.length ∧ (Tensor.reluZip xs ms).2.length = ms.length := by
  induction xs generalizing ms with
  | nil => cases ms <;> exact ⟨rfl, rfl⟩
  | cons x xs ih =>
    cases ms with
    | nil => exact ⟨rfl, rfl⟩
    | cons m ms =>
      have := ih ms
      simp only [Tensor.reluZip]
      split <;> simp [this]

theorem reluZip_eq (xs ms : List F) (h : xs.length = ms.length) :
    Tensor.reluZip xs ms = (xs.map relu, xs.map step) := by
  induction xs generalizing ms with
  | nil =>
    cases ms with
    | nil => rfl
    | cons m ms => simp at h
  | cons x xs ih =>
    cases ms with
    | nil => simp at h
    | cons m ms =>
      simp only [Tensor.reluZip, List.map_cons]
      rw [ih ms (by simpa using h)]
      unfold relu step
      split <;> simp_all

theorem val_map {t : Tensor F} (hw : t.WF) (f : F → F) {i j k : Nat} (h : t.shape.Inside i j k) :
    val { t with data := t.data.map f } i j k = f (val t i j k) := by
  unfold val
  simp only [List.getElem?_map]
  rw [List.getElem?_eq_getElem (pos_lt_len hw h)]
  rfl

theorem val_zipWith {t u r : Tensor F} (ht : t.WF) (hu : u.WF) (hs : t.shape = u.shape)
    (hr : r.shape = t.shape) (f : F → F → F) {i j k : Nat} (h : t.shape.Inside i j k) :
    val { r with data := List.zipWith f t.data u.data } i j k = f (val t i j k) (val u i j k) := by
  unfold val
  simp only [List.getElem?_zipWith, hr]
  rw [← hs, List.getElem?_eq_getElem (pos_lt_len ht h),
    List.getElem?_eq_getElem (by rw [hu.len, ← hs]; exact pos_lt h)]
  rfl

theorem same_len {t u : Tensor F} (ht : t.WF) (hu : u.WF) (hs : t.shape = u.shape) :
    t.data.length = u.data.length := by rw [ht.len, hu.len, hs]

theorem eq_true_iff (t u : Tensor F) : t.eq u = true ↔ t.shape = u.shape ∧
    t.data.length = u.data.length ∧ (t.data.zip u.data).all (fun p => feq p.1 p.2) = true := by
  unfold Tensor.eq
  split
  · rename_i h; simp [h]
  · rename_i h
    split
    · rename_i h'; simp only [Bool.false_eq_true, false_iff]; exact fun g => h' g.2
    · rename_i h'
      simp only [true_iff]
      exact ⟨Decidable.not_not.mp h, Decidable.not_not.mp h'⟩

end Rusty
