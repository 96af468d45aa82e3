import Verif.Lemmas.Tensor

set_option linter.unusedSectionVars false

/-! # Helper lemmas: the scatter-add loop -/

namespace Rusty

open F32Ops Spec

variable {F : Type} [F32Ops F]

/-- the loop of `add_from_index_list` on in-range entries -/
theorem scatter_loop (t1 t2 : Tensor F) (n : UInt32) (hn : n.toNat = t2.data.length)
    (l : List (UInt32 × Nat)) (h1 : ∀ e ∈ l, e.1.toNat < t2.data.length)
    (h2 : ∀ e ∈ l, e.2 < t1.data.length) :
    ∃ t', forListE l t2 (fun (t2_index, t1_index) t2 =>
      if t2_index ≥ n then
        pure (.error "Tensor 2 index out of bounds", t2)
      else do
        let x ← vget t1.data t1_index
        let y ← vget t2.data t2_index.toNat
        let d ← vset t2.data t2_index.toNat (F32Ops.add y x)
        pure (.ok (), { t2 with data := d })) = .ok (.ok (), t') ∧
      t'.strides = t2.strides ∧ t'.shape = t2.shape ∧ t'.data.length = t2.data.length ∧
      ∀ p, p < t2.data.length → t'.data[p]?.getD zero = scatter t1.data t2.data l p := by
  refine forListE_prefix l t2 _ (fun pre t => t.strides = t2.strides ∧ t.shape = t2.shape ∧
    t.data.length = t2.data.length ∧
      ∀ p, p < t2.data.length → t.data[p]?.getD zero = scatter t1.data t2.data pre p)
    ⟨rfl, rfl, rfl, fun p _ => rfl⟩ ?_
  rintro pre ⟨q, m⟩ post t hl ⟨hst, hsh, hlen, hv⟩
  have hm : (q, m) ∈ l := by rw [hl]; simp
  have hq : q.toNat < t.data.length := by rw [hlen]; exact h1 _ hm
  have hm1 : m < t1.data.length := h2 _ hm
  have hge : ¬ q ≥ n := by
    rw [ge_iff_le, UInt32.le_iff_toNat_le, hn]
    have := h1 _ hm
    simp only at this
    omega
  refine ⟨{ t with data := (t.data.set q.toNat
      (F32Ops.add (t.data[q.toNat]?.getD zero) (t1.data[m]?.getD zero))) }, ?_, ?_⟩
  · simp only
    rw [if_neg hge, vget_getD zero hm1, ok_bind, vget_getD zero hq, ok_bind, vset_ok hq, ok_bind]
    rfl
  · refine ⟨hst, hsh, by simpa using hlen, ?_⟩
    intro p hp
    simp only
    rw [List.getElem?_set]
    unfold scatter
    by_cases e : q.toNat = p
    · subst e
      rw [if_pos rfl, if_pos hq]
      simp only [List.filter_append, List.filter_cons, List.filter_nil, decide_true, if_true,
        List.map_append, List.map_cons, List.map_nil, List.foldl_append, List.foldl_cons,
        List.foldl_nil, Option.getD_some]
      rw [hv _ hp]
      rfl
    · rw [if_neg e, hv _ hp]
      unfold scatter
      simp [e]

end Rusty
