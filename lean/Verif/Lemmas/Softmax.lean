import Verif.Spec.Layers
import Verif.Lemmas.Order
import Verif.Lemmas.Matrix

set_option linter.unusedSectionVars false

/-! # Helper lemmas: softmax -/

namespace Rusty

open F32Ops Spec

variable {F : Type} [F32Ops F]

/-- the loop of `softmax` -/
theorem softmax_loop (xs out : List F) (hlen : out.length = xs.length) :
    (forNat xs.length (out, (zero : F)) fun i (out, sum) => do
      let x ← vget xs i
      let e := exp x
      let out ← vset out i e
      pure (out, F32Ops.add sum e)) = .ok (xs.map exp, Spec.sum (xs.map exp)) := by
  obtain ⟨s', h1, h2, h3, h4⟩ := foldlM_prefix (List.range xs.length)
    (fun (s : List F × F) i => do
      let x ← vget xs i
      let e := exp x
      let out ← vset s.1 i e
      (pure (out, F32Ops.add s.2 e) : Exec (List F × F)))
    (out, zero) (fun pre s => s.1.length = xs.length ∧
      (∀ n, n ∈ pre → s.1[n]? = (xs.map exp)[n]?) ∧
      s.2 = Spec.sum ((xs.map exp).take pre.length))
    ⟨hlen, (fun _ h => by cases h), rfl⟩
    (by
      rintro pre c post ⟨o, s⟩ hL ⟨p1, p2, p3⟩
      obtain ⟨hp, hc⟩ := range_prefix hL
      simp only at p1 p2 p3
      refine ⟨(o.set c (exp xs[c]), F32Ops.add s (exp xs[c])), ?_, ?_, ?_, ?_⟩
      · unfold vget vset
        rw [List.getElem?_eq_getElem hc]
        simp only
        rw [ok_bind, if_pos (by omega), ok_bind]
        rfl
      · simp [p1]
      · intro n hn
        simp only
        rw [List.getElem?_set]
        by_cases hcn : c = n
        · rw [if_pos hcn, if_pos (by omega), ← hcn, List.getElem?_map, List.getElem?_eq_getElem hc]
          rfl
        · rw [if_neg hcn]
          apply p2
          rcases List.mem_append.mp hn with h | h
          · exact h
          · exact absurd (List.mem_singleton.mp h).symm hcn
      · simp only
        rw [p3]
        have hl : pre.length = c := by rw [hp]; simp
        rw [List.length_append, hl]
        change _ = Spec.sum ((xs.map exp).take (c + 1))
        rw [List.take_succ_eq_append_getElem (by simpa using hc)]
        unfold Spec.sum
        rw [List.foldl_append]
        simp)
  unfold forNat
  have e : s' = (xs.map exp, Spec.sum (xs.map exp)) := by
    apply Prod.ext
    · apply List.ext_getElem?
      intro n
      by_cases hn : n < xs.length
      · exact h3 n (List.mem_range.mpr hn)
      · rw [List.getElem?_eq_none (by omega), List.getElem?_eq_none (by simp; omega)]
    · rw [h4]
      simp only [List.length_range]
      rw [List.take_of_length_le (by simp)]
  rw [e] at h1
  exact h1

theorem softmax_ok {x out : Tensor F} (hx : x.WF) (ho : out.WF) (hs : x.shape = out.shape) :
    ∃ y, Tensor.softmax x out = .ok y ∧ y.WF ∧ y.shape = out.shape ∧
      ∀ i j k, out.shape.Inside i j k → val y i j k = softmaxAt x i j k := by
  have hlen : out.data.length = x.data.length := by rw [hx.len, ho.len, hs]
  refine ⟨{ out with data := (x.data.map exp).map fun f => div f (Spec.sum (x.data.map exp)) },
    ?_, wf_data ho _ (by simp [hlen]), rfl, ?_⟩
  · unfold Tensor.softmax
    rw [if_pos hs, softmax_loop _ _ hlen, ok_bind]
    rfl
  · intro i j k hin
    have e1 : x.data.map exp =
        x.shape.indices.map fun p => exp (val x p.1 p.2.1 p.2.2) := by
      conv_lhs => rw [data_indices hx]
      rw [List.map_map]
      rfl
    have := val_map hx (fun v => div (exp v) (Spec.sum (x.data.map exp))) (by rw [hs]; exact hin)
    unfold softmaxAt
    rw [← e1, ← this]
    unfold val
    simp only [List.map_map, hs]
    rfl

theorem softmax_mismatch (x out : Tensor F) (hs : x.shape ≠ out.shape) :
    Tensor.softmax x out = .ok out := by
  unfold Tensor.softmax
  rw [if_neg hs]; rfl

end Rusty
