import Verif.Spec.Pruning
import Verif.Lemmas.IEEEIdle
import Verif.Lemmas.IEEENetwork
import Verif.Lemmas.Infer
import Mathlib.Data.List.Sort

/-! # Helper lemmas: fully connected layers without some of their units -/

namespace Rusty

open F32Ops Spec F32

/-- the numbers that are picked, found among all -/
theorem picks_filter {n n' : Nat} {f : Nat → Nat} (h : Picks n n' f) (p : Nat → Bool)
    (hp : ∀ c, c < n' → (p c = true ↔ ∃ i, i < n ∧ f i = c)) :
    (List.range n').filter p = (List.range n).map f := by
  refine List.Pairwise.eq_of_mem_iff (r := (· < ·)) ?_ ?_ fun c => ?_
  · exact List.Pairwise.filter _ List.pairwise_lt_range
  · rw [List.pairwise_map]
    refine List.pairwise_lt_range.imp_of_mem fun {i j} _ hj hij => h.2 i j hij (List.mem_range.mp hj)
  · rw [List.mem_filter, List.mem_map, List.mem_range]
    constructor
    · rintro ⟨h1, h2⟩
      obtain ⟨i, h3, h4⟩ := (hp c h1).mp h2
      exact ⟨i, List.mem_range.mpr h3, h4⟩
    · rintro ⟨i, h3, rfl⟩
      have h3 := List.mem_range.mp h3
      exact ⟨h.1 i h3, (hp _ (h.1 i h3)).mpr ⟨i, h3, rfl⟩⟩

theorem idle_code {w x : F32} (h : Idle w x) : (F32.mul w x).code = 0 := by
  rcases h with ⟨h1, h2⟩ | ⟨h1, h2⟩
  · exact zero_mul_code h1 h2
  · unfold F32.mul
    obtain ⟨g1, g2, _⟩ := zero_tests h1
    rw [finite_nan h2, finite_inf h2, g1, g2, h1, units_zero]
    simp only [Bool.or_self, Bool.false_eq_true, if_false, Nat.mul_zero]
    rw [show roundCode 0 (2 ^ 149) = 0 by unfold roundCode rne excess; simp, mk'_code (by decide)]

variable [Libm]

/-- adding a zero to a running sum does not change it -/
theorem summed_add_zero {s z : F32} (hs : Summed s) (hz : z.code = 0) : F32.add s z = s := by
  obtain ⟨z1, z2, z3⟩ := zero_tests hz
  by_cases hf : s.isFinite = true
  · rcases add_zero_same hf hz with h | ⟨h1, h2⟩
    · exact h
    · have e1 : s.sign = false := by
        cases e : s.sign
        · rfl
        · exact absurd (ext_fields (by rw [e]; decide) (by rw [h2]; decide)) (summed_ne hs)
      have hn : F32.add s z ≠ mk' true 0 := summed_ne (.add s z hs)
      have e2 : (F32.add s z).sign = false := by
        cases e : (F32.add s z).sign
        · rfl
        · exact absurd (ext_fields (by rw [e]; decide) (by rw [h1]; decide)) hn
      exact ext_fields (by rw [e1, e2]) (by rw [h1, h2])
  · by_cases hn : s.isNaN = true
    · have : s = nan := by
        cases hs with
        | zero =>
          change (mk' false 0).isNaN = true at hn
          exact absurd hn (by decide)
        | add x y _ =>
          change (F32.add x y).isNaN = true at hn
          change F32.add x y = nan
          unfold F32.add at hn ⊢
          split
          · rfl
          · next h1 =>
            rw [if_neg h1] at hn
            rw [Bool.or_eq_true, not_or] at h1
            split
            · next h2 =>
              rw [if_pos h2] at hn
              split
              · rfl
              · next h3 =>
                rw [if_neg h3] at hn
                exact absurd hn h1.1
            · next h2 =>
              rw [if_neg h2] at hn
              split
              · next h3 =>
                rw [if_pos h3] at hn
                exact absurd hn h1.2
              · next h3 =>
                rw [if_neg h3] at hn
                exfalso
                simp only at hn
                split at hn
                · revert hn; cases x.sign && y.sign <;> decide
                · unfold isNaN at hn
                  rw [mk'_code (by unfold roundCode infCode; omega)] at hn
                  unfold roundCode at hn
                  simp only [decide_eq_true_eq] at hn
                  omega
      subst this
      unfold F32.add
      rw [hn]; rfl
    · have hi : s.isInf = true := by
        unfold isFinite at hf; unfold isNaN at hn; unfold isInf
        simp only [decide_eq_true_eq] at hf hn ⊢
        omega
      unfold F32.add
      rw [if_neg (by rw [z1]; simpa using hn), if_pos hi, if_neg (by rw [z2]; simp)]

/-- products that are zero can be left out of a sum -/
theorem sum_filter {α : Type} (L : List α) (p : α → Bool) (f : α → F32)
    (h : ∀ a ∈ L, p a = false → (f a).code = 0) : Spec.sum ((L.filter p).map f) = Spec.sum (L.map f) := by
  unfold Spec.sum
  suffices ∀ s : F32, Summed s → ((L.filter p).map f).foldl F32Ops.add s = (L.map f).foldl F32Ops.add s from
    this _ .zero
  induction L with
  | nil => exact fun _ _ => rfl
  | cons a L ih =>
    intro s hs
    have ih := ih fun a ha => h a (List.mem_cons_of_mem _ ha)
    cases hp : p a with
    | true =>
      rw [List.filter_cons_of_pos hp, List.map_cons, List.map_cons, List.foldl_cons, List.foldl_cons]
      exact ih _ (.add _ _ hs)
    | false =>
      rw [List.filter_cons_of_neg (by rw [hp]; simp), List.map_cons, List.foldl_cons]
      have e : F32Ops.add s (f a) = s := summed_add_zero hs (h a List.mem_cons_self hp)
      rw [e]
      exact ih s hs

theorem kept_entry {e : Option (Nat → Nat)} {t t' : Tensor F32} (h : Kept e t t') {i : Nat}
    (hi : i < t.shape.di.toNat) : val t' (number e i) 0 0 = val t i 0 0 := by
  cases e with
  | none => rw [show t' = t from h]; rfl
  | some f => exact h.2.2.2.2.2 i hi

/-- the value of a unit that is kept -/
theorem preact_pruned {e e' : Option (Nat → Nat)} {l l' : FullyConnectedLayer F32} {s s' : Tensor F32}
    (h : Pruned e e' l l' s') (hs : Kept e s s') (hd : s.shape.di = l.weights.shape.dj) {o : Nat}
    (ho : o < l.weights.shape.di.toNat) : preact l' s' (number e' o) = preact l s o := by
  unfold preact
  rw [h.bias o ho]
  congr 1
  classical
  have hf := picks_filter h.inputs (fun c => decide (∃ i, i < l.weights.shape.dj.toNat ∧ number e i = c))
    (fun c _ => by rw [decide_eq_true_eq])
  rw [← sum_filter (List.range l'.weights.shape.dj.toNat) _ _ fun c hc hp => ?_, hf, List.map_map]
  · refine congrArg _ (List.map_congr_left fun i hi => ?_)
    have hi := List.mem_range.mp hi
    rw [Function.comp_apply, h.weights o i ho hi, kept_entry hs (by rw [hd]; exact hi)]
  · rw [decide_eq_false_iff_not] at hp
    exact idle_code (h.idle o c ho (List.mem_range.mp hc) fun i hi he => hp ⟨i, hi, he⟩)

/-- one layer -/
theorem layer_pruned {b : Build} {e e' : Option (Nat → Nat)} {l l' : AnyLayer F32} (hl : l.Ok) (hl' : l'.Ok)
    {s s' t t' : Tensor F32} (h : Thinned e e' l l' s') (hss : s.shape = l.get_input_shape) (hst : Kept e s s')
    (ht : applies b l s t) (ht' : applies b l' s' t') : Kept e' t t' := by
  rcases h with ⟨rfl, rfl, h⟩ | ⟨k, k', rfl, rfl, h⟩
  · rw [show s' = s from hst] at ht'
    refine tensor_ext ht'.1 ht.1 (by rw [ht'.2.1, ht.2.1, params_output h]) fun i j c hin => ?_
    rw [ht'.2.1] at hin
    rw [applies_val ht' hin, applies_val ht (by rw [← params_output h]; exact hin)]
    exact layerAt_mode h s i j c
  · have ho : (AnyLayer.fc k).get_output_shape = ⟨k.weights.shape.di, 1, 1⟩ := hl.rows
    have ho' : (AnyLayer.fc k').get_output_shape = ⟨k'.weights.shape.di, 1, 1⟩ := hl'.rows
    have hd : s.shape.di = k.weights.shape.dj := by rw [hss]; rfl
    have key : ∀ i, i < k.weights.shape.di.toNat → val t' (number e' i) 0 0 = val t i 0 0 := by
      intro i hi
      rw [applies_val ht (by rw [ho]; exact ⟨hi, Nat.one_pos, Nat.one_pos⟩),
        applies_val ht' (by rw [ho']; exact ⟨h.units.1 i hi, Nat.one_pos, Nat.one_pos⟩)]
      simp only [layerAt]
      rw [act_relu _ (show Summed (preact k' s' (number e' i)) from .add _ _ (summed_sum _)),
        act_relu _ (show Summed (preact k s i) from .add _ _ (summed_sum _))]
      rw [preact_pruned h hst hd hi]
    cases e' with
    | none =>
      refine tensor_ext ht'.1 ht.1 (by rw [ht'.2.1, ht.2.1, ho, ho', h.all rfl]) fun i j c hin => ?_
      rw [ht'.2.1, ho', h.all rfl] at hin
      obtain ⟨h1, h2, h3⟩ := hin
      have h2 : j < 1 := h2
      have h3 : c < 1 := h3
      obtain rfl : j = 0 := by omega
      obtain rfl : c = 0 := by omega
      exact key i h1
    | some f =>
      refine ⟨by rw [ht.2.1, ho], by rw [ht.2.1, ho], by rw [ht'.2.1, ho'], by rw [ht'.2.1, ho'], ?_, ?_⟩
      · rw [ht.2.1, ht'.2.1, ho, ho']; exact h.units
      · rw [ht.2.1, ho]; exact key

end Rusty
