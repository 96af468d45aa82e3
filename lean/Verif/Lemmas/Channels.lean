import Verif.Spec.Channels
import Verif.Lemmas.Turned
import Verif.Lemmas.Renumber

/-! # Helper lemmas: renumbered channels pass through renumbered layers (C157) -/

namespace Rusty

open F32Ops Spec

/-- a sum over all entries does not depend on the numbering of the channels -/
theorem channels_sum {π : Nat → Nat} {s : TensorShape} (h : Renumbers s.dk.toNat π) (f : Nat → Nat → Nat → ℝ) :
    (s.indices.map fun p => f p.1 p.2.1 (π p.2.2)).sum = (s.indices.map fun p => f p.1 p.2.1 p.2.2).sum := by
  rw [indices_sum, indices_sum]
  have := renumbers_sum h fun k => ∑ j ∈ Finset.range s.dj.toNat, ∑ i ∈ Finset.range s.di.toNat, f i j k
  rwa [list_sum_range, list_sum_range] at this

variable [Libm]

open F32

theorem channels_shapes {π τ : Nat → Nat} {l l' : AnyLayer F32} (h : ChannelsLayer π τ l l') :
    l'.get_input_shape = l.get_input_shape ∧ l'.get_output_shape = l.get_output_shape := by
  cases l <;> cases l' <;> first | exact h.elim | skip
  · exact ⟨h.1, h.2.1⟩
  · exact ⟨h.1, h.2.1⟩
  · exact ⟨h.1, h.1⟩

/-- one layer -/
theorem layer_channels {π τ : Nat → Nat} {l l' : AnyLayer F32} (h : ChannelsLayer π τ l l') (hl : l.Ok)
    {x x' : Nat → Nat → Nat → ℝ} (hx : SameChannels π l.get_input_shape x x') :
    SameChannels τ l.get_output_shape (exactLayer l x) (exactLayer l' x') := by
  intro i j k hin
  cases l <;> cases l' <;> first | exact h.elim | skip
  · rename_i l l'
    obtain ⟨e1, e2, e3, e4, e5, e6, e7, e8⟩ := h
    replace hl : l.Ok := hl
    replace hin : l.output_shape.Inside i j k := hin
    replace hx : SameChannels π l.input_shape x x' := hx
    have hkl : τ k < l.kernels.length := by rw [hl.count]; exact e7.1 k hin.2.2
    have hkl' : k < l'.kernels.length := by rw [e4, hl.count]; exact hin.2.2
    have hbl : τ k < l.biases.length := by rw [hl.biasCount]; exact hkl
    have hbl' : k < l'.biases.length := by rw [e5, hl.biasCount, hl.count]; exact hin.2.2
    obtain ⟨_, hkd, hkt⟩ := hl.kernels _ (List.getElem_mem hkl)
    obtain ⟨c1, c2, c3⟩ := e8 k _ _ _ _ (List.getElem?_eq_getElem hkl) (List.getElem?_eq_getElem hkl')
      (List.getElem?_eq_getElem hbl) (List.getElem?_eq_getElem hbl')
    simp only [exactLayer, List.getElem?_eq_getElem hkl, List.getElem?_eq_getElem hkl',
      List.getElem?_eq_getElem hbl, List.getElem?_eq_getElem hbl', e3, c3]
    congr 2
    rw [c1]
    have hπ : Renumbers l.kernels[τ k].shape.dk.toNat π := by rw [hkd]; exact e6
    refine Eq.trans ?_ (channels_sum hπ fun p q c =>
      x (i * l.stride.toNat + p) (j * l.stride.toNat + q) c * (val l.kernels[τ k] p q c).toReal)
    refine congrArg _ (List.map_congr_left fun p hp => ?_)
    have hp' := mem_indices.mp hp
    rw [hx _ _ _ ⟨tiles_lt hkt.1 hin.1 hp'.1, tiles_lt hkt.2 hin.2.1 hp'.2.1, by rw [← hkd]; exact hp'.2.2⟩,
      c2 _ _ _ hp']
  · rename_i l l'
    obtain ⟨e1, e2, e3, e4, rfl⟩ := h
    replace hl : l.Ok := hl
    replace hin : l.output_shape.Inside i j k := hin
    replace hx : SameChannels τ l.input_shape x x' := hx
    have d1 : l'.mask_shape.di.toNat = l.mask_shape.di.toNat := by rw [e3]
    have d2 : l'.mask_shape.dj.toNat = l.mask_shape.dj.toNat := by rw [e3]
    simp only [exactLayer]
    refine Function.Surjective.iSup_congr (fun p => (⟨p.1, d1 ▸ p.1.isLt⟩, ⟨p.2, d2 ▸ p.2.isLt⟩)) ?_ fun p => ?_
    · rintro ⟨u, v⟩
      exact ⟨(⟨u, lt_of_lt_of_eq u.isLt d1.symm⟩, ⟨v, lt_of_lt_of_eq v.isLt d2.symm⟩), rfl⟩
    · have hp1 : p.1 < l.mask_shape.di.toNat := lt_of_lt_of_eq p.1.isLt d1
      have hp2 : p.2 < l.mask_shape.dj.toNat := lt_of_lt_of_eq p.2.isLt d2
      have hw : windowsTile l.input_shape ⟨l.mask_shape.di, l.mask_shape.dj, 1⟩ l.stride l.output_shape := hl.tiles
      rw [e4, hx _ _ _ ⟨tiles_lt hw.1 hin.1 hp1, tiles_lt hw.2 hin.2.1 hp2, by rw [← hl.depth]; exact hin.2.2⟩]
  · rename_i l l'
    obtain ⟨e1, e2, rfl⟩ := h
    replace hin : l.shape.Inside i j k := hin
    replace hx : SameChannels τ l.shape x x' := hx
    simp only [exactLayer]
    rw [hx i j k hin, e1, ← channels_sum e2 fun i j k => Real.exp (x i j k)]
    congr 2
    exact List.map_congr_left fun p hp => by rw [hx _ _ _ (mem_indices.mp hp)]

/-- All layers; the tensors `t i` serve for the shapes only. -/
theorem layers_channels (b : Build) {π υ : Nat → Nat} {ls ls' : List (AnyLayer F32)}
    (h : ChannelsLayers π υ ls ls') (hok : ∀ l ∈ ls, l.Ok) (t : Nat → Tensor F32)
    {x x' : Nat → Nat → Nat → ℝ} (hx : SameChannels π (t 0).shape x x')
    (hstep : ∀ i l, ls[i]? = some l → (t i).shape = l.get_input_shape ∧ applies b l (t i) (t (i + 1))) :
    SameChannels υ (t ls.length).shape (exactNet ls x) (exactNet ls' x') := by
  induction h generalizing t x x' with
  | nil => exact hx
  | cons π τ υ l l' ls ls' hl _ ih =>
    obtain ⟨g, ha⟩ := hstep 0 l rfl
    refine ih (fun m hm => hok m (List.mem_cons_of_mem _ hm)) (fun i => t (i + 1))
      (x := exactLayer l x) (x' := exactLayer l' x') ?_ (fun i m hi => hstep (i + 1) m hi)
    rw [g] at hx
    rw [ha.2.1]
    exact layer_channels hl (hok l (List.mem_cons_self ..)) hx

theorem channels_length {π υ : Nat → Nat} {ls ls' : List (AnyLayer F32)} (h : ChannelsLayers π υ ls ls') :
    ls'.length = ls.length := by
  induction h with
  | nil => rfl
  | cons _ _ _ _ _ _ _ _ _ ih => rw [List.length_cons, List.length_cons, ih]

theorem channels_get {π υ : Nat → Nat} {ls ls' : List (AnyLayer F32)} (h : ChannelsLayers π υ ls ls') :
    ∀ i, i < ls.length → ∃ l l' ρ τ, ls[i]? = some l ∧ ls'[i]? = some l' ∧ ChannelsLayer ρ τ l l' := by
  induction h with
  | nil => intro i hi; cases hi
  | cons π τ υ l l' ls ls' hl _ ih =>
    intro i hi
    cases i with
    | zero => exact ⟨l, l', π, τ, rfl, rfl, hl⟩
    | succ i => exact ih i (Nat.lt_of_succ_lt_succ hi)

/-- the numbering of the output is a numbering -/
theorem channels_renumbers (b : Build) {π υ : Nat → Nat} {ls ls' : List (AnyLayer F32)}
    (h : ChannelsLayers π υ ls ls') (hok : ∀ l ∈ ls, l.Ok) (t : Nat → Tensor F32)
    (hπ : Renumbers (t 0).shape.dk.toNat π)
    (hstep : ∀ i l, ls[i]? = some l → (t i).shape = l.get_input_shape ∧ applies b l (t i) (t (i + 1))) :
    Renumbers (t ls.length).shape.dk.toNat υ := by
  induction h generalizing t with
  | nil => exact hπ
  | cons π τ υ l l' ls ls' hl _ ih =>
    obtain ⟨g, ha⟩ := hstep 0 l rfl
    refine ih (fun m hm => hok m (List.mem_cons_of_mem _ hm)) (fun i => t (i + 1)) ?_ (fun i m hi => hstep (i + 1) m hi)
    have hlo := hok l (List.mem_cons_self ..)
    rw [g] at hπ
    rw [ha.2.1]
    cases l <;> cases l' <;> first | exact hl.elim | skip
    · exact hl.2.2.2.2.2.2.1
    · rename_i l l'
      obtain ⟨_, _, _, _, rfl⟩ := hl
      replace hlo : l.Ok := hlo
      change Renumbers l.output_shape.dk.toNat τ
      rw [hlo.depth]
      exact hπ
    · rename_i l l'
      obtain ⟨_, e, rfl⟩ := hl
      exact e

/-- layers with renumbered channels have the same error bounds -/
theorem accuracy_channels {ls : List (AnyLayer F32)} {M e M' e' : ℝ}
    (hA : Accuracy ls M e M' e') : ∀ {π υ : Nat → Nat} {ls' : List (AnyLayer F32)}, (∀ l ∈ ls, l.Ok) →
    ChannelsLayers π υ ls ls' → Accuracy ls' M e M' e' := by
  induction hA with
  | nil M e =>
    intro π υ ls' _ h
    cases h
    exact .nil M e
  | fc l ls A B M e M' e' _ _ _ _ _ _ _ _ =>
    intro π υ ls' _ h
    cases h with
    | cons _ τ _ _ l' _ _ h _ => cases l' <;> exact h.elim
  | conv l ls n A B M e M' e' h1 h2 h3 h4 h5 h6 _ ih =>
    intro π υ ls' hok h
    cases h with
    | cons _ τ _ _ l' _ ls' h ht =>
      cases l' <;> first | exact h.elim | skip
      rename_i l'
      obtain ⟨e1, e2, e3, e4, e5, e6, e7, e8⟩ := h
      have hl : l.Ok := hok _ (List.mem_cons_self ..)
      have key : ∀ c, c < l.output_shape.dk.toNat → ∃ (_ : τ c < l.kernels.length) (_ : c < l'.kernels.length)
          (_ : τ c < l.biases.length) (_ : c < l'.biases.length), l'.kernels[c].shape = l.kernels[τ c].shape ∧
          SameChannels π l.kernels[τ c].shape (val l.kernels[τ c]) (val l'.kernels[c]) ∧
          l'.biases[c] = l.biases[τ c] ∧ Renumbers l.kernels[τ c].shape.dk.toNat π := by
        intro c hc
        have hkl : τ c < l.kernels.length := by rw [hl.count]; exact e7.1 c hc
        have hkl' : c < l'.kernels.length := by rw [e4, hl.count]; exact hc
        have hbl : τ c < l.biases.length := by rw [hl.biasCount]; exact hkl
        have hbl' : c < l'.biases.length := by rw [e5, hl.biasCount, hl.count]; exact hc
        obtain ⟨c1, c2, c3⟩ := e8 c _ _ _ _ (List.getElem?_eq_getElem hkl) (List.getElem?_eq_getElem hkl')
          (List.getElem?_eq_getElem hbl) (List.getElem?_eq_getElem hbl')
        obtain ⟨_, hkd, _⟩ := hl.kernels _ (List.getElem_mem hkl)
        exact ⟨hkl, hkl', hbl, hbl', c1, c2, c3, by rw [hkd]; exact e6⟩
      refine .conv l' ls' n A B M e M' e' (fun kernel hm => ?_) (fun bias hm => ?_) h3 h4 h5 h6
        (ih (fun m hm => hok m (List.mem_cons_of_mem _ hm)) ht)
      · obtain ⟨c, hc, rfl⟩ := List.mem_iff_getElem.mp hm
        obtain ⟨k1, _, _, _, k5, k6, _, k8⟩ := key c (by rw [← hl.count, ← e4]; exact hc)
        obtain ⟨g1, g2, g3⟩ := h1 _ (List.getElem_mem k1)
        refine ⟨by rw [k5]; exact g1, fun i j k hin => ?_, ?_⟩
        · rw [k5] at hin
          rw [k6 i j k hin]
          exact g2 _ _ _ ⟨hin.1, hin.2.1, k8.1 k hin.2.2⟩
        · rw [k5]
          refine le_trans (le_of_eq ?_) g3
          refine Eq.trans ?_ (channels_sum k8 fun p q r => |(val l.kernels[τ c] p q r).toReal|)
          exact congrArg _ (List.map_congr_left fun p hp => by rw [k6 _ _ _ (mem_indices.mp hp)])
      · obtain ⟨c, hc, rfl⟩ := List.mem_iff_getElem.mp hm
        obtain ⟨_, _, k3, _, _, _, k7, _⟩ := key c (by rw [← hl.count, ← hl.biasCount, ← e5]; exact hc)
        rw [k7]
        exact h2 _ (List.getElem_mem k3)
  | mp l ls M e M' e' h1 h2 _ ih =>
    intro π υ ls' hok h
    cases h with
    | cons _ τ _ _ l' _ ls' h ht =>
      cases l' <;> first | exact h.elim | skip
      rename_i l'
      obtain ⟨_, _, e3, _⟩ := h
      exact .mp l' ls' M e M' e' (by rw [e3]; exact h1) (by rw [e3]; exact h2)
        (ih (fun m hm => hok m (List.mem_cons_of_mem _ hm)) ht)
  | sm l ls M e M' e' hE h1 h2 _ ih =>
    intro π υ ls' hok h
    cases h with
    | cons _ τ _ _ l' _ ls' h ht =>
      cases l' <;> first | exact h.elim | skip
      rename_i l'
      have h : l'.shape = l.shape := h.1
      exact .sm l' ls' M e M' e' hE h1 (h ▸ h2) (by rw [h]; exact ih (fun m hm => hok m (List.mem_cons_of_mem _ hm)) ht)

end Rusty
