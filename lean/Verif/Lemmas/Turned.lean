import Verif.Spec.Turned
import Verif.Lemmas.IEEENetwork
import Verif.Lemmas.Real

/-! # Helper lemmas: turned images pass through turned layers (C117) -/

namespace Rusty

open F32Ops Spec

section

open Exact

theorem indices_sum (s : TensorShape) (f : Nat × Nat × Nat → ℝ) :
    (s.indices.map f).sum = ∑ k ∈ Finset.range s.dk.toNat, ∑ j ∈ Finset.range s.dj.toNat,
      ∑ i ∈ Finset.range s.di.toNat, f (i, j, k) := by
  rw [← sum_real, sum_indices_real]

end

/-- a sum over all entries does not depend on how the image is turned -/
theorem turn_sum (σ : Turn) (s : TensorShape) (f : Nat → Nat → Nat → ℝ) :
    ((σ.shape s).indices.map fun p => f (σ.source s p.1 p.2.1).1 (σ.source s p.1 p.2.1).2 p.2.2).sum =
      (s.indices.map fun p => f p.1 p.2.1 p.2.2).sum := by
  rw [indices_sum, indices_sum]
  cases σ with
  | mirror =>
    refine Finset.sum_congr rfl fun k _ => Finset.sum_congr rfl fun j _ => ?_
    exact Finset.sum_range_reflect (fun i => f i j k) s.di.toNat
  | transpose => exact Finset.sum_congr rfl fun k _ => Finset.sum_comm

theorem source_inside {σ : Turn} {s : TensorShape} {i j k : Nat} (h : (σ.shape s).Inside i j k) :
    s.Inside (σ.source s i j).1 (σ.source s i j).2 k := by
  obtain ⟨h1, h2, h3⟩ := h
  cases σ with
  | mirror =>
    have h1 : i < s.di.toNat := h1
    exact ⟨show s.di.toNat - 1 - i < s.di.toNat by omega, h2, h3⟩
  | transpose => exact ⟨h2, h1, h3⟩

/-- the windows of a turned image are the windows of the image, turned -/
theorem turn_window {σ : Turn} {a w r : TensorShape} {st : UInt32} (h : windowsTile a w st r)
    {i j k p q c : Nat} (hr : (σ.shape r).Inside i j k) (hw : (σ.shape w).Inside p q c) :
    σ.source a (i * st.toNat + p) (j * st.toNat + q) =
      ((σ.source r i j).1 * st.toNat + (σ.source w p q).1,
        (σ.source r i j).2 * st.toNat + (σ.source w p q).2) := by
  cases σ with
  | transpose => rfl
  | mirror =>
    obtain ⟨⟨h1, h2⟩, _⟩ := h
    have hi : i < r.di.toNat := hr.1
    have hp : p < w.di.toNat := hw.1
    have e : (r.di.toNat - 1 - i) * st.toNat = (r.di.toNat - 1) * st.toNat - i * st.toNat :=
      Nat.sub_mul ..
    have l : i * st.toNat ≤ (r.di.toNat - 1) * st.toNat := Nat.mul_le_mul_right _ (by omega)
    refine Prod.ext ?_ rfl
    show a.di.toNat - 1 - (i * st.toNat + p) = (r.di.toNat - 1 - i) * st.toNat + (w.di.toNat - 1 - p)
    rw [e]
    omega

theorem turn_tiles (σ : Turn) {a w r : TensorShape} {st : UInt32} (h : windowsTile a w st r) :
    windowsTile (σ.shape a) (σ.shape w) st (σ.shape r) := by
  cases σ with
  | mirror => exact h
  | transpose => exact ⟨h.2, h.1⟩

theorem source_surj (σ : Turn) {s : TensorShape} {i j : Nat} (hi : i < s.di.toNat)
    (hj : j < s.dj.toNat) : ∃ p q, p < (σ.shape s).di.toNat ∧ q < (σ.shape s).dj.toNat ∧
      σ.source s p q = (i, j) := by
  cases σ with
  | mirror =>
    refine ⟨s.di.toNat - 1 - i, j, ?_, hj, ?_⟩
    · show s.di.toNat - 1 - i < s.di.toNat
      omega
    · show (s.di.toNat - 1 - (s.di.toNat - 1 - i), j) = (i, j)
      rw [show s.di.toNat - 1 - (s.di.toNat - 1 - i) = i by omega]
  | transpose => exact ⟨j, i, hj, hi, rfl⟩

theorem turn_depth (σ : Turn) (s : TensorShape) : (σ.shape s).dk = s.dk := by cases σ <;> rfl

theorem turn_count (σ : Turn) (s : TensorShape) : (σ.shape s).count = s.count := by
  cases σ with
  | mirror => rfl
  | transpose =>
    unfold TensorShape.count Turn.shape
    rw [Nat.mul_comm s.dj.toNat]

variable [Libm]

open F32

theorem turned_shapes {σ : Turn} {l l' : AnyLayer F32} (h : TurnedLayer σ l l') :
    l'.get_input_shape = σ.shape l.get_input_shape ∧ l'.get_output_shape = σ.shape l.get_output_shape := by
  cases l <;> cases l' <;> first | exact h.elim | skip
  · exact ⟨h.1, h.2.1⟩
  · exact ⟨h.1, h.2.1⟩
  · exact ⟨h, h⟩

/-- one layer -/
theorem layer_turned {σ : Turn} {l l' : AnyLayer F32} (h : TurnedLayer σ l l') (hl : l.Ok)
    {x x' : Nat → Nat → Nat → ℝ} (hx : TurnedFunction σ l.get_input_shape x x') :
    TurnedFunction σ l.get_output_shape (exactLayer l x) (exactLayer l' x') := by
  intro i j k hin
  cases l <;> cases l' <;> first | exact h.elim | skip
  · rename_i l l'
    obtain ⟨e1, e2, e3, e4, e5⟩ := h
    replace hl : l.Ok := hl
    replace hin : (σ.shape l.output_shape).Inside i j k := hin
    have hk : k < l.output_shape.dk.toNat := turn_depth σ l.output_shape ▸ hin.2.2
    have hkl : k < l.kernels.length := by rw [hl.count]; exact hk
    have hkl' : k < l'.kernels.length := by rw [← e4.length_eq]; exact hkl
    have hbl : k < l.biases.length := by rw [hl.biasCount]; exact hkl
    obtain ⟨_, hkd, hkt⟩ := hl.kernels _ (List.getElem_mem hkl)
    have ht : TurnedTensor σ l.kernels[k] l'.kernels[k] := by
      have := (List.forall₂_iff_get.mp e4).2 k hkl hkl'
      exact this
    simp only [exactLayer, e5, List.getElem?_eq_getElem hkl, List.getElem?_eq_getElem hkl',
      List.getElem?_eq_getElem hbl, e3]
    congr 2
    rw [ht.shape]
    refine Eq.trans ?_ (turn_sum σ l.kernels[k].shape fun p q c =>
      x ((σ.source l.output_shape i j).1 * l.stride.toNat + p)
        ((σ.source l.output_shape i j).2 * l.stride.toNat + q) c * (val l.kernels[k] p q c).toReal)
    refine congrArg _ (List.map_congr_left fun p hp => ?_)
    have hp' := mem_indices.mp hp
    have hw := turn_window hkt hin hp'
    have hin' : (σ.shape l.input_shape).Inside (i * l.stride.toNat + p.1) (j * l.stride.toNat + p.2.1)
        p.2.2 := by
      have hkt' := turn_tiles σ hkt
      refine ⟨tiles_lt hkt'.1 hin.1 hp'.1, tiles_lt hkt'.2 hin.2.1 hp'.2.1, ?_⟩
      rw [turn_depth, ← hkd, ← turn_depth σ]
      exact hp'.2.2
    rw [hx _ _ _ hin', ht.entries _ _ _ hp']
    change x (σ.source l.input_shape _ _).1 (σ.source l.input_shape _ _).2 _ * _ = _
    rw [hw]
  · rename_i l l'
    obtain ⟨e1, e2, e3, e4⟩ := h
    replace hl : l.Ok := hl
    replace hin : (σ.shape l.output_shape).Inside i j k := hin
    have hbound : ∀ p : Fin l'.mask_shape.di.toNat × Fin l'.mask_shape.dj.toNat,
        (σ.shape ⟨l.mask_shape.di, l.mask_shape.dj, 1⟩).Inside p.1 p.2 0 := by
      intro p
      have h1 := lt_of_lt_of_eq p.1.isLt (congrArg (fun s => s.di.toNat) e3)
      have h2 := lt_of_lt_of_eq p.2.isLt (congrArg (fun s => s.dj.toNat) e3)
      cases σ <;> exact ⟨h1, h2, Nat.one_pos⟩
    have hs := fun p => source_inside (hbound p)
    have hsrc : ∀ p q : Nat, σ.source ⟨l.mask_shape.di, l.mask_shape.dj, 1⟩ p q =
        σ.source l.mask_shape p q := fun p q => by cases σ <;> rfl
    simp only [exactLayer]
    refine Function.Surjective.iSup_congr (fun p => (⟨_, (hs p).1⟩, ⟨_, (hs p).2.1⟩)) ?_ fun p => ?_
    · rintro ⟨u, v⟩
      obtain ⟨p, q, h1, h2, h3⟩ := source_surj σ u.isLt v.isLt
      rw [← e3] at h1 h2
      refine ⟨(⟨p, h1⟩, ⟨q, h2⟩), Prod.ext (Fin.ext ?_) (Fin.ext ?_)⟩
      · show (σ.source ⟨l.mask_shape.di, l.mask_shape.dj, 1⟩ p q).1 = u
        rw [hsrc, h3]
      · show (σ.source ⟨l.mask_shape.di, l.mask_shape.dj, 1⟩ p q).2 = v
        rw [hsrc, h3]
    · have hw : windowsTile l.input_shape ⟨l.mask_shape.di, l.mask_shape.dj, 1⟩ l.stride l.output_shape :=
        hl.tiles
      have hw' := turn_tiles σ hw
      have hin' : (σ.shape l.input_shape).Inside (i * l.stride.toNat + p.1) (j * l.stride.toNat + p.2) k := by
        refine ⟨tiles_lt hw'.1 hin.1 (hbound p).1, tiles_lt hw'.2 hin.2.1 (hbound p).2.1, ?_⟩
        rw [turn_depth, ← hl.depth, ← turn_depth σ]
        exact hin.2.2
      rw [e4, hx _ _ _ hin']
      change _ = x (σ.source l.input_shape _ _).1 (σ.source l.input_shape _ _).2 _
      rw [turn_window hw hin (hbound p)]
      rfl
  · rename_i l l'
    replace h : l'.shape = σ.shape l.shape := h
    replace hin : (σ.shape l.shape).Inside i j k := hin
    replace hx : TurnedFunction σ l.shape x x' := hx
    simp only [exactLayer]
    rw [hx i j k hin, h, ← turn_sum σ l.shape fun i j k => Real.exp (x i j k)]
    congr 2
    exact List.map_congr_left fun p hp => by rw [hx _ _ _ (mem_indices.mp hp)]

/-- All layers; the tensors `t i` serve for the shapes only. -/
theorem layers_turned (b : Build) {σ : Turn} {ls ls' : List (AnyLayer F32)}
    (h : List.Forall₂ (TurnedLayer σ) ls ls') (hok : ∀ l ∈ ls, l.Ok) (t : Nat → Tensor F32)
    {x x' : Nat → Nat → Nat → ℝ} (hx : TurnedFunction σ (t 0).shape x x')
    (hstep : ∀ i l, ls[i]? = some l → (t i).shape = l.get_input_shape ∧ applies b l (t i) (t (i + 1))) :
    TurnedFunction σ (t ls.length).shape (exactNet ls x) (exactNet ls' x') := by
  induction h generalizing t x x' with
  | nil => exact hx
  | @cons l l' ls ls' hl _ ih =>
    obtain ⟨g, ha⟩ := hstep 0 l rfl
    refine ih (fun m hm => hok m (List.mem_cons_of_mem _ hm)) (fun i => t (i + 1))
      (x := exactLayer l x) (x' := exactLayer l' x') ?_ (fun i m hi => hstep (i + 1) m hi)
    rw [g] at hx
    rw [ha.2.1]
    exact layer_turned hl (hok l (List.mem_cons_self ..)) hx

/-- turned layers have the same error bounds -/
theorem accuracy_turned {σ : Turn} {ls : List (AnyLayer F32)} {M e M' e' : ℝ}
    (hA : Accuracy ls M e M' e') : ∀ {ls' : List (AnyLayer F32)},
    List.Forall₂ (TurnedLayer σ) ls ls' → Accuracy ls' M e M' e' := by
  induction hA with
  | nil M e =>
    intro ls' h
    cases h
    exact .nil M e
  | fc l ls A B M e M' e' _ _ _ _ _ _ _ _ =>
    intro ls' h
    cases h with
    | @cons _ l' _ _ h _ => cases l' <;> exact h.elim
  | conv l ls n A B M e M' e' h1 h2 h3 h4 h5 h6 _ ih =>
    intro ls' h
    cases h with
    | @cons _ l' _ ls' h ht =>
      cases l' <;> first | exact h.elim | skip
      rename_i l'
      obtain ⟨_, _, _, e4, e5⟩ := h
      refine .conv l' ls' n A B M e M' e' (fun kernel hm => ?_) (e5 ▸ h2) h3 h4 h5 h6 (ih ht)
      obtain ⟨c, hc, rfl⟩ := List.mem_iff_getElem.mp hm
      have hc' : c < l.kernels.length := e4.length_eq ▸ hc
      have hk : TurnedTensor σ l.kernels[c] l'.kernels[c] := (List.forall₂_iff_get.mp e4).2 c hc' hc
      obtain ⟨g1, g2, g3⟩ := h1 _ (List.getElem_mem hc')
      refine ⟨by rw [hk.shape, turn_count]; exact g1, fun i j k hin => ?_, ?_⟩
      · rw [hk.shape] at hin
        rw [hk.entries i j k hin]
        exact g2 _ _ _ (source_inside hin)
      · rw [hk.shape]
        refine le_trans (le_of_eq ?_) g3
        refine Eq.trans ?_ (turn_sum σ l.kernels[c].shape fun p q r => |(val l.kernels[c] p q r).toReal|)
        exact congrArg _ (List.map_congr_left fun p hp => by rw [hk.entries _ _ _ (mem_indices.mp hp)])
  | mp l ls M e M' e' h1 h2 _ ih =>
    intro ls' h
    cases h with
    | @cons _ l' _ ls' h ht =>
      cases l' <;> first | exact h.elim | skip
      rename_i l'
      obtain ⟨_, _, e3, _⟩ := h
      refine .mp l' ls' M e M' e' ?_ ?_ (ih ht) <;> rw [e3] <;> cases σ <;> assumption
  | sm l ls M e M' e' hE h1 h2 _ ih =>
    intro ls' h
    cases h with
    | @cons _ l' _ ls' h ht =>
      cases l' <;> first | exact h.elim | skip
      rename_i l'
      replace h : l'.shape = σ.shape l.shape := h
      have hc : l'.shape.count = l.shape.count := by rw [h, turn_count]
      exact .sm l' ls' M e M' e' hE h1 (hc ▸ h2) (by rw [hc]; exact ih ht)

end Rusty
