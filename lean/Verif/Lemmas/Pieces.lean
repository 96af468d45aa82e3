import Verif.Spec.Pieces
import Verif.Lemmas.Robust

/-! # Helper lemmas: exact layers are affine where no branch changes (C120) -/

namespace Rusty

open F32Ops Spec F32

/-- a rectified sum of terms that is positive in both places or in neither -/
theorem relu_affine {ι : Type} (L : List ι) (r s t : ι → ℝ) (β : ℝ) {a : ℝ} (h0 : 0 ≤ a)
    (h1 : a ≤ 1) (h : ∀ m ∈ L, t m = a * r m + (1 - a) * s m)
    (hb : 0 < max 0 ((L.map r).sum + β) ↔ 0 < max 0 ((L.map s).sum + β)) :
    max 0 ((L.map t).sum + β) =
      a * max 0 ((L.map r).sum + β) + (1 - a) * max 0 ((L.map s).sum + β) := by
  have e : (L.map t).sum + β = a * ((L.map r).sum + β) + (1 - a) * ((L.map s).sum + β) := by
    rw [List.map_congr_left h]
    clear h hb
    have : (L.map fun m => a * r m + (1 - a) * s m).sum = a * (L.map r).sum + (1 - a) * (L.map s).sum := by
      induction L with
      | nil => simp
      | cons m ms ih =>
        simp only [List.map_cons, List.sum_cons, ih]
        ring
    rw [this]
    ring
  rw [e]
  generalize (L.map r).sum + β = u at hb ⊢
  generalize (L.map s).sum + β = v at hb ⊢
  have a1 : 0 ≤ 1 - a := by linarith
  rw [lt_max_iff, lt_max_iff] at hb
  simp only [lt_self_iff_false, false_or] at hb
  rcases lt_or_ge 0 u with hu | hu
  · have hv := hb.mp hu
    rw [max_eq_right hu.le, max_eq_right hv.le, max_eq_right (by positivity)]
  · have hv : v ≤ 0 := not_lt.mp fun hv => absurd (hb.mpr hv) (not_lt.mpr hu)
    rw [max_eq_left hu, max_eq_left hv, max_eq_left]
    · simp
    · have := mul_nonneg h0 (neg_nonneg.mpr hu)
      have := mul_nonneg a1 (neg_nonneg.mpr hv)
      linarith

variable [Libm]

/-- One layer: the point between `x` and `y` gives the values between those of `x` and `y`. -/
theorem layer_affine {l : AnyLayer F32} (hl : l.Ok) {a : ℝ} (h0 : 0 ≤ a) (h1 : a ≤ 1)
    {x y z : Nat → Nat → Nat → ℝ} (hb : SameBranch l x y)
    (hz : ∀ i j k, l.get_input_shape.Inside i j k → z i j k = between a x y i j k)
    {i j k : Nat} (hin : l.get_output_shape.Inside i j k) :
    exactLayer l z i j k = between a (exactLayer l x) (exactLayer l y) i j k := by
  cases l with
  | fc l =>
    unfold between
    have hb := hb i j k hin
    simp only [exactLayer] at hb ⊢
    refine relu_affine _ _ _ _ _ h0 h1 (fun m hm => ?_) hb
    have hm' := List.mem_range.mp hm
    have hmi : (AnyLayer.fc l).get_input_shape.Inside m 0 0 := ⟨hm', Nat.zero_lt_one, Nat.zero_lt_one⟩
    rw [hz m 0 0 hmi]
    unfold between
    ring
  | conv l =>
    have hb := hb i j k hin
    replace hl : l.Ok := hl
    replace hin : l.output_shape.Inside i j k := hin
    have hkl : k < l.kernels.length := by rw [hl.count]; exact hin.2.2
    have hbl : k < l.biases.length := by rw [hl.biasCount]; exact hkl
    obtain ⟨_, hkd, hkt⟩ := hl.kernels _ (List.getElem_mem hkl)
    have e : ∀ u : Nat → Nat → Nat → ℝ,
        exactLayer (.conv l) u i j k = max 0 ((l.kernels[k].shape.indices.map fun p =>
          u (i * l.stride.toNat + p.1) (j * l.stride.toNat + p.2.1) p.2.2 *
            (val l.kernels[k] p.1 p.2.1 p.2.2).toReal).sum + (val l.biases[k] 0 0 0).toReal) := by
      intro u
      simp only [exactLayer]
      rw [List.getElem?_eq_getElem hkl, List.getElem?_eq_getElem hbl]
    unfold between
    rw [e, e] at hb
    rw [e, e, e]
    refine relu_affine _ _ _ _ _ h0 h1 (fun p hp => ?_) hb
    obtain ⟨m1, m2, m3⟩ := mem_indices.mp hp
    have hmi : (AnyLayer.conv l).get_input_shape.Inside (i * l.stride.toNat + p.1)
        (j * l.stride.toNat + p.2.1) p.2.2 :=
      ⟨tiles_lt hkt.1 hin.1 m1, tiles_lt hkt.2 hin.2.1 m2, hkd ▸ m3⟩
    rw [hz _ _ _ hmi]
    unfold between
    ring
  | mp l =>
    replace hl : l.Ok := hl
    replace hin : l.output_shape.Inside i j k := hin
    obtain ⟨p, q, hp, hq, hm⟩ := hb i j k hin
    have hmi : ∀ p q, p < l.mask_shape.di.toNat → q < l.mask_shape.dj.toNat →
        (AnyLayer.mp (F := F32) l).get_input_shape.Inside (i * l.stride.toNat + p)
          (j * l.stride.toNat + q) k := fun p q hp hq =>
      ⟨tiles_lt hl.tiles.1 hin.1 hp, tiles_lt hl.tiles.2 hin.2.1 hq, hl.depth ▸ hin.2.2⟩
    have top : ∀ u : Nat → Nat → Nat → ℝ,
        (∀ p' q', p' < l.mask_shape.di.toNat → q' < l.mask_shape.dj.toNat →
          u (i * l.stride.toNat + p') (j * l.stride.toNat + q') k ≤
            u (i * l.stride.toNat + p) (j * l.stride.toNat + q) k) →
        exactLayer (.mp l) u i j k = u (i * l.stride.toNat + p) (j * l.stride.toNat + q) k := by
      intro u hu
      have : Nonempty (Fin l.mask_shape.di.toNat × Fin l.mask_shape.dj.toNat) := ⟨⟨p, hp⟩, ⟨q, hq⟩⟩
      refine le_antisymm (ciSup_le fun r => hu r.1 r.2 r.1.isLt r.2.isLt) ?_
      exact le_ciSup (f := fun p : Fin l.mask_shape.di.toNat × Fin l.mask_shape.dj.toNat =>
          u (i * l.stride.toNat + p.1) (j * l.stride.toNat + p.2) k) (Set.finite_range _).bddAbove
          (⟨p, hp⟩, ⟨q, hq⟩)
    have a1 : 0 ≤ 1 - a := by linarith
    have hx := top x fun p' q' hp hq => (hm p' q' hp hq).1
    have hy := top y fun p' q' hp hq => (hm p' q' hp hq).2
    unfold between
    rw [hx, hy, top z fun p' q' hp' hq' => ?_, hz _ _ _ (hmi p q hp hq)]
    · rfl
    · rw [hz _ _ _ (hmi p q hp hq), hz _ _ _ (hmi p' q' hp' hq')]
      obtain ⟨m1, m2⟩ := hm p' q' hp' hq'
      exact add_le_add (mul_le_mul_of_nonneg_left m1 h0) (mul_le_mul_of_nonneg_left m2 a1)
  | sm l => exact hb.elim

/-- All layers; the tensors `t i` serve for the shapes only. -/
theorem layers_affine (b : Build) {ls : List (AnyLayer F32)} {a : ℝ} (h0 : 0 ≤ a) (h1 : a ≤ 1)
    (hok : ∀ l ∈ ls, l.Ok) (t : Nat → Tensor F32) {x y z : Nat → Nat → Nat → ℝ} (hls : SameBranches ls x y)
    (hz : ∀ i j k, (t 0).shape.Inside i j k → z i j k = between a x y i j k)
    (hstep : ∀ i l, ls[i]? = some l → (t i).shape = l.get_input_shape ∧ applies b l (t i) (t (i + 1)))
    {i j k : Nat} (hin : (t ls.length).shape.Inside i j k) :
    exactNet ls z i j k = between a (exactNet ls x) (exactNet ls y) i j k := by
  induction ls generalizing t x y z with
  | nil => exact hz i j k hin
  | cons l ls ih =>
    obtain ⟨g, ha⟩ := hstep 0 l rfl
    refine ih (fun m hm => hok m (List.mem_cons_of_mem _ hm))
      (fun i => t (i + 1)) (x := exactLayer l x) (y := exactLayer l y) (z := exactLayer l z) hls.2 ?_
      (fun i m hi => hstep (i + 1) m hi) hin
    intro i j k h
    rw [g] at hz
    exact layer_affine (hok l (List.mem_cons_self ..)) h0 h1 hls.1 hz (by rw [← ha.2.1]; exact h)

end Rusty
