import Verif.Spec.Convex
import Verif.Lemmas.Robust

/-! # Helper lemmas: exact layers without negative weights compute convex functions (C116) -/

namespace Rusty

open F32Ops Spec F32

/-- a rectified sum of terms -/
theorem affine_convex {ι : Type} (L : List ι) (r s t : ι → ℝ) (β : ℝ) {a : ℝ} (h0 : 0 ≤ a)
    (h1 : a ≤ 1) (h : ∀ m ∈ L, t m ≤ a * r m + (1 - a) * s m) :
    max 0 ((L.map t).sum + β) ≤
      a * max 0 ((L.map r).sum + β) + (1 - a) * max 0 ((L.map s).sum + β) := by
  have e : (L.map t).sum ≤ a * (L.map r).sum + (1 - a) * (L.map s).sum := by
    refine (sum_map_le _ _ _ h).trans (le_of_eq ?_)
    clear h
    induction L with
    | nil => simp
    | cons m ms ih =>
      simp only [List.map_cons, List.sum_cons, ih]
      ring
  have r1 := le_max_left 0 ((L.map r).sum + β)
  have r2 := le_max_right 0 ((L.map r).sum + β)
  have s1 := le_max_left 0 ((L.map s).sum + β)
  have s2 := le_max_right 0 ((L.map s).sum + β)
  have a1 : 0 ≤ 1 - a := by linarith
  refine max_le (by positivity) ?_
  have := mul_le_mul_of_nonneg_left r2 h0
  have := mul_le_mul_of_nonneg_left s2 a1
  linarith

variable [Libm]

/-- One layer: a point below the one between `x` and `y` gives values below those between the values of `x` and
`y`, if the layer has no negative weights, or if it is no softmax layer and the point is exactly between. -/
theorem layer_convex {l : AnyLayer F32} (hl : l.Ok) {a : ℝ} (h0 : 0 ≤ a) (h1 : a ≤ 1)
    {x y z : Nat → Nat → Nat → ℝ}
    (hz : (Nonneg l ∧ ∀ i j k, l.get_input_shape.Inside i j k → z i j k ≤ between a x y i j k) ∨
      (NotSoftmax l ∧ ∀ i j k, l.get_input_shape.Inside i j k → z i j k = between a x y i j k))
    {i j k : Nat} (hin : l.get_output_shape.Inside i j k) :
    exactLayer l z i j k ≤ between a (exactLayer l x) (exactLayer l y) i j k := by
  have hle : ∀ i j k, l.get_input_shape.Inside i j k → z i j k ≤ between a x y i j k := by
    rcases hz with h | h
    · exact h.2
    · exact fun i j k hin => (h.2 i j k hin).le
  cases l with
  | fc l =>
    replace hl : l.Ok := hl
    have hi : i < l.weights.shape.di.toNat := by
      change l.get_output_shape.Inside i j k at hin
      unfold FullyConnectedLayer.get_output_shape at hin
      rw [hl.rows] at hin
      exact hin.1
    unfold between
    simp only [exactLayer]
    refine affine_convex _ _ _ _ _ h0 h1 fun m hm => ?_
    have hm' := List.mem_range.mp hm
    have hmi : (AnyLayer.fc l).get_input_shape.Inside m 0 0 := ⟨hm', Nat.zero_lt_one, Nat.zero_lt_one⟩
    rcases hz with ⟨hw, h⟩ | ⟨_, h⟩
    · have := mul_le_mul_of_nonneg_left (h m 0 0 hmi) (hw i m hi hm')
      unfold between at this
      linarith
    · rw [h m 0 0 hmi]
      unfold between
      exact le_of_eq (by ring)
  | conv l =>
    replace hl : l.Ok := hl
    replace hin : l.output_shape.Inside i j k := hin
    have hkl : k < l.kernels.length := by rw [hl.count]; exact hin.2.2
    have hbl : k < l.biases.length := by rw [hl.biasCount]; exact hkl
    have hkm := List.getElem_mem hkl
    obtain ⟨_, hkd, hkt⟩ := hl.kernels _ hkm
    have e : ∀ u : Nat → Nat → Nat → ℝ,
        exactLayer (.conv l) u i j k = max 0 ((l.kernels[k].shape.indices.map fun p =>
          u (i * l.stride.toNat + p.1) (j * l.stride.toNat + p.2.1) p.2.2 *
            (val l.kernels[k] p.1 p.2.1 p.2.2).toReal).sum + (val l.biases[k] 0 0 0).toReal) := by
      intro u
      simp only [exactLayer]
      rw [List.getElem?_eq_getElem hkl, List.getElem?_eq_getElem hbl]
    unfold between
    rw [e, e, e]
    refine affine_convex _ _ _ _ _ h0 h1 fun p hp => ?_
    have hp' := mem_indices.mp hp
    obtain ⟨m1, m2, m3⟩ := hp'
    have hmi : (AnyLayer.conv l).get_input_shape.Inside (i * l.stride.toNat + p.1)
        (j * l.stride.toNat + p.2.1) p.2.2 :=
      ⟨tiles_lt hkt.1 hin.1 m1, tiles_lt hkt.2 hin.2.1 m2, hkd ▸ m3⟩
    rcases hz with ⟨hw, h⟩ | ⟨_, h⟩
    · have := mul_le_mul_of_nonneg_right (h _ _ _ hmi) (hw _ hkm _ _ _ (mem_indices.mp hp))
      unfold between at this
      linarith
    · rw [h _ _ _ hmi]
      unfold between
      exact le_of_eq (by ring)
  | mp l =>
    replace hl : l.Ok := hl
    replace hin : l.output_shape.Inside i j k := hin
    have hmi : ∀ p : Fin l.mask_shape.di.toNat × Fin l.mask_shape.dj.toNat,
        (AnyLayer.mp (F := F32) l).get_input_shape.Inside (i * l.stride.toNat + p.1)
          (j * l.stride.toNat + p.2) k := fun p =>
      ⟨tiles_lt hl.tiles.1 hin.1 p.1.isLt, tiles_lt hl.tiles.2 hin.2.1 p.2.isLt, hl.depth ▸ hin.2.2⟩
    unfold between
    simp only [exactLayer]
    rcases isEmpty_or_nonempty (Fin l.mask_shape.di.toNat × Fin l.mask_shape.dj.toNat) with he | he
    · simp only [Real.iSup_of_isEmpty]
      simp
    · refine ciSup_le fun q => (hle _ _ _ (hmi q)).trans ?_
      have up : ∀ u : Nat → Nat → Nat → ℝ,
          u (i * l.stride.toNat + q.1) (j * l.stride.toNat + q.2) k ≤
            ⨆ p : Fin l.mask_shape.di.toNat × Fin l.mask_shape.dj.toNat,
              u (i * l.stride.toNat + p.1) (j * l.stride.toNat + p.2) k := fun u =>
        le_ciSup (f := fun p : Fin l.mask_shape.di.toNat × Fin l.mask_shape.dj.toNat =>
          u (i * l.stride.toNat + p.1) (j * l.stride.toNat + p.2) k) (Set.finite_range _).bddAbove q
      unfold between
      exact add_le_add (mul_le_mul_of_nonneg_left (up x) h0)
        (mul_le_mul_of_nonneg_left (up y) (by linarith))
  | sm l => rcases hz with h | h <;> exact h.1.elim

/-- All layers; the tensors `t i` serve for the shapes only. -/
theorem layers_convex (b : Build) {ls : List (AnyLayer F32)} {a : ℝ} (h0 : 0 ≤ a) (h1 : a ≤ 1)
    (hok : ∀ l ∈ ls, l.Ok) (hls : ∀ l ∈ ls, Nonneg l) (t : Nat → Tensor F32)
    {x y z : Nat → Nat → Nat → ℝ}
    (hz : ∀ i j k, (t 0).shape.Inside i j k → z i j k ≤ between a x y i j k)
    (hstep : ∀ i l, ls[i]? = some l → (t i).shape = l.get_input_shape ∧ applies b l (t i) (t (i + 1)))
    {i j k : Nat} (hin : (t ls.length).shape.Inside i j k) :
    exactNet ls z i j k ≤ between a (exactNet ls x) (exactNet ls y) i j k := by
  induction ls generalizing t x y z with
  | nil => exact hz i j k hin
  | cons l ls ih =>
    obtain ⟨g, ha⟩ := hstep 0 l rfl
    refine ih (fun m hm => hok m (List.mem_cons_of_mem _ hm)) (fun m hm => hls m (List.mem_cons_of_mem _ hm))
      (fun i => t (i + 1)) (x := exactLayer l x) (y := exactLayer l y) (z := exactLayer l z) ?_
      (fun i m hi => hstep (i + 1) m hi) hin
    intro i j k h
    rw [g] at hz
    exact layer_convex (hok l (List.mem_cons_self ..)) h0 h1
      (.inl ⟨hls l (List.mem_cons_self ..), hz⟩) (by rw [← ha.2.1]; exact h)

end Rusty
