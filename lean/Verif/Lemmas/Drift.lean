import Verif.Spec.Drift
import Verif.Lemmas.Robust

/-! # Helper lemmas: changes of the parameters in exact arithmetic -/

namespace Rusty

open F32Ops Spec F32

/-- a rectified weighted sum with changed weights, inputs and bias -/
theorem affine_drift {ι : Type} (L : List ι) (w w' x y : ι → ℝ) (β β' : ℝ) {A B δ η M d : ℝ} (hM : 0 ≤ M) (hd : 0 ≤ d)
    (hx : ∀ m ∈ L, |x m| ≤ M) (hy : ∀ m ∈ L, |x m - y m| ≤ d) (hA : (L.map fun m => |w m|).sum ≤ A)
    (hδ : (L.map fun m => |w' m - w m|).sum ≤ δ) (hB : |β| ≤ B) (hη : |β' - β| ≤ η) (hAM : 0 ≤ A * M + B) :
    |max 0 ((L.map fun m => w m * x m).sum + β)| ≤ A * M + B ∧
    |max 0 ((L.map fun m => w m * x m).sum + β) - max 0 ((L.map fun m => w' m * y m).sum + β')| ≤
      (A + δ) * d + δ * M + η := by
  have h1 : |(L.map fun m => w m * x m).sum| ≤ A * M := by
    refine (abs_sum_le _ _).trans ((sum_map_le _ _ (fun m => |w m| * M) fun m hm => ?_).trans ?_)
    · rw [abs_mul]
      exact mul_le_mul_of_nonneg_left (hx m hm) (abs_nonneg _)
    · rw [sum_map_mul]
      exact mul_le_mul_of_nonneg_right hA hM
  have h2 : |(L.map fun m => w m * x m).sum - (L.map fun m => w' m * y m).sum| ≤ (A + δ) * d + δ * M := by
    rw [sum_map_sub]
    refine (abs_sum_le _ _).trans ((sum_map_le _ _
      (fun m => |w m| * d + |w' m - w m| * (d + M)) fun m hm => ?_).trans ?_)
    · have e : w m * x m - w' m * y m = w m * (x m - y m) + (w' m - w m) * (x m - y m) - (w' m - w m) * x m := by
        ring
      rw [e]
      refine (abs_sub _ _).trans ((add_le_add (abs_add_le _ _) le_rfl).trans ?_)
      rw [abs_mul, abs_mul, abs_mul]
      have a1 := mul_le_mul_of_nonneg_left (hy m hm) (abs_nonneg (w m))
      have a2 := mul_le_mul_of_nonneg_left (hy m hm) (abs_nonneg (w' m - w m))
      have a3 := mul_le_mul_of_nonneg_left (hx m hm) (abs_nonneg (w' m - w m))
      linarith
    · rw [List.sum_map_add, sum_map_mul, sum_map_mul]
      have a1 := mul_le_mul_of_nonneg_right hA hd
      have a2 := mul_le_mul_of_nonneg_right hδ (add_nonneg hd hM)
      linarith
  constructor
  · rw [abs_of_nonneg (le_max_left _ _)]
    refine max_le hAM ?_
    have := abs_le.mp h1
    have := abs_le.mp hB
    linarith
  · have h3 := abs_max_sub_max_le_abs ((L.map fun m => w m * x m).sum + β) ((L.map fun m => w' m * y m).sum + β') 0
    rw [max_comm _ (0 : ℝ), max_comm _ (0 : ℝ)] at h3
    refine h3.trans ?_
    rw [abs_le] at h2 hη ⊢
    constructor <;> linarith

variable [Libm]

/-- bounds pass through the layers as `Drift` says; the tensors `t i` serve for the shapes only -/
theorem layers_drift (b : Build) {ls ls' : List (AnyLayer F32)} {M d M' d' : ℝ} (h : Drift ls ls' M d M' d') :
    (∀ l ∈ ls, l.Ok) → (∀ l ∈ ls', l.Ok) → ∀ t : Nat → Tensor F32, 0 ≤ M → 0 ≤ d → ∀ x y : Nat → Nat → Nat → ℝ,
    (∀ i j k, (t 0).shape.Inside i j k → |x i j k| ≤ M ∧ |x i j k - y i j k| ≤ d) →
    (∀ i l, ls[i]? = some l → (t i).shape = l.get_input_shape ∧ applies b l (t i) (t (i + 1))) →
    ∀ i j k, (t ls.length).shape.Inside i j k →
      |exactNet ls x i j k| ≤ M' ∧ |exactNet ls x i j k - exactNet ls' y i j k| ≤ d' := by
  have step : ∀ (l l' : AnyLayer F32) (ls ls' : List (AnyLayer F32)) (M1 d1 M' d' : ℝ),
      ((∀ l ∈ ls, l.Ok) → (∀ l ∈ ls', l.Ok) → ∀ t : Nat → Tensor F32, 0 ≤ M1 → 0 ≤ d1 →
        ∀ x y : Nat → Nat → Nat → ℝ,
        (∀ i j k, (t 0).shape.Inside i j k → |x i j k| ≤ M1 ∧ |x i j k - y i j k| ≤ d1) →
        (∀ i l, ls[i]? = some l → (t i).shape = l.get_input_shape ∧ applies b l (t i) (t (i + 1))) →
        ∀ i j k, (t ls.length).shape.Inside i j k →
          |exactNet ls x i j k| ≤ M' ∧ |exactNet ls x i j k - exactNet ls' y i j k| ≤ d') →
      0 ≤ M1 → 0 ≤ d1 → (∀ m ∈ l :: ls, m.Ok) → (∀ m ∈ l' :: ls', m.Ok) →
      ∀ (t : Nat → Tensor F32) (x y : Nat → Nat → Nat → ℝ),
      (∀ i m, (l :: ls)[i]? = some m → (t i).shape = m.get_input_shape ∧ applies b m (t i) (t (i + 1))) →
      (∀ i j k, l.get_output_shape.Inside i j k →
        |exactLayer l x i j k| ≤ M1 ∧ |exactLayer l x i j k - exactLayer l' y i j k| ≤ d1) →
      ∀ i j k, (t (l :: ls).length).shape.Inside i j k →
        |exactNet (l :: ls) x i j k| ≤ M' ∧ |exactNet (l :: ls) x i j k - exactNet (l' :: ls') y i j k| ≤ d' := by
    intro l l' ls ls' M1 d1 M' d' ih h0 h0' hok hok' t x y hstep hnear i j k hin
    obtain ⟨_, ha⟩ := hstep 0 l rfl
    refine ih (fun m hm => hok m (List.mem_cons_of_mem _ hm)) (fun m hm => hok' m (List.mem_cons_of_mem _ hm))
      (fun i => t (i + 1)) h0 h0' (exactLayer l x) (exactLayer l' y) ?_ (fun i m hi => hstep (i + 1) m hi) i j k hin
    intro i j k h
    exact hnear i j k (by rw [← ha.2.1]; exact h)
  induction h with
  | nil M d => exact fun _ _ t _ _ x y hx _ => hx
  | fc l l' ls ls' A B δ η M d M' d' hsh hw hA hB hδ hη _ ih =>
    intro hok hok' t hM hd x y hx hstep
    obtain ⟨g, _⟩ := hstep 0 _ rfl
    rw [g] at hx
    have hl : l.Ok := hok _ List.mem_cons_self
    refine step _ _ ls ls' _ _ M' d' ih (by positivity) (by positivity) hok hok' t x y hstep fun i j k hin => ?_
    have hi : i < l.weights.shape.di.toNat := by
      change l.bias.shape.Inside i j k at hin
      rw [hl.rows] at hin
      exact hin.1
    obtain ⟨w1, w2, w3, w4⟩ := hw i hi
    simp only [exactLayer]
    rw [hsh]
    have hin' : ∀ m ∈ List.range l.weights.shape.dj.toNat, l.get_input_shape.Inside m 0 0 := fun m hm =>
      ⟨List.mem_range.mp hm, Nat.zero_lt_one, Nat.zero_lt_one⟩
    exact affine_drift _ (fun m => (val l.weights i m 0).toReal) (fun m => (val l'.weights i m 0).toReal)
      (fun m => x m 0 0) (fun m => y m 0 0) _ _ hM hd (fun m hm => (hx m 0 0 (hin' m hm)).1)
      (fun m hm => (hx m 0 0 (hin' m hm)).2) w1 w3 w2 w4 (by positivity)
  | conv l l' ls ls' A B δ η M d M' d' hst hlen hk hbias hA hB hδ hη _ ih =>
    intro hok hok' t hM hd x y hx hstep
    obtain ⟨g, _⟩ := hstep 0 _ rfl
    rw [g] at hx
    have hl : l.Ok := hok _ List.mem_cons_self
    have hl' : l'.Ok := hok' _ List.mem_cons_self
    refine step _ _ ls ls' _ _ M' d' ih (by positivity) (by positivity) hok hok' t x y hstep fun i j k hin => ?_
    have hin : l.output_shape.Inside i j k := hin
    have hx : ∀ i j k, l.input_shape.Inside i j k → |x i j k| ≤ M ∧ |x i j k - y i j k| ≤ d := hx
    have hkl : k < l.kernels.length := by rw [hl.count]; exact hin.2.2
    have hbl : k < l.biases.length := by rw [hl.biasCount]; exact hkl
    have hkl' : k < l'.kernels.length := by rw [hlen]; exact hkl
    have hbl' : k < l'.biases.length := by rw [hl'.biasCount]; exact hkl'
    obtain ⟨_, hkd, hkt⟩ := hl.kernels _ (List.getElem_mem hkl)
    obtain ⟨k1, k2, k3⟩ := hk k _ _ (List.getElem?_eq_getElem hkl) (List.getElem?_eq_getElem hkl')
    obtain ⟨b1, b2⟩ := hbias k _ _ (List.getElem?_eq_getElem hbl) (List.getElem?_eq_getElem hbl')
    simp only [exactLayer]
    rw [List.getElem?_eq_getElem hkl, List.getElem?_eq_getElem hbl, List.getElem?_eq_getElem hkl',
      List.getElem?_eq_getElem hbl', hst]
    simp only
    rw [k1]
    have hin' : ∀ p ∈ l.kernels[k].shape.indices,
        l.input_shape.Inside (i * l.stride.toNat + p.1) (j * l.stride.toNat + p.2.1) p.2.2 := by
      intro p hp
      obtain ⟨m1, m2, m3⟩ := mem_indices.mp hp
      exact ⟨tiles_lt hkt.1 hin.1 m1, tiles_lt hkt.2 hin.2.1 m2, hkd ▸ m3⟩
    have main := affine_drift l.kernels[k].shape.indices (fun p => (val l.kernels[k] p.1 p.2.1 p.2.2).toReal)
      (fun p => (val l'.kernels[k] p.1 p.2.1 p.2.2).toReal)
      (fun p => x (i * l.stride.toNat + p.1) (j * l.stride.toNat + p.2.1) p.2.2)
      (fun p => y (i * l.stride.toNat + p.1) (j * l.stride.toNat + p.2.1) p.2.2)
      (val l.biases[k] 0 0 0).toReal (val l'.biases[k] 0 0 0).toReal hM hd (fun p hp => (hx _ _ _ (hin' p hp)).1)
      (fun p hp => (hx _ _ _ (hin' p hp)).2) k2 k3 b1 b2 (by positivity)
    simpa only [mul_comm] using main
  | mp l l' ls ls' M d M' d' h1 h2 hm hst _ ih =>
    intro hok hok' t hM hd x y hx hstep
    obtain ⟨g, _⟩ := hstep 0 _ rfl
    rw [g] at hx
    have hl : l.Ok := hok _ List.mem_cons_self
    refine step _ _ ls ls' _ _ M' d' ih hM hd hok hok' t x y hstep fun i j k hin => ?_
    have e : exactLayer (.mp l') y i j k = exactLayer (.mp l) y i j k := by
      simp only [exactLayer]
      rw [hm, hst]
    rw [e]
    refine ⟨?_, mp_close hl h1 h2 (fun i j k h => (hx i j k h).2) hin⟩
    have hin : l.output_shape.Inside i j k := hin
    have p1 : 0 < l.mask_shape.di.toNat := by
      have : l.mask_shape.di.toNat ≠ 0 := fun h => h1 (UInt32.toNat_inj.mp h)
      omega
    have p2 : 0 < l.mask_shape.dj.toNat := by
      have : l.mask_shape.dj.toNat ≠ 0 := fun h => h2 (UInt32.toNat_inj.mp h)
      omega
    have : Nonempty (Fin l.mask_shape.di.toNat × Fin l.mask_shape.dj.toNat) := ⟨⟨⟨0, p1⟩, ⟨0, p2⟩⟩⟩
    have hp : ∀ p : Fin l.mask_shape.di.toNat × Fin l.mask_shape.dj.toNat,
        |x (i * l.stride.toNat + p.1) (j * l.stride.toNat + p.2) k| ≤ M := fun p =>
      (hx _ _ _ ⟨tiles_lt hl.tiles.1 hin.1 p.1.isLt, tiles_lt hl.tiles.2 hin.2.1 p.2.isLt, hl.depth ▸ hin.2.2⟩).1
    simp only [exactLayer]
    rw [abs_le]
    refine ⟨?_, ciSup_le fun q => (abs_le.mp (hp q)).2⟩
    exact (abs_le.mp (hp ⟨⟨0, p1⟩, ⟨0, p2⟩⟩)).1.trans
      (le_ciSup (f := fun p : Fin l.mask_shape.di.toNat × Fin l.mask_shape.dj.toNat =>
        x (i * l.stride.toNat + p.1) (j * l.stride.toNat + p.2) k) (Set.finite_range _).bddAbove _)
  | sm l l' ls ls' M d M' d' hsh _ ih =>
    intro hok hok' t hM hd x y hx hstep
    obtain ⟨g, _⟩ := hstep 0 _ rfl
    rw [g] at hx
    have h0 : 0 ≤ Real.exp (2 * d) - 1 := by
      have := Real.one_le_exp (show 0 ≤ 2 * d by linarith)
      linarith
    refine step _ _ ls ls' _ _ M' d' ih zero_le_one h0 hok hok' t x y hstep fun i j k hin => ?_
    have e : exactLayer (.sm l') y i j k = exactLayer (.sm l) y i j k := by
      simp only [exactLayer]
      rw [hsh]
    rw [e]
    refine ⟨?_, sm_close (fun i j k h => (hx i j k h).2) hin⟩
    have hin : l.shape.Inside i j k := hin
    simp only [exactLayer]
    have hle : Real.exp (x i j k) ≤ (l.shape.indices.map fun p => Real.exp (x p.1 p.2.1 p.2.2)).sum :=
      List.single_le_sum (by
        intro r hr
        obtain ⟨p, _, rfl⟩ := List.mem_map.mp hr
        exact (Real.exp_pos _).le) _ (List.mem_map.mpr ⟨(i, j, k), mem_indices.mpr hin, rfl⟩)
    have hpos := (Real.exp_pos (x i j k)).trans_le hle
    rw [abs_of_nonneg (div_nonneg (Real.exp_pos _).le hpos.le), div_le_one hpos]
    exact hle

end Rusty
