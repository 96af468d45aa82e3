import Verif.Spec.Descent
import Verif.Props.NetworkDerivative
import Mathlib.Analysis.Calculus.Deriv.Slope

/-! # Lemmas about gradient descent -/

namespace Rusty

open F32Ops Spec Exact

theorem hasDerivAt_total {s : TensorShape} {f : ℝ → Nat → Nat → Nat → ℝ} {f' : Nat → Nat → Nat → ℝ} {t0 : ℝ}
    (h : ∀ i j k, s.Inside i j k → HasDerivAt (fun t => f t i j k) (f' i j k) t0) :
    HasDerivAt (fun t => total s (f t)) (total s f') t0 := by
  unfold total
  exact HasDerivAt.fun_sum fun k hk => HasDerivAt.fun_sum fun j hj => HasDerivAt.fun_sum fun i hi =>
    h i j k ⟨Finset.mem_range.mp hi, Finset.mem_range.mp hj, Finset.mem_range.mp hk⟩

theorem total_nonneg' {s : TensorShape} {f : Nat → Nat → Nat → ℝ} (h : ∀ i j k, 0 ≤ f i j k) :
    0 ≤ total s f :=
  Finset.sum_nonneg fun _ _ => Finset.sum_nonneg fun _ _ => Finset.sum_nonneg fun _ _ => h _ _ _

theorem total_le_of_mem {s : TensorShape} {f : Nat → Nat → Nat → ℝ} (h : ∀ i j k, 0 ≤ f i j k) {i j k : Nat}
    (hin : s.Inside i j k) : f i j k ≤ total s f := by
  unfold total
  refine le_trans ?_ (Finset.single_le_sum (f := fun k => ∑ j ∈ Finset.range s.dj.toNat,
    ∑ i ∈ Finset.range s.di.toNat, f i j k) (fun k _ => Finset.sum_nonneg fun _ _ =>
      Finset.sum_nonneg fun _ _ => h _ _ _) (Finset.mem_range.mpr hin.2.2))
  refine le_trans ?_ (Finset.single_le_sum (f := fun j => ∑ i ∈ Finset.range s.di.toNat, f i j k)
    (fun j _ => Finset.sum_nonneg fun _ _ => h _ _ _) (Finset.mem_range.mpr hin.2.1))
  exact Finset.single_le_sum (f := fun i => f i j k) (fun i _ => h _ _ _) (Finset.mem_range.mpr hin.1)

theorem gradSq_nonneg (l l2 : Option (AnyLayer ℝ)) : 0 ≤ gradSq l l2 := by
  unfold gradSq
  split
  · exact add_nonneg (total_nonneg' fun _ _ _ => sq_nonneg _) (total_nonneg' fun _ _ _ => sq_nonneg _)
  · exact le_refl _

/-- the tensor with a one at one position -/
theorem unit_tensor {s : TensorShape} (hs : s.Fits) {i j k : Nat} (hin : s.Inside i j k) :
    ∃ u : Tensor ℝ, u.WF ∧ u.shape = s ∧ ∀ t : Tensor ℝ, inner s u t = val t i j k := by
  have hz : (zeros s : Tensor ℝ).WF := zeros_wf hs
  refine ⟨setE (zeros s) i j k 1, setE_wf hz _ _ _ _, rfl, fun t => ?_⟩
  have hv : ∀ i' j' k', s.Inside i' j' k' →
      val (setE (zeros s : Tensor ℝ) i j k 1) i' j' k' * val t i' j' k' =
        if (i', j', k') = (i, j, k) then val t i j k else 0 := by
    intro i' j' k' h'
    rw [val_setE hz hin h']
    by_cases e : i = i' ∧ j = j' ∧ k = k'
    · obtain ⟨rfl, rfl, rfl⟩ := e
      simp
    · rw [if_neg e, if_neg (fun h => e (by cases h; exact ⟨rfl, rfl, rfl⟩)), val_zeros]
      exact zero_mul _
  unfold inner
  rw [total_congr hv]
  unfold total
  beta_reduce
  rw [Finset.sum_eq_single k, Finset.sum_eq_single j, Finset.sum_eq_single i]
  · rw [if_pos rfl]
  · intro i' _ h
    rw [if_neg fun e => h (by cases e; rfl)]
  · intro h
    exact absurd (Finset.mem_range.mpr hin.1) h
  · intro j' _ h
    exact Finset.sum_eq_zero fun i' _ => by rw [if_neg fun e => h (by cases e; rfl)]
  · intro h
    exact absurd (Finset.mem_range.mpr hin.2.1) h
  · intro k' _ h
    exact Finset.sum_eq_zero fun j' _ => Finset.sum_eq_zero fun i' _ => by
      rw [if_neg fun e => h (by cases e; rfl)]
  · intro h
    exact absurd (Finset.mem_range.mpr hin.2.2) h

theorem movedBy_diff {u g1 g2 : Tensor ℝ} {t : ℝ → Tensor ℝ} (h : ∀ η, MovedBy η u g1 g2 (t η)) :
    DiffAt u.shape t (fun i j k => (-(val g2 i j k - val g1 i j k)) • ContinuousLinearMap.id ℝ ℝ) 0 := by
  intro i j k hin
  rw [show (fun η => val (t η) i j k) = fun η => val u i j k - η * (val g2 i j k - val g1 i j k) from
    funext fun η => (h η).2.2 i j k hin]
  have := ((hasDerivAt_id (0 : ℝ)).mul_const (val g2 i j k - val g1 i j k)).const_sub (val u i j k)
  rw [one_mul] at this
  rw [hasFDerivAt_iff_hasDerivAt]
  simpa using this

theorem movedBy_zero {u g1 g2 t : Tensor ℝ} (hu : u.WF) (h : MovedBy 0 u g1 g2 t) : t = u :=
  tensor_ext h.1 hu h.2.1 fun i j k hin => by
    rw [h.2.2 i j k (h.2.1 ▸ hin)]
    ring

theorem infer_output {F : Type} [F32Ops F] {b : Build} {n m : Net F} (hok : NetOk n) (hne : n.layers ≠ [])
    {x y : Tensor F} (hx : x.WF) (hxs : x.shape = n.input_shape) (hm : n.infer b x = .ok (.ok (), m))
    (hy : m.get_output = .ok y) : y.WF ∧ y.shape = n.output_shape := by
  obtain ⟨n', h1, h2, h3⟩ := infer_ok (b := b) hok hne hx hxs
  cases h1.symm.trans hm
  have hc' := uses_chain hok.chain (.infer _ _ _ _ h1)
  have hl : m.layers.length = n.layers.length := forall₂_length (infer_effect n x _ h1).1
  have hpos : n.layers.length ≠ 0 := fun e => hne (List.length_eq_zero_iff.mp e)
  have hlen := chain_length hc'
  rw [if_neg (fun h => hpos (by rw [← hl, h]; rfl)), hl] at hlen
  obtain ⟨l, hlast⟩ : ∃ l, n.layers[n.layers.length - 1]? = some l :=
    ⟨_, List.getElem?_eq_getElem (by omega)⟩
  obtain ⟨s, s', _, e2, e3, _⟩ := h3 _ l hlast
  rw [show n.layers.length - 1 + 1 = n.layers.length by omega] at e2
  have : y = s' := by
    unfold Network.get_output at hy
    rw [if_neg (by omega), List.getLast?_eq_getElem?, hlen, show n.layers.length + 1 - 1 =
      n.layers.length by omega, e2] at hy
    cases hy
    rfl
  subst this
  exact ⟨e3.1, e3.2.1.trans (hok.chain.last l (by rw [List.getLast?_eq_getElem?]; exact hlast)).symm⟩

theorem total_apply (s : TensorShape) (f : Nat → Nat → Nat → ℝ) :
    (total s fun i j k => f i j k • (-f i j k) • ContinuousLinearMap.id ℝ ℝ) 1 =
      -total s fun i j k => f i j k ^ 2 := by
  unfold total
  simp only [_root_.sum_apply, ← Finset.sum_neg_distrib]
  refine Finset.sum_congr rfl fun k _ => Finset.sum_congr rfl fun j _ => Finset.sum_congr rfl fun i _ => ?_
  simp only [_root_.smul_apply, ContinuousLinearMap.id_apply, smul_eq_mul]
  ring

theorem lower_of_deriv {f : ℝ → ℝ} {d : ℝ} (h : HasDerivAt f d 0) (hd : d < 0) :
    ∃ η0 > 0, ∀ η, 0 < η → η < η0 → f η < f 0 := by
  have h1 := (hasDerivAt_iff_tendsto_slope.mp h).eventually_lt_const hd
  rw [eventually_nhdsWithin_iff, Metric.eventually_nhds_iff] at h1
  obtain ⟨ε, h2, h3⟩ := h1
  refine ⟨ε, h2, fun η a1 a2 => ?_⟩
  have := h3 (y := η) (by rw [Real.dist_eq, sub_zero, abs_of_pos a1]; exact a2) (by simpa using a1.ne')
  rw [slope_def_field, sub_zero, div_neg_iff] at this
  rcases this with ⟨_, h⟩ | ⟨h, _⟩
  · linarith
  · linarith

/-- a tensor with prescribed entries -/
theorem tensor_of_fn {F : Type} [F32Ops F] {s : TensorShape} (hs : s.Fits) (f : Nat → Nat → Nat → F) :
    ∃ t : Tensor F, t.WF ∧ t.shape = s ∧ ∀ i j k, s.Inside i j k → val t i j k = f i j k := by
  let d := (List.range s.count).map fun p =>
    f (p % s.di.toNat) (p / s.di.toNat % s.dj.toNat) (p / (s.di.toNat * s.dj.toNat))
  refine ⟨{ (zeros s : Tensor F) with data := d }, wf_data (zeros_wf hs) _ (by simp [zeros, d]), rfl, fun i j k hin => ?_⟩
  have hlt : pos s i j k < s.count := by
    have := pos_lt_len (zeros_wf (F := F) hs) hin
    rwa [(zeros_wf (F := F) hs).len] at this
  obtain ⟨h1, h2, h3⟩ := hin
  have e1 : pos s i j k % s.di.toNat = i := by
    unfold pos
    rw [Nat.mul_assoc, Nat.add_assoc, ← Nat.mul_add, Nat.add_mul_mod_self_left, Nat.mod_eq_of_lt h1]
  have e2 : pos s i j k / s.di.toNat = j + s.dj.toNat * k := by
    unfold pos
    rw [Nat.mul_assoc, Nat.add_assoc, ← Nat.mul_add, Nat.add_mul_div_left _ _ (by omega),
      Nat.div_eq_of_lt h1, Nat.zero_add]
  have e3 : pos s i j k / s.di.toNat % s.dj.toNat = j := by
    rw [e2, Nat.add_mul_mod_self_left, Nat.mod_eq_of_lt h2]
  have e4 : pos s i j k / (s.di.toNat * s.dj.toNat) = k := by
    rw [← Nat.div_div_eq_div_mul, e2, Nat.add_mul_div_left _ _ (by omega), Nat.div_eq_of_lt h2, Nat.zero_add]
  unfold val
  simp only [zeros, d, List.getElem?_map]
  rw [List.getElem?_range hlt, Option.map_some, e1, e3, e4]
  rfl

end Rusty
