import Verif.Spec.Robust
import Verif.Lemmas.IEEENetwork

/-! # Helper lemmas: distances pass through layers in exact arithmetic -/

namespace Rusty

open F32Ops Spec F32

variable [Libm]

omit [Libm] in
/-- a rectified weighted sum -/
theorem affine_close {ι : Type} (L : List ι) (r s W : ι → ℝ) (β : ℝ) {A d : ℝ} (hd : 0 ≤ d)
    (h : ∀ m ∈ L, |r m - s m| ≤ W m * d) (hW : (L.map W).sum ≤ A) :
    |max 0 ((L.map r).sum + β) - max 0 ((L.map s).sum + β)| ≤ A * d := by
  have h1 : |(L.map r).sum - (L.map s).sum| ≤ A * d := by
    rw [sum_map_sub]
    refine (abs_sum_le _ _).trans ((sum_map_le _ _ _ h).trans ?_)
    rw [sum_map_mul]
    exact mul_le_mul_of_nonneg_right hW hd
  have h2 := abs_max_sub_max_le_abs ((L.map r).sum + β) ((L.map s).sum + β) 0
  rw [max_comm _ (0 : ℝ), max_comm _ (0 : ℝ), add_sub_add_right_eq_sub] at h2
  exact h2.trans h1

theorem fc_close {l : FullyConnectedLayer F32} (hl : l.Ok) {A d : ℝ} (hd : 0 ≤ d)
    (hw : ∀ o, o < l.weights.shape.di.toNat →
      ((List.range l.weights.shape.dj.toNat).map fun i => |(val l.weights o i 0).toReal|).sum ≤ A)
    {x y : Nat → Nat → Nat → ℝ}
    (hx : ∀ i j k, l.get_input_shape.Inside i j k → |x i j k - y i j k| ≤ d) {i j k : Nat}
    (hin : l.get_output_shape.Inside i j k) :
    |exactLayer (.fc l) x i j k - exactLayer (.fc l) y i j k| ≤ A * d := by
  have hi : i < l.weights.shape.di.toNat := by
    unfold FullyConnectedLayer.get_output_shape at hin
    rw [hl.rows] at hin
    exact hin.1
  simp only [exactLayer]
  refine affine_close _ _ _ (fun m => |(val l.weights i m 0).toReal|) _ hd (fun m hm => ?_) (hw i hi)
  rw [← mul_sub, abs_mul]
  exact mul_le_mul_of_nonneg_left
    (hx m 0 0 ⟨List.mem_range.mp hm, Nat.zero_lt_one, Nat.zero_lt_one⟩) (abs_nonneg _)

theorem conv_close {l : ConvolutionalLayer F32} (hl : l.Ok) {A d : ℝ} (hd : 0 ≤ d)
    (hw : ∀ kernel ∈ l.kernels,
      (kernel.shape.indices.map fun p => |(val kernel p.1 p.2.1 p.2.2).toReal|).sum ≤ A)
    {x y : Nat → Nat → Nat → ℝ}
    (hx : ∀ i j k, l.input_shape.Inside i j k → |x i j k - y i j k| ≤ d) {i j k : Nat}
    (hin : l.output_shape.Inside i j k) :
    |exactLayer (.conv l) x i j k - exactLayer (.conv l) y i j k| ≤ A * d := by
  have hkl : k < l.kernels.length := by rw [hl.count]; exact hin.2.2
  have hbl : k < l.biases.length := by rw [hl.biasCount]; exact hkl
  have hkm := List.getElem_mem hkl
  obtain ⟨_, hkd, hkt⟩ := hl.kernels _ hkm
  have e : ∀ u : Nat → Nat → Nat → ℝ,
      exactLayer (.conv l) u i j k = max 0 ((l.kernels[k].shape.indices.map fun p =>
        u (i * l.stride.toNat + p.1) (j * l.stride.toNat + p.2.1) p.2.2 *
          (val l.kernels[k] p.1 p.2.1 p.2.2).toReal).sum + (val l.biases[k] 0 0 0).toReal) := by
    intro u
    simp only [exactLayer]
    rw [List.getElem?_eq_getElem hkl, List.getElem?_eq_getElem hbl]
  have hk : ∀ p ∈ l.kernels[k].shape.indices,
      |x (i * l.stride.toNat + p.1) (j * l.stride.toNat + p.2.1) p.2.2 *
          (val l.kernels[k] p.1 p.2.1 p.2.2).toReal -
        y (i * l.stride.toNat + p.1) (j * l.stride.toNat + p.2.1) p.2.2 *
          (val l.kernels[k] p.1 p.2.1 p.2.2).toReal| ≤ |(val l.kernels[k] p.1 p.2.1 p.2.2).toReal| * d := by
    intro p hp
    obtain ⟨m1, m2, m3⟩ := mem_indices.mp hp
    rw [← sub_mul, abs_mul, mul_comm]
    refine mul_le_mul_of_nonneg_left (hx _ _ _ ?_) (abs_nonneg _)
    exact ⟨tiles_lt hkt.1 hin.1 m1, tiles_lt hkt.2 hin.2.1 m2, hkd ▸ m3⟩
  rw [e, e]
  exact affine_close _ _ _ _ _ hd hk (hw _ hkm)

theorem mp_close {l : MaxPoolLayer} (hl : l.Ok) {d : ℝ} (h1 : l.mask_shape.di ≠ 0)
    (h2 : l.mask_shape.dj ≠ 0) {x y : Nat → Nat → Nat → ℝ}
    (hx : ∀ i j k, l.input_shape.Inside i j k → |x i j k - y i j k| ≤ d) {i j k : Nat}
    (hin : l.output_shape.Inside i j k) :
    |exactLayer (.mp l) x i j k - exactLayer (.mp l) y i j k| ≤ d := by
  have p1 : 0 < l.mask_shape.di.toNat := by
    have : l.mask_shape.di.toNat ≠ 0 := fun h => h1 (UInt32.toNat_inj.mp h)
    omega
  have p2 : 0 < l.mask_shape.dj.toNat := by
    have : l.mask_shape.dj.toNat ≠ 0 := fun h => h2 (UInt32.toNat_inj.mp h)
    omega
  have : Nonempty (Fin l.mask_shape.di.toNat × Fin l.mask_shape.dj.toNat) := ⟨⟨⟨0, p1⟩, ⟨0, p2⟩⟩⟩
  have hp : ∀ p : Fin l.mask_shape.di.toNat × Fin l.mask_shape.dj.toNat,
      |x (i * l.stride.toNat + p.1) (j * l.stride.toNat + p.2) k -
        y (i * l.stride.toNat + p.1) (j * l.stride.toNat + p.2) k| ≤ d := fun p =>
    hx _ _ _ ⟨tiles_lt hl.tiles.1 hin.1 p.1.isLt, tiles_lt hl.tiles.2 hin.2.1 p.2.isLt, hl.depth ▸ hin.2.2⟩
  have up : ∀ u v : Nat → Nat → Nat → ℝ, (∀ p : Fin l.mask_shape.di.toNat × Fin l.mask_shape.dj.toNat,
      u (i * l.stride.toNat + p.1) (j * l.stride.toNat + p.2) k ≤
        v (i * l.stride.toNat + p.1) (j * l.stride.toNat + p.2) k + d) →
      exactLayer (.mp l) u i j k ≤ exactLayer (.mp l) v i j k + d := by
    intro u v h
    simp only [exactLayer]
    refine ciSup_le fun q => (h q).trans (add_le_add_left ?_ d)
    exact le_ciSup (f := fun p : Fin l.mask_shape.di.toNat × Fin l.mask_shape.dj.toNat =>
      v (i * l.stride.toNat + p.1) (j * l.stride.toNat + p.2) k) (Set.finite_range _).bddAbove q
  have u1 := up x y fun p => by have := abs_le.mp (hp p); linarith
  have u2 := up y x fun p => by have := abs_le.mp (hp p); linarith
  rw [abs_le]
  constructor <;> linarith

theorem sm_close {l : SoftmaxLayer F32} {d : ℝ} {x y : Nat → Nat → Nat → ℝ}
    (hx : ∀ i j k, l.shape.Inside i j k → |x i j k - y i j k| ≤ d) {i j k : Nat}
    (hin : l.shape.Inside i j k) :
    |exactLayer (.sm l) x i j k - exactLayer (.sm l) y i j k| ≤ Real.exp (2 * d) - 1 :=
  (softmax_lipschitz l.shape.indices (fun p => y p.1 p.2.1 p.2.2) (fun p => x p.1 p.2.1 p.2.2)
    (mem_indices.mpr hin) fun _ hp => hx _ _ _ (mem_indices.mp hp)).1

/-- Distances pass through the layers as `Gain` says; the tensors `t i` serve for the shapes only. -/
theorem layers_close (b : Build) {ls : List (AnyLayer F32)} {d d' : ℝ} (hG : Gain ls d d') :
    (∀ l ∈ ls, l.Ok) → ∀ t : Nat → Tensor F32, 0 ≤ d → ∀ x y : Nat → Nat → Nat → ℝ,
    (∀ i j k, (t 0).shape.Inside i j k → |x i j k - y i j k| ≤ d) →
    (∀ i l, ls[i]? = some l → (t i).shape = l.get_input_shape ∧ applies b l (t i) (t (i + 1))) →
    ∀ i j k, (t ls.length).shape.Inside i j k → |exactNet ls x i j k - exactNet ls y i j k| ≤ d' := by
  have step : ∀ (l : AnyLayer F32) (ls : List (AnyLayer F32)) (d1 d' : ℝ),
      ((∀ l ∈ ls, l.Ok) → ∀ t : Nat → Tensor F32, 0 ≤ d1 → ∀ x y : Nat → Nat → Nat → ℝ,
        (∀ i j k, (t 0).shape.Inside i j k → |x i j k - y i j k| ≤ d1) →
        (∀ i l, ls[i]? = some l → (t i).shape = l.get_input_shape ∧ applies b l (t i) (t (i + 1))) →
        ∀ i j k, (t ls.length).shape.Inside i j k → |exactNet ls x i j k - exactNet ls y i j k| ≤ d') →
      0 ≤ d1 → (∀ m ∈ l :: ls, m.Ok) → ∀ (t : Nat → Tensor F32) (x y : Nat → Nat → Nat → ℝ),
      (∀ i m, (l :: ls)[i]? = some m → (t i).shape = m.get_input_shape ∧ applies b m (t i) (t (i + 1))) →
      (∀ i j k, l.get_output_shape.Inside i j k → |exactLayer l x i j k - exactLayer l y i j k| ≤ d1) →
      ∀ i j k, (t (l :: ls).length).shape.Inside i j k →
        |exactNet (l :: ls) x i j k - exactNet (l :: ls) y i j k| ≤ d' := by
    intro l ls d1 d' ih h0 hok t x y hstep hnear i j k hin
    obtain ⟨_, ha⟩ := hstep 0 l rfl
    refine ih (fun m hm => hok m (List.mem_cons_of_mem _ hm)) (fun i => t (i + 1)) h0
      (exactLayer l x) (exactLayer l y) ?_ (fun i m hi => hstep (i + 1) m hi) i j k hin
    intro i j k h
    exact hnear i j k (by rw [← ha.2.1]; exact h)
  induction hG with
  | nil d => exact fun _ t _ x y hx _ => hx
  | fc l ls A d d' hw hA0 _ ih =>
    intro hok t hd x y hx hstep
    obtain ⟨g, _⟩ := hstep 0 _ rfl
    rw [g] at hx
    exact step _ ls _ d' ih (by positivity) hok t x y hstep fun i j k hin =>
      fc_close (hok _ (List.mem_cons_self ..)) hd hw hx hin
  | conv l ls A d d' hw hA0 _ ih =>
    intro hok t hd x y hx hstep
    obtain ⟨g, _⟩ := hstep 0 _ rfl
    rw [g] at hx
    exact step _ ls _ d' ih (by positivity) hok t x y hstep fun i j k hin =>
      conv_close (hok _ (List.mem_cons_self ..)) hd hw hx hin
  | mp l ls d d' h1 h2 _ ih =>
    intro hok t hd x y hx hstep
    obtain ⟨g, _⟩ := hstep 0 _ rfl
    rw [g] at hx
    exact step _ ls _ d' ih hd hok t x y hstep fun i j k hin =>
      mp_close (hok _ (List.mem_cons_self ..)) h1 h2 hx hin
  | sm l ls d d' _ ih =>
    intro hok t hd x y hx hstep
    obtain ⟨g, _⟩ := hstep 0 _ rfl
    rw [g] at hx
    have h0 : 0 ≤ Real.exp (2 * d) - 1 := by
      have := Real.one_le_exp (show 0 ≤ 2 * d by linarith)
      linarith
    exact step _ ls _ d' ih h0 hok t x y hstep fun i j k hin => sm_close hx hin

omit [Libm] in
/-- an element of a list is at most the sum of a list of numbers that are not negative -/
theorem le_sum_map {ι : Type} (l : List ι) (f : ι → ℝ) (h : ∀ a ∈ l, 0 ≤ f a) {a : ι} (ha : a ∈ l) :
    f a ≤ (l.map f).sum :=
  List.single_le_sum (fun y hy => by
    obtain ⟨c, hc, rfl⟩ := List.mem_map.mp hy
    exact h c hc) _ (List.mem_map_of_mem ha)

/-- what a layer computes depends on the values inside its input shape only -/
theorem layer_agree {l : AnyLayer F32} (hl : l.Ok) {x y : Nat → Nat → Nat → ℝ}
    (h : ∀ i j k, l.get_input_shape.Inside i j k → |x i j k - y i j k| ≤ 0) {i j k : Nat}
    (hin : l.get_output_shape.Inside i j k) : |exactLayer l x i j k - exactLayer l y i j k| ≤ 0 := by
  cases l with
  | fc l =>
    have h0 : ∀ o ∈ List.range l.weights.shape.di.toNat,
        0 ≤ ((List.range l.weights.shape.dj.toNat).map fun i => |(val l.weights o i 0).toReal|).sum := by
      intro o _
      exact List.sum_nonneg fun y hy => by
        obtain ⟨c, _, rfl⟩ := List.mem_map.mp hy
        exact abs_nonneg _
    have := fc_close (A := ((List.range l.weights.shape.di.toNat).map fun o =>
      ((List.range l.weights.shape.dj.toNat).map fun i => |(val l.weights o i 0).toReal|).sum).sum) hl le_rfl
      (fun o ho => le_sum_map _ _ h0 (List.mem_range.mpr ho)) h hin
    rwa [mul_zero] at this
  | conv l =>
    have h0 : ∀ kernel ∈ l.kernels,
        0 ≤ (kernel.shape.indices.map fun p => |(val kernel p.1 p.2.1 p.2.2).toReal|).sum := by
      intro kernel _
      exact List.sum_nonneg fun y hy => by
        obtain ⟨c, _, rfl⟩ := List.mem_map.mp hy
        exact abs_nonneg _
    have := conv_close (A := (l.kernels.map fun kernel =>
      (kernel.shape.indices.map fun p => |(val kernel p.1 p.2.1 p.2.2).toReal|).sum).sum) hl le_rfl
      (fun kernel hk => le_sum_map _ _ h0 hk) h hin
    rwa [mul_zero] at this
  | mp l =>
    by_cases h1 : l.mask_shape.di = 0
    · have : IsEmpty (Fin l.mask_shape.di.toNat × Fin l.mask_shape.dj.toNat) := by
        rw [h1]
        exact ⟨fun p => p.1.elim0⟩
      simp only [exactLayer, Real.iSup_of_isEmpty, sub_self, abs_zero, le_refl]
    · by_cases h2 : l.mask_shape.dj = 0
      · have : IsEmpty (Fin l.mask_shape.di.toNat × Fin l.mask_shape.dj.toNat) := by
          rw [h2]
          exact ⟨fun p => p.2.elim0⟩
        simp only [exactLayer, Real.iSup_of_isEmpty, sub_self, abs_zero, le_refl]
      · exact mp_close hl h1 h2 h hin
  | sm l =>
    have := sm_close h hin
    rwa [mul_zero, Real.exp_zero, sub_self] at this

/-- what layers compute depends on the values inside their input shape only -/
theorem layers_agree (b : Build) : ∀ (ls : List (AnyLayer F32)), (∀ l ∈ ls, l.Ok) → ∀ t : Nat → Tensor F32,
    ∀ x y : Nat → Nat → Nat → ℝ, (∀ i j k, (t 0).shape.Inside i j k → |x i j k - y i j k| ≤ 0) →
    (∀ i l, ls[i]? = some l → (t i).shape = l.get_input_shape ∧ applies b l (t i) (t (i + 1))) →
    ∀ i j k, (t ls.length).shape.Inside i j k → |exactNet ls x i j k - exactNet ls y i j k| ≤ 0 := by
  intro ls
  induction ls with
  | nil => exact fun _ t x y hx _ => hx
  | cons l ls ih =>
    intro hok t x y hx hstep i j k hin
    obtain ⟨g, ha⟩ := hstep 0 l rfl
    rw [g] at hx
    exact ih (fun m hm => hok m (List.mem_cons_of_mem _ hm)) (fun i => t (i + 1)) (exactLayer l x) (exactLayer l y)
      (fun i j k h => layer_agree (hok l (List.mem_cons_self ..)) hx (by rw [← ha.2.1]; exact h))
      (fun i m hi => hstep (i + 1) m hi) i j k hin

end Rusty
