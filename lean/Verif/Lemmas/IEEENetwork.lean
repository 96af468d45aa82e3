import Verif.Lemmas.IEEEAccuracy

/-! # Helper lemmas: how errors pass through layers -/

namespace Rusty

open F32Ops Spec F32

variable [Libm]

/-! ## Affine layers -/

/-- A sum of products `f n * g n` and a bias, compared with exact terms `r n`; `W n` is the absolute weight of
the term. -/
theorem affine_pre_near {ι : Type} (L : List ι) (f g : ι → F32) (β : F32) (r W : ι → ℝ) {n : Nat}
    {A B M e : ℝ} (hlen : L.length ≤ n) (hn : n < 2 ^ 22)
    (hf : ∀ m ∈ L, (f m).isFinite = true ∧ (g m).isFinite = true) (hβ : β.isFinite = true)
    (h1 : ∀ m ∈ L, |(f m).toReal * (g m).toReal| ≤ W m * (M + e))
    (h2 : ∀ m ∈ L, |(f m).toReal * (g m).toReal - r m| ≤ W m * e)
    (h3 : ∀ m ∈ L, |r m| ≤ W m * M) (hW : (L.map W).sum ≤ A) (hB : |β.toReal| ≤ B)
    (hM : 0 ≤ M) (he : 0 ≤ e) (hmax : A * (M + e) + B ≤ 2 ^ 125) :
    (F32.add (Spec.sum (L.map fun m => F32.mul (f m) (g m))) β).isFinite = true ∧
    |(F32.add (Spec.sum (L.map fun m => F32.mul (f m) (g m))) β).toReal -
        ((L.map r).sum + β.toReal)| ≤
      A * e + ((n + 2) / 2 ^ 23 * (A * (M + e) + B) + (n + 1) / 2 ^ 149) ∧
    |(L.map r).sum| ≤ A * M := by
  have s1 : (L.map fun m => |(f m).toReal * (g m).toReal|).sum ≤ A * (M + e) := by
    refine (sum_map_le _ _ _ h1).trans ?_
    rw [sum_map_mul]
    exact mul_le_mul_of_nonneg_right hW (by linarith)
  have s2 : |(L.map fun m => (f m).toReal * (g m).toReal).sum - (L.map r).sum| ≤ A * e := by
    rw [sum_map_sub]
    refine (abs_sum_le _ _).trans ((sum_map_le _ _ _ h2).trans ?_)
    rw [sum_map_mul]
    exact mul_le_mul_of_nonneg_right hW he
  have s3 : |(L.map r).sum| ≤ A * M := by
    refine (abs_sum_le _ _).trans ((sum_map_le _ _ _ h3).trans ?_)
    rw [sum_map_mul]
    exact mul_le_mul_of_nonneg_right hW hM
  have hfin := affine_finite L f g β (by omega) hf hβ (by linarith)
  have hA0 : 0 ≤ (L.map fun m => |(f m).toReal * (g m).toReal|).sum + |β.toReal| :=
    add_nonneg ((abs_nonneg _).trans (abs_sum_le _ fun m => (f m).toReal * (g m).toReal))
      (abs_nonneg _)
  have hee := (affine_error L f g β hfin).trans (errBound_le (by omega) hA0)
  push_cast at hee
  have hlen' : (L.length : ℝ) ≤ n := by exact_mod_cast hlen
  have hbound : ((L.length : ℝ) + 1 + 1) / 2 ^ 23 *
      ((L.map fun m => |(f m).toReal * (g m).toReal|).sum + |β.toReal|) ≤
      (n + 2) / 2 ^ 23 * (A * (M + e) + B) := by
    apply mul_le_mul _ (by linarith) hA0 (by positivity)
    apply div_le_div_of_nonneg_right _ (by positivity)
    linarith
  have hbound2 : ((L.length : ℝ) + 1) / 2 ^ 149 ≤ (n + 1) / 2 ^ 149 := by
    apply div_le_div_of_nonneg_right _ (by positivity)
    linarith
  have key : |(F32.add (Spec.sum (L.map fun m => F32.mul (f m) (g m))) β).toReal -
      ((L.map r).sum + β.toReal)| ≤
      A * e + ((n + 2) / 2 ^ 23 * (A * (M + e) + B) + (n + 1) / 2 ^ 149) := by
    have t := abs_sub_le (F32.add (Spec.sum (L.map fun m => F32.mul (f m) (g m))) β).toReal
      ((L.map fun m => (f m).toReal * (g m).toReal).sum + β.toReal) ((L.map r).sum + β.toReal)
    rw [add_sub_add_right_eq_sub] at t
    linarith
  exact ⟨hfin, key, s3⟩

/-- A rectified sum of products `f n * g n` and a bias, compared with exact terms `r n`; `W n` is the
absolute weight of the term. -/
theorem affine_near {ι : Type} (L : List ι) (f g : ι → F32) (β : F32) (r W : ι → ℝ) {n : Nat}
    {A B M e : ℝ} (hlen : L.length ≤ n) (hn : n < 2 ^ 22)
    (hf : ∀ m ∈ L, (f m).isFinite = true ∧ (g m).isFinite = true) (hβ : β.isFinite = true)
    (h1 : ∀ m ∈ L, |(f m).toReal * (g m).toReal| ≤ W m * (M + e))
    (h2 : ∀ m ∈ L, |(f m).toReal * (g m).toReal - r m| ≤ W m * e)
    (h3 : ∀ m ∈ L, |r m| ≤ W m * M) (hW : (L.map W).sum ≤ A) (hB : |β.toReal| ≤ B)
    (hM : 0 ≤ M) (he : 0 ≤ e) (hmax : A * (M + e) + B ≤ 2 ^ 125) :
    (Spec.relu (F32.add (Spec.sum (L.map fun m => F32.mul (f m) (g m))) β)).isFinite = true ∧
    |(Spec.relu (F32.add (Spec.sum (L.map fun m => F32.mul (f m) (g m))) β)).toReal -
        max 0 ((L.map r).sum + β.toReal)| ≤
      A * e + ((n + 2) / 2 ^ 23 * (A * (M + e) + B) + (n + 1) / 2 ^ 149) ∧
    |max 0 ((L.map r).sum + β.toReal)| ≤ A * M + B := by
  obtain ⟨hfin, key, s3⟩ := affine_pre_near L f g β r W hlen hn hf hβ h1 h2 h3 hW hB hM he hmax
  obtain ⟨k1, k2⟩ := relu_error hfin key
  refine ⟨k1, k2, ?_⟩
  have t1 := abs_le.mp s3
  have t2 := abs_le.mp hB
  rw [abs_le]
  constructor
  · have : (0 : ℝ) ≤ max 0 ((L.map r).sum + β.toReal) := le_max_left _ _
    have h5 := abs_nonneg (L.map r).sum
    have h6 := abs_nonneg β.toReal
    linarith
  · refine max_le ?_ (by linarith)
    have h5 := abs_nonneg (L.map r).sum
    have h6 := abs_nonneg β.toReal
    linarith

omit [Libm] in
/-- one term: weight `w`, input `y` near `x` -/
theorem term_near {w y x M e : ℝ} (h1 : |y - x| ≤ e) (h2 : |x| ≤ M) :
    |w * y| ≤ |w| * (M + e) ∧ |w * y - w * x| ≤ |w| * e ∧ |w * x| ≤ |w| * M := by
  refine ⟨?_, ?_, ?_⟩
  · rw [abs_mul]
    refine mul_le_mul_of_nonneg_left ?_ (abs_nonneg _)
    have := abs_le.mp h1
    have := abs_le.mp h2
    rw [abs_le]; constructor <;> linarith
  · rw [← mul_sub, abs_mul]
    exact mul_le_mul_of_nonneg_left h1 (abs_nonneg _)
  · rw [abs_mul]
    exact mul_le_mul_of_nonneg_left h2 (abs_nonneg _)

theorem act_relu (m : NetworkRunState) {v : F32} (hv : Summed v) : act m v = Spec.relu v := by
  cases m
  · exact MaxZero.fmax_zero v hv
  · rfl

/-! ## Max pooling -/

theorem maxOf_finite {w : List F32} (hne : w ≠ []) (hf : ∀ v ∈ w, v.isFinite = true) :
    maxOf w ∈ w ∧ ∀ v ∈ w, v.toReal ≤ (maxOf w).toReal := by
  have h : isMax w (maxOf w) := runMax_spec w
  obtain ⟨h1, h2⟩ := h
  have hm : maxOf w ∈ w := by
    rcases h2 with ⟨h2, _⟩ | ⟨_, h2⟩
    · exact h2
    · obtain ⟨v, hv⟩ := List.exists_mem_of_ne_nil w hne
      have := h2 v hv
      rw [show F32Ops.gt v (negInf : F32) = true from gt_negInf (hf v hv)] at this
      cases this
  refine ⟨hm, fun v hv => ?_⟩
  by_contra hc
  have := (gt_real (hf v hv) (hf _ hm)).mpr (not_le.mp hc)
  rw [show F32.gt v (maxOf w) = false from h1 v hv] at this
  cases this

/-! ## Softmax -/

omit [Libm] in
theorem softmax_lipschitz {ι : Type} (L : List ι) (x y : ι → ℝ) {e : ℝ} {m : ι} (hm : m ∈ L)
    (h : ∀ p ∈ L, |y p - x p| ≤ e) :
    |Real.exp (y m) / (L.map fun p => Real.exp (y p)).sum -
        Real.exp (x m) / (L.map fun p => Real.exp (x p)).sum| ≤ Real.exp (2 * e) - 1 ∧
    0 ≤ Real.exp (x m) / (L.map fun p => Real.exp (x p)).sum ∧
    Real.exp (x m) / (L.map fun p => Real.exp (x p)).sum ≤ 1 := by
  have hx0 : 0 < (L.map fun p => Real.exp (x p)).sum :=
    sum_map_pos _ _ (fun _ _ => Real.exp_pos _) (List.ne_nil_of_mem hm)
  have hy0 : 0 < (L.map fun p => Real.exp (y p)).sum :=
    sum_map_pos _ _ (fun _ _ => Real.exp_pos _) (List.ne_nil_of_mem hm)
  have le1 : ∀ z : ι → ℝ, Real.exp (z m) ≤ (L.map fun p => Real.exp (z p)).sum := fun z =>
    List.single_le_sum (fun v hv => by
      obtain ⟨p, _, rfl⟩ := List.mem_map.mp hv
      exact (Real.exp_pos _).le) _ (List.mem_map.mpr ⟨m, hm, rfl⟩)
  have up : ∀ z t : ι → ℝ, (∀ p ∈ L, z p ≤ t p + e) →
      (L.map fun p => Real.exp (z p)).sum ≤ (L.map fun p => Real.exp (t p)).sum * Real.exp e := by
    intro z t hz
    rw [← sum_map_mul]
    refine sum_map_le _ _ _ fun p hp => ?_
    rw [← Real.exp_add]
    exact Real.exp_le_exp.mpr (hz p hp)
  have hyx := up y x fun p hp => by have := abs_le.mp (h p hp); linarith
  have hxy := up x y fun p hp => by have := abs_le.mp (h p hp); linarith
  have hm' := abs_le.mp (h m hm)
  have hE := Real.exp_pos e
  have h2e : Real.exp (2 * e) = Real.exp e * Real.exp e := by rw [two_mul, Real.exp_add]
  -- the quotients differ by a factor of at most `exp (2 e)`
  have q : ∀ a b s t : ℝ, 0 < s → 0 < t → 0 < a → a ≤ b * Real.exp e → t ≤ s * Real.exp e →
      a / s ≤ b / t * Real.exp (2 * e) := by
    intro a b s t hs ht ha h1 h2
    have hb : 0 < b := by
      by_contra hc
      have := mul_nonpos_of_nonpos_of_nonneg (not_lt.mp hc) hE.le
      linarith
    rw [h2e, div_mul_eq_mul_div, div_le_div_iff₀ hs ht]
    calc a * t ≤ (b * Real.exp e) * (s * Real.exp e) := mul_le_mul h1 h2 ht.le (by positivity)
      _ = b * (Real.exp e * Real.exp e) * s := by ring
  have q1 := q (Real.exp (y m)) (Real.exp (x m)) _ _ hy0 hx0 (Real.exp_pos _)
    (by rw [← Real.exp_add]; exact Real.exp_le_exp.mpr (by linarith)) hxy
  have q2 := q (Real.exp (x m)) (Real.exp (y m)) _ _ hx0 hy0 (Real.exp_pos _)
    (by rw [← Real.exp_add]; exact Real.exp_le_exp.mpr (by linarith)) hyx
  have px1 : Real.exp (x m) / (L.map fun p => Real.exp (x p)).sum ≤ 1 :=
    (div_le_one hx0).mpr (le1 x)
  have py1 : Real.exp (y m) / (L.map fun p => Real.exp (y p)).sum ≤ 1 :=
    (div_le_one hy0).mpr (le1 y)
  have px0 : 0 ≤ Real.exp (x m) / (L.map fun p => Real.exp (x p)).sum :=
    div_nonneg (Real.exp_pos _).le hx0.le
  have py0 : 0 ≤ Real.exp (y m) / (L.map fun p => Real.exp (y p)).sum :=
    div_nonneg (Real.exp_pos _).le hy0.le
  have he0 : 0 ≤ e := (abs_nonneg _).trans (h m hm)
  have h1 : 1 ≤ Real.exp (2 * e) := Real.one_le_exp (by linarith)
  refine ⟨?_, px0, px1⟩
  rw [abs_le]
  constructor <;> nlinarith

/-! ## Layers -/

theorem fc_near {l : FullyConnectedLayer F32} (hl : l.Ok) {A B M e : ℝ} (hM : 0 ≤ M) (he : 0 ≤ e)
    (hw : ∀ o i, o < l.weights.shape.di.toNat → i < l.weights.shape.dj.toNat →
      (val l.weights o i 0).isFinite = true)
    (hb : ∀ o, o < l.weights.shape.di.toNat → (val l.bias o 0 0).isFinite = true ∧
      ((List.range l.weights.shape.dj.toNat).map fun i => |(val l.weights o i 0).toReal|).sum ≤ A ∧
      |(val l.bias o 0 0).toReal| ≤ B)
    (hn : l.weights.shape.dj.toNat < 2 ^ 22) (hmax : A * (M + e) + B ≤ 2 ^ 125) {s : Tensor F32}
    (hss : s.shape = l.get_input_shape) {x : Nat → Nat → Nat → ℝ} (hx : Near s x M e) {i j k : Nat}
    (hin : l.get_output_shape.Inside i j k) :
    (layerAt (.fc l) s i j k).isFinite = true ∧
    |(layerAt (.fc l) s i j k).toReal - exactLayer (.fc l) x i j k| ≤
      A * e + ((l.weights.shape.dj.toNat + 2) / 2 ^ 23 * (A * (M + e) + B) +
        (l.weights.shape.dj.toNat + 1) / 2 ^ 149) ∧
    |exactLayer (.fc l) x i j k| ≤ A * M + B := by
  have hi : i < l.weights.shape.di.toNat := by
    unfold FullyConnectedLayer.get_output_shape at hin
    rw [hl.rows] at hin
    exact hin.1
  have hx' : ∀ m ∈ List.range l.weights.shape.dj.toNat, (val s m 0 0).isFinite = true ∧
      |(val s m 0 0).toReal - x m 0 0| ≤ e ∧ |x m 0 0| ≤ M := by
    intro m hm
    exact hx m 0 0 (by
      rw [hss]
      exact ⟨List.mem_range.mp hm, Nat.zero_lt_one, Nat.zero_lt_one⟩)
  simp only [layerAt, exactLayer]
  rw [act_relu _ (summed_preact l s i)]
  exact affine_near (List.range l.weights.shape.dj.toNat) (fun m => val l.weights i m 0)
    (fun m => val s m 0 0) (val l.bias i 0 0) _ (fun m => |(val l.weights i m 0).toReal|)
    (List.length_range.le) hn
    (fun m hm => ⟨hw i m hi (List.mem_range.mp hm), (hx' m hm).1⟩) (hb i hi).1
    (fun m hm => (term_near (hx' m hm).2.1 (hx' m hm).2.2).1)
    (fun m hm => (term_near (hx' m hm).2.1 (hx' m hm).2.2).2.1)
    (fun m hm => (term_near (hx' m hm).2.1 (hx' m hm).2.2).2.2)
    (hb i hi).2.1 (hb i hi).2.2 hM he hmax

theorem conv_near {l : ConvolutionalLayer F32} (hl : l.Ok) {n : Nat} {A B M e : ℝ} (hM : 0 ≤ M)
    (he : 0 ≤ e)
    (hk : ∀ kernel ∈ l.kernels, kernel.shape.count ≤ n ∧
      (∀ i j k, kernel.shape.Inside i j k → (val kernel i j k).isFinite = true) ∧
      (kernel.shape.indices.map fun p => |(val kernel p.1 p.2.1 p.2.2).toReal|).sum ≤ A)
    (hb : ∀ bias ∈ l.biases, (val bias 0 0 0).isFinite = true ∧ |(val bias 0 0 0).toReal| ≤ B)
    (hn : n < 2 ^ 22) (hmax : A * (M + e) + B ≤ 2 ^ 125) {s : Tensor F32}
    (hss : s.shape = l.input_shape) {x : Nat → Nat → Nat → ℝ} (hx : Near s x M e) {i j k : Nat}
    (hin : l.output_shape.Inside i j k) :
    (layerAt (.conv l) s i j k).isFinite = true ∧
    |(layerAt (.conv l) s i j k).toReal - exactLayer (.conv l) x i j k| ≤
      A * e + ((n + 2) / 2 ^ 23 * (A * (M + e) + B) + (n + 1) / 2 ^ 149) ∧
    |exactLayer (.conv l) x i j k| ≤ A * M + B := by
  have hkl : k < l.kernels.length := by rw [hl.count]; exact hin.2.2
  have hbl : k < l.biases.length := by rw [hl.biasCount]; exact hkl
  have hkm := List.getElem_mem hkl
  obtain ⟨_, hkd, hkt⟩ := hl.kernels _ hkm
  obtain ⟨c1, c2, c3⟩ := hk _ hkm
  obtain ⟨d1, d2⟩ := hb _ (List.getElem_mem hbl)
  have e1 : convPre l s i j k = F32.add (Spec.sum (l.kernels[k].shape.indices.map fun p =>
      F32.mul (val s (i * l.stride.toNat + p.1) (j * l.stride.toNat + p.2.1) p.2.2)
        (val l.kernels[k] p.1 p.2.1 p.2.2))) (val l.biases[k] 0 0 0) := by
    unfold convPre
    rw [List.getElem?_eq_getElem hkl, List.getElem?_eq_getElem hbl]
    rfl
  have e2 : exactLayer (.conv l) x i j k = max 0 ((l.kernels[k].shape.indices.map fun p =>
        x (i * l.stride.toNat + p.1) (j * l.stride.toNat + p.2.1) p.2.2 *
          (val l.kernels[k] p.1 p.2.1 p.2.2).toReal).sum + (val l.biases[k] 0 0 0).toReal) := by
    simp only [exactLayer]
    rw [List.getElem?_eq_getElem hkl, List.getElem?_eq_getElem hbl]
  have hx' : ∀ p ∈ l.kernels[k].shape.indices,
      (val s (i * l.stride.toNat + p.1) (j * l.stride.toNat + p.2.1) p.2.2).isFinite = true ∧
      |(val s (i * l.stride.toNat + p.1) (j * l.stride.toNat + p.2.1) p.2.2).toReal -
        x (i * l.stride.toNat + p.1) (j * l.stride.toNat + p.2.1) p.2.2| ≤ e ∧
      |x (i * l.stride.toNat + p.1) (j * l.stride.toNat + p.2.1) p.2.2| ≤ M := by
    intro p hp
    obtain ⟨m1, m2, m3⟩ := mem_indices.mp hp
    refine hx _ _ _ ?_
    rw [hss]
    exact ⟨tiles_lt hkt.1 hin.1 m1, tiles_lt hkt.2 hin.2.1 m2, hkd ▸ m3⟩
  rw [e2]
  simp only [layerAt]
  rw [act_relu _ (summed_convPre l s i j k), e1]
  have T := fun (p : Nat × Nat × Nat) (hp : p ∈ l.kernels[k].shape.indices) =>
    term_near (w := (val l.kernels[k] p.1 p.2.1 p.2.2).toReal) (hx' p hp).2.1 (hx' p hp).2.2
  exact affine_near l.kernels[k].shape.indices
    (fun p => val s (i * l.stride.toNat + p.1) (j * l.stride.toNat + p.2.1) p.2.2)
    (fun p => val l.kernels[k] p.1 p.2.1 p.2.2) (val l.biases[k] 0 0 0) _
    (fun p => |(val l.kernels[k] p.1 p.2.1 p.2.2).toReal|)
    ((indices_length _).trans_le c1) hn
    (fun p hp => ⟨(hx' p hp).1, c2 _ _ _ (mem_indices.mp hp)⟩) d1
    (fun p hp => by rw [mul_comm]; exact (T p hp).1)
    (fun p hp => by
      have := (T p hp).2.1
      rw [mul_comm _ (val s _ _ _).toReal, mul_comm _ (x _ _ _)] at this
      exact this)
    (fun p hp => by rw [mul_comm]; exact (T p hp).2.2)
    c3 d2 hM he hmax

theorem mp_near {l : MaxPoolLayer} (hl : l.Ok) {M e : ℝ} (h1 : l.mask_shape.di ≠ 0)
    (h2 : l.mask_shape.dj ≠ 0) {s : Tensor F32} (hss : s.shape = l.input_shape)
    {x : Nat → Nat → Nat → ℝ} (hx : Near s x M e) {i j k : Nat} (hin : l.output_shape.Inside i j k) :
    (layerAt (.mp l) s i j k).isFinite = true ∧
    |(layerAt (.mp l) s i j k).toReal - exactLayer (.mp l) x i j k| ≤ e ∧
    |exactLayer (.mp l) x i j k| ≤ M := by
  have p1 : 0 < l.mask_shape.di.toNat := by
    have : l.mask_shape.di.toNat ≠ 0 := fun h => h1 (UInt32.toNat_inj.mp h)
    omega
  have p2 : 0 < l.mask_shape.dj.toNat := by
    have : l.mask_shape.dj.toNat ≠ 0 := fun h => h2 (UInt32.toNat_inj.mp h)
    omega
  have hx' : ∀ ii jj, ii < l.mask_shape.di.toNat → jj < l.mask_shape.dj.toNat →
      (val s (i * l.stride.toNat + ii) (j * l.stride.toNat + jj) k).isFinite = true ∧
      |(val s (i * l.stride.toNat + ii) (j * l.stride.toNat + jj) k).toReal -
        x (i * l.stride.toNat + ii) (j * l.stride.toNat + jj) k| ≤ e ∧
      |x (i * l.stride.toNat + ii) (j * l.stride.toNat + jj) k| ≤ M := by
    intro ii jj m1 m2
    refine hx _ _ _ ?_
    rw [hss]
    exact ⟨tiles_lt hl.tiles.1 hin.1 m1, tiles_lt hl.tiles.2 hin.2.1 m2, hl.depth ▸ hin.2.2⟩
  have hmem : ∀ v ∈ window s l.mask_shape l.stride.toNat i j k, ∃ ii jj,
      ii < l.mask_shape.di.toNat ∧ jj < l.mask_shape.dj.toNat ∧
      v = val s (i * l.stride.toNat + ii) (j * l.stride.toNat + jj) k := by
    intro v hv
    obtain ⟨⟨ii, jj⟩, hp, rfl⟩ := List.mem_map.mp hv
    exact ⟨ii, jj, (mem_idx2.mp hp).1, (mem_idx2.mp hp).2, rfl⟩
  have hmem' : ∀ ii jj, ii < l.mask_shape.di.toNat → jj < l.mask_shape.dj.toNat →
      val s (i * l.stride.toNat + ii) (j * l.stride.toNat + jj) k ∈
        window s l.mask_shape l.stride.toNat i j k := fun ii jj m1 m2 =>
    List.mem_map.mpr ⟨(ii, jj), mem_idx2.mpr ⟨m1, m2⟩, rfl⟩
  obtain ⟨g1, g2⟩ := maxOf_finite (List.ne_nil_of_mem (hmem' 0 0 p1 p2)) fun v hv => by
    obtain ⟨ii, jj, m1, m2, rfl⟩ := hmem v hv
    exact (hx' ii jj m1 m2).1
  obtain ⟨ii, jj, m1, m2, hv⟩ := hmem _ g1
  have : Nonempty (Fin l.mask_shape.di.toNat × Fin l.mask_shape.dj.toNat) := ⟨⟨⟨0, p1⟩, ⟨0, p2⟩⟩⟩
  have hbd : BddAbove (Set.range fun p : Fin l.mask_shape.di.toNat × Fin l.mask_shape.dj.toNat =>
      x (i * l.stride.toNat + p.1) (j * l.stride.toNat + p.2) k) := (Set.finite_range _).bddAbove
  simp only [layerAt, exactLayer]
  have up : ∀ c : ℝ, (∀ ii jj, ii < l.mask_shape.di.toNat → jj < l.mask_shape.dj.toNat →
      x (i * l.stride.toNat + ii) (j * l.stride.toNat + jj) k ≤ c) →
      (⨆ p : Fin l.mask_shape.di.toNat × Fin l.mask_shape.dj.toNat,
        x (i * l.stride.toNat + p.1) (j * l.stride.toNat + p.2) k) ≤ c := fun c hc =>
    ciSup_le fun p => hc _ _ p.1.isLt p.2.isLt
  have lo : x (i * l.stride.toNat + ii) (j * l.stride.toNat + jj) k ≤
      (⨆ p : Fin l.mask_shape.di.toNat × Fin l.mask_shape.dj.toNat,
        x (i * l.stride.toNat + p.1) (j * l.stride.toNat + p.2) k) :=
    le_ciSup hbd (⟨⟨ii, m1⟩, ⟨jj, m2⟩⟩ : Fin l.mask_shape.di.toNat × Fin l.mask_shape.dj.toNat)
  obtain ⟨n1, n2, n3⟩ := hx' ii jj m1 m2
  rw [← hv] at n1 n2
  have n2 := abs_le.mp n2
  have n3 := abs_le.mp n3
  refine ⟨n1, ?_, ?_⟩
  · rw [abs_le]
    constructor
    · have := up ((maxOf (window s l.mask_shape l.stride.toNat i j k)).toReal + e) fun a c ha hc => by
        have t1 := abs_le.mp (hx' a c ha hc).2.1
        have t2 := g2 _ (hmem' a c ha hc)
        linarith
      linarith
    · linarith
  · rw [abs_le]
    refine ⟨by linarith, up M fun a c ha hc => (abs_le.mp (hx' a c ha hc).2.2).2⟩

theorem sm_near [ExpAccurate] {l : SoftmaxLayer F32} {M e : ℝ} (h1 : M + e ≤ 71)
    (hn : l.shape.count < 2 ^ 22) {s : Tensor F32} (hs : s.WF) (hss : s.shape = l.shape)
    {x : Nat → Nat → Nat → ℝ} (hx : Near s x M e) {i j k : Nat} (hin : l.shape.Inside i j k) :
    (layerAt (.sm l) s i j k).isFinite = true ∧
    |(layerAt (.sm l) s i j k).toReal - exactLayer (.sm l) x i j k| ≤
      Real.exp (2 * e) - 1 + ((3 * l.shape.count + 40) / 2 ^ 23 + 1 / 2 ^ 150) ∧
    |exactLayer (.sm l) x i j k| ≤ 1 := by
  obtain ⟨g1, g2⟩ := softmax_error hs (by rw [hss]; exact hn) (fun i j k h => by
    obtain ⟨f1, f2, f3⟩ := hx i j k h
    have f2 := abs_le.mp f2
    have f3 := abs_le.mp f3
    exact ⟨f1, by linarith, by linarith⟩) (i := i) (j := j) (k := k) (by rw [hss]; exact hin)
  have hm : (i, j, k) ∈ l.shape.indices := mem_indices.mpr hin
  have L1 := softmax_lipschitz l.shape.indices (fun p => x p.1 p.2.1 p.2.2)
    (fun p => (val s p.1 p.2.1 p.2.2).toReal) hm
    (fun p hp => (hx _ _ _ (by rw [hss]; exact mem_indices.mp hp)).2.1)
  have L2 := softmax_lipschitz l.shape.indices (fun p => (val s p.1 p.2.1 p.2.2).toReal)
    (fun p => (val s p.1 p.2.1 p.2.2).toReal) hm (e := 0) (fun p _ => by simp)
  rw [hss] at g2
  simp only [layerAt, exactLayer]
  refine ⟨g1, ?_, ?_⟩
  · have t : (3 * (l.shape.count : ℝ) + 40) / 2 ^ 23 * (Real.exp (val s i j k).toReal /
        (l.shape.indices.map fun p => Real.exp (val s p.1 p.2.1 p.2.2).toReal).sum) ≤
        (3 * l.shape.count + 40) / 2 ^ 23 :=
      mul_le_of_le_one_right (by positivity) L2.2.2
    have t2 := abs_sub_le (softmaxAt s i j k).toReal (Real.exp (val s i j k).toReal /
        (l.shape.indices.map fun p => Real.exp (val s p.1 p.2.1 p.2.2).toReal).sum)
        (Real.exp (x i j k) / (l.shape.indices.map fun p => Real.exp (x p.1 p.2.1 p.2.2)).sum)
    have t3 := L1.1
    linarith
  · rw [abs_of_nonneg L1.2.1]
    exact L1.2.2

/-! ## Networks -/

/-- The states that the layers write one after the other stay near the exact values. -/
theorem layers_near (b : Build) {ls : List (AnyLayer F32)} {M e M' e' : ℝ}
    (hA : Accuracy ls M e M' e') : (∀ l ∈ ls, l.Ok) → ∀ t : Nat → Tensor F32, 0 ≤ M → 0 ≤ e →
    ∀ x : Nat → Nat → Nat → ℝ, Near (t 0) x M e →
    (∀ i l, ls[i]? = some l → (t i).WF ∧ (t i).shape = l.get_input_shape ∧
      applies b l (t i) (t (i + 1))) →
    Near (t ls.length) (exactNet ls x) M' e' := by
  have entry : ∀ {l : AnyLayer F32} {s s' : Tensor F32}, applies b l s s' →
      ∀ i j k, s'.shape.Inside i j k → l.get_output_shape.Inside i j k ∧
        val s' i j k = layerAt l s i j k := by
    intro l s s' h i j k hin
    have hin' : l.get_output_shape.Inside i j k := by rw [← h.2.1]; exact hin
    have := h.2.2 i j k hin'
    rw [get_item_ok h.1 hin] at this
    exact ⟨hin', by injection this⟩
  -- all four layer types: if the first step keeps near, so does the rest
  have step : ∀ (l : AnyLayer F32) (ls : List (AnyLayer F32)) (M1 e1 M' e' : ℝ),
      ((∀ l ∈ ls, l.Ok) → ∀ t : Nat → Tensor F32, 0 ≤ M1 → 0 ≤ e1 →
        ∀ x : Nat → Nat → Nat → ℝ, Near (t 0) x M1 e1 →
        (∀ i l, ls[i]? = some l → (t i).WF ∧ (t i).shape = l.get_input_shape ∧
          applies b l (t i) (t (i + 1))) → Near (t ls.length) (exactNet ls x) M' e') →
      0 ≤ M1 → 0 ≤ e1 → (∀ m ∈ l :: ls, m.Ok) → ∀ (t : Nat → Tensor F32) (x : Nat → Nat → Nat → ℝ),
      (∀ i m, (l :: ls)[i]? = some m → (t i).WF ∧ (t i).shape = m.get_input_shape ∧
        applies b m (t i) (t (i + 1))) →
      (∀ i j k, l.get_output_shape.Inside i j k → (layerAt l (t 0) i j k).isFinite = true ∧
        |(layerAt l (t 0) i j k).toReal - exactLayer l x i j k| ≤ e1 ∧
        |exactLayer l x i j k| ≤ M1) →
      Near (t (l :: ls).length) (exactNet (l :: ls) x) M' e' := by
    intro l ls M1 e1 M' e' ih h1 h2 hok t x hstep hnear
    obtain ⟨_, _, ha⟩ := hstep 0 l rfl
    refine ih (fun m hm => hok m (List.mem_cons_of_mem _ hm)) (fun i => t (i + 1)) h1 h2
      (exactLayer l x) ?_ (fun i m hi => hstep (i + 1) m hi)
    intro i j k hin
    obtain ⟨f1, f2⟩ := entry ha i j k hin
    rw [f2]
    exact hnear i j k f1
  induction hA with
  | nil M e => exact fun _ t _ _ x hx _ => hx
  | fc l ls A B M e M' e' hw hb hA0 hB0 hn hmax _ ih =>
    intro hok t hM he x hx hstep
    obtain ⟨g1, g2, _⟩ := hstep 0 _ rfl
    have h0 : 0 ≤ A * (M + e) + B := by positivity
    exact step _ ls _ _ M' e' ih (by positivity) (by positivity) hok t x hstep fun i j k hin =>
      fc_near (hok _ (List.mem_cons_self ..)) hM he hw hb hn hmax g2 hx hin
  | conv l ls n A B M e M' e' hk hb hA0 hB0 hn hmax _ ih =>
    intro hok t hM he x hx hstep
    obtain ⟨g1, g2, _⟩ := hstep 0 _ rfl
    have h0 : 0 ≤ A * (M + e) + B := by positivity
    exact step _ ls _ _ M' e' ih (by positivity) (by positivity) hok t x hstep fun i j k hin =>
      conv_near (hok _ (List.mem_cons_self ..)) hM he hk hb hn hmax g2 hx hin
  | mp l ls M e M' e' h1 h2 _ ih =>
    intro hok t hM he x hx hstep
    obtain ⟨g1, g2, _⟩ := hstep 0 _ rfl
    exact step _ ls _ _ M' e' ih hM he hok t x hstep fun i j k hin =>
      mp_near (hok _ (List.mem_cons_self ..)) h1 h2 g2 hx hin
  | sm l ls M e M' e' hE h1 hn _ ih =>
    intro hok t hM he x hx hstep
    obtain ⟨g1, g2, _⟩ := hstep 0 _ rfl
    have h0 : 0 ≤ Real.exp (2 * e) - 1 := by
      have := Real.one_le_exp (show 0 ≤ 2 * e by linarith)
      linarith
    exact step _ ls _ _ M' e' ih zero_le_one (by positivity) hok t x hstep fun i j k hin =>
      sm_near h1 hn g1 g2 hx hin

end Rusty
