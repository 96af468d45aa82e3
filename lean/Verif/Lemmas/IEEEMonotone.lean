import Verif.Lemmas.IEEERounding
import Verif.Lemmas.IEEENetwork
import Verif.Spec.Monotone

/-! # Helper lemmas: layers with nonnegative weights are monotone, also when rounding -/

namespace Rusty

open F32Ops Spec F32

namespace F32

theorem Rounds.in_range {r : ℝ} {v : F32} (h : Rounds r v) (hf : v.isFinite = true) :
    |r| < 2 ^ 128 - 2 ^ 103 := by
  by_contra hc
  have := h.overflow (not_lt.mp hc)
  rw [finite_inf hf] at this
  cases this

/-- rounding does not change the order -/
theorem rounds_mono {r r' : ℝ} {v v' : F32} (h : Rounds r v) (h' : Rounds r' v')
    (hf : v.isFinite = true) (hf' : v'.isFinite = true) (hr : r ≤ r') : v.toReal ≤ v'.toReal := by
  by_contra hc
  push Not at hc
  obtain ⟨_, n1⟩ := h.nearest (h.in_range hf)
  obtain ⟨_, n2⟩ := h'.nearest (h'.in_range hf')
  have a1 := (n1 v' hf').1
  have a2 := (n2 v hf).1
  have b1 := sq_le_sq.mpr a1
  have b2 := sq_le_sq.mpr a2
  have c1 : v.toReal + v'.toReal ≤ 2 * r := by
    have : (v.toReal - v'.toReal) * (v.toReal + v'.toReal) ≤ (v.toReal - v'.toReal) * (2 * r) := by
      linarith
    exact le_of_mul_le_mul_left this (by linarith)
  have c2 : 2 * r' ≤ v.toReal + v'.toReal := by
    have : (v.toReal - v'.toReal) * (2 * r') ≤ (v.toReal - v'.toReal) * (v.toReal + v'.toReal) := by
      linarith
    exact le_of_mul_le_mul_left this (by linarith)
  have heq : r = r' := by linarith
  subst heq
  by_cases h0 : r = 0
  · subst h0
    have z1 := (n1 (mk' false 0) (by decide)).1
    have z2 := (n2 (mk' false 0) (by decide)).1
    rw [toReal_mk' (by decide), units_zero] at z1 z2
    simp only [Bool.false_eq_true, if_false, one_mul, Nat.cast_zero, zero_div, sub_zero, abs_zero] at z1 z2
    have e1 := abs_nonpos_iff.mp z1
    have e2 := abs_nonpos_iff.mp z2
    linarith
  · rw [rounds_unique h0 h h'] at hc
    exact lt_irrefl _ hc

theorem add_mono {x x' y y' : F32} (h : (add x y).isFinite = true) (h' : (add x' y').isFinite = true)
    (hx : x.toReal ≤ x'.toReal) (hy : y.toReal ≤ y'.toReal) : (add x y).toReal ≤ (add x' y').toReal := by
  obtain ⟨f1, f2⟩ := finite_of_add h
  obtain ⟨f3, f4⟩ := finite_of_add h'
  exact rounds_mono (add_rounds f1 f2) (add_rounds f3 f4) h h' (by linarith)

theorem mul_mono_real {x x' y y' : F32} (h : (mul x y).isFinite = true)
    (h' : (mul x' y').isFinite = true) (hr : x.toReal * y.toReal ≤ x'.toReal * y'.toReal) :
    (mul x y).toReal ≤ (mul x' y').toReal := by
  obtain ⟨f1, f2⟩ := finite_of_mul h
  obtain ⟨f3, f4⟩ := finite_of_mul h'
  exact rounds_mono (mul_rounds f1 f2) (mul_rounds f3 f4) h h' hr

variable [Libm]

/-- a sum of products with larger products is not smaller -/
theorem dot_mono {ι : Type} (L : List ι) (f g f' g' : ι → F32)
    (h : (Spec.sum (L.map fun m => mul (f m) (g m))).isFinite = true)
    (h' : (Spec.sum (L.map fun m => mul (f' m) (g' m))).isFinite = true)
    (hle : ∀ m ∈ L, (f m).toReal * (g m).toReal ≤ (f' m).toReal * (g' m).toReal) :
    (Spec.sum (L.map fun m => mul (f m) (g m))).toReal ≤
      (Spec.sum (L.map fun m => mul (f' m) (g' m))).toReal := by
  induction L using List.reverseRecOn with
  | nil =>
    rw [List.map_nil, List.map_nil]
  | append_singleton L a ih =>
    rw [List.map_append, List.map_singleton, sum_append_singleton] at h h' ⊢
    obtain ⟨p1, p2⟩ := finite_of_add h
    obtain ⟨p3, p4⟩ := finite_of_add h'
    rw [List.map_append, List.map_singleton, sum_append_singleton]
    exact add_mono h h' (ih p1 p3 fun m hm => hle m (List.mem_append_left _ hm))
      (mul_mono_real p2 p4 (hle a (by simp)))

theorem relu_mono {x x' : F32} (h : x.isFinite = true) (h' : x'.isFinite = true)
    (hle : x.toReal ≤ x'.toReal) : (Spec.relu x).toReal ≤ (Spec.relu x').toReal := by
  rw [((relu_spec x).2.2 h).2, ((relu_spec x').2.2 h').2]
  exact max_le_max_left 0 hle

/-- the affine map and the ReLU of a layer -/
theorem unit_mono {ι : Type} (L : List ι) (f g f' g' : ι → F32) (β : F32)
    (h : (add (Spec.sum (L.map fun m => mul (f m) (g m))) β).isFinite = true)
    (h' : (add (Spec.sum (L.map fun m => mul (f' m) (g' m))) β).isFinite = true)
    (hle : ∀ m ∈ L, (f m).toReal * (g m).toReal ≤ (f' m).toReal * (g' m).toReal) :
    (Spec.relu (add (Spec.sum (L.map fun m => mul (f m) (g m))) β)).toReal ≤
      (Spec.relu (add (Spec.sum (L.map fun m => mul (f' m) (g' m))) β)).toReal :=
  relu_mono h h' (add_mono h h' (dot_mono L f g f' g' (finite_of_add h).1 (finite_of_add h').1 hle)
    (le_refl _))

/-- the sums of a layer whose weights `w` add up to at most `A`, on inputs of at most `M`, are finite -/
theorem unit_finite {ι : Type} (L : List ι) (f g : ι → F32) (β : F32) (w : ι → ℝ) {A B M : ℝ}
    (hn : L.length < 2 ^ 22) (hf : ∀ m ∈ L, (f m).isFinite = true ∧ (g m).isFinite = true)
    (hβ : β.isFinite = true) (hw : ∀ m ∈ L, |(f m).toReal * (g m).toReal| ≤ w m * M)
    (hA : (L.map w).sum ≤ A) (hB : |β.toReal| ≤ B) (hM : 0 ≤ M) (hmax : A * M + B ≤ 2 ^ 125) :
    (add (Spec.sum (L.map fun m => mul (f m) (g m))) β).isFinite = true := by
  apply affine_finite L f g β hn hf hβ
  have h1 : (L.map fun m => |(f m).toReal * (g m).toReal|).sum ≤ A * M := by
    refine (sum_map_le L _ _ hw).trans ?_
    rw [sum_map_mul]
    exact mul_le_mul_of_nonneg_right hA hM
  linarith

end F32

variable [Libm]

/-- near means within -/
theorem near_within {s : Tensor F32} {x : Nat → Nat → Nat → ℝ} {M e : ℝ} (h : Near s x M e)
    {i j k : Nat} (hin : s.shape.Inside i j k) : (val s i j k).isFinite = true ∧
      |(val s i j k).toReal| ≤ M + e := by
  obtain ⟨h1, h2, h3⟩ := h i j k hin
  refine ⟨h1, ?_⟩
  have := abs_add_le ((val s i j k).toReal - x i j k) (x i j k)
  rw [sub_add_cancel] at this
  linarith

theorem fc_mono {l : FullyConnectedLayer F32} (hl : l.Ok) {A B M : ℝ} (hM : 0 ≤ M)
    (hw : ∀ o i, o < l.weights.shape.di.toNat → i < l.weights.shape.dj.toNat →
      (val l.weights o i 0).isFinite = true)
    (hb : ∀ o, o < l.weights.shape.di.toNat → (val l.bias o 0 0).isFinite = true ∧
      ((List.range l.weights.shape.dj.toNat).map fun i => |(val l.weights o i 0).toReal|).sum ≤ A ∧
      |(val l.bias o 0 0).toReal| ≤ B)
    (hn : l.weights.shape.dj.toNat < 2 ^ 22) (hmax : A * M + B ≤ 2 ^ 125)
    (hpos : Nonneg (.fc l)) {s s' : Tensor F32} (hss : s.shape = l.get_input_shape)
    (hss' : s'.shape = l.get_input_shape) (hs : Within s M) (hs' : Within s' M) (hle : Below s s')
    {i j k : Nat} (hin : l.get_output_shape.Inside i j k) :
    (layerAt (.fc l) s i j k).toReal ≤ (layerAt (.fc l) s' i j k).toReal := by
  have hi : i < l.weights.shape.di.toNat := by
    unfold FullyConnectedLayer.get_output_shape at hin
    rw [hl.rows] at hin
    exact hin.1
  have hin' : ∀ m ∈ List.range l.weights.shape.dj.toNat, l.get_input_shape.Inside m 0 0 :=
    fun m hm => ⟨List.mem_range.mp hm, Nat.zero_lt_one, Nat.zero_lt_one⟩
  have hfin : ∀ {s : Tensor F32}, s.shape = l.get_input_shape → Within s M →
      (F32.add (Spec.sum ((List.range l.weights.shape.dj.toNat).map fun m =>
        F32.mul (val l.weights i m 0) (val s m 0 0))) (val l.bias i 0 0)).isFinite = true := by
    intro s hss hs
    refine unit_finite _ _ _ _ (fun m => |(val l.weights i m 0).toReal|)
      (by rw [List.length_range]; exact hn)
      (fun m hm => ⟨hw i m hi (List.mem_range.mp hm), (hs m 0 0 (hss ▸ hin' m hm)).1⟩) (hb i hi).1
      (fun m hm => ?_) (hb i hi).2.1 (hb i hi).2.2 hM hmax
    rw [abs_mul]
    exact mul_le_mul_of_nonneg_left (hs m 0 0 (hss ▸ hin' m hm)).2 (abs_nonneg _)
  simp only [layerAt]
  rw [act_relu _ (summed_preact l s i), act_relu _ (summed_preact l s' i)]
  exact unit_mono (List.range l.weights.shape.dj.toNat) (fun m => val l.weights i m 0)
    (fun m => val s m 0 0) (fun m => val l.weights i m 0) (fun m => val s' m 0 0) (val l.bias i 0 0)
    (hfin hss hs) (hfin hss' hs') fun m hm =>
      mul_le_mul_of_nonneg_left (hle m 0 0 (hss ▸ hin' m hm)) (hpos i m hi (List.mem_range.mp hm))

theorem conv_mono {l : ConvolutionalLayer F32} (hl : l.Ok) {n : Nat} {A B M : ℝ} (hM : 0 ≤ M)
    (hk : ∀ kernel ∈ l.kernels, kernel.shape.count ≤ n ∧
      (∀ i j k, kernel.shape.Inside i j k → (val kernel i j k).isFinite = true) ∧
      (kernel.shape.indices.map fun p => |(val kernel p.1 p.2.1 p.2.2).toReal|).sum ≤ A)
    (hb : ∀ bias ∈ l.biases, (val bias 0 0 0).isFinite = true ∧ |(val bias 0 0 0).toReal| ≤ B)
    (hn : n < 2 ^ 22) (hmax : A * M + B ≤ 2 ^ 125) (hpos : Nonneg (.conv l)) {s s' : Tensor F32}
    (hss : s.shape = l.input_shape) (hss' : s'.shape = l.input_shape) (hs : Within s M)
    (hs' : Within s' M) (hle : Below s s') {i j k : Nat} (hin : l.output_shape.Inside i j k) :
    (layerAt (.conv l) s i j k).toReal ≤ (layerAt (.conv l) s' i j k).toReal := by
  have hkl : k < l.kernels.length := by rw [hl.count]; exact hin.2.2
  have hbl : k < l.biases.length := by rw [hl.biasCount]; exact hkl
  have hkm := List.getElem_mem hkl
  obtain ⟨_, hkd, hkt⟩ := hl.kernels _ hkm
  obtain ⟨c1, c2, c3⟩ := hk _ hkm
  obtain ⟨d1, d2⟩ := hb _ (List.getElem_mem hbl)
  have e1 : ∀ s : Tensor F32, convPre l s i j k =
      F32.add (Spec.sum (l.kernels[k].shape.indices.map fun p =>
      F32.mul (val s (i * l.stride.toNat + p.1) (j * l.stride.toNat + p.2.1) p.2.2)
        (val l.kernels[k] p.1 p.2.1 p.2.2))) (val l.biases[k] 0 0 0) := by
    intro s
    unfold convPre
    rw [List.getElem?_eq_getElem hkl, List.getElem?_eq_getElem hbl]
    rfl
  have hin' : ∀ p ∈ l.kernels[k].shape.indices,
      l.input_shape.Inside (i * l.stride.toNat + p.1) (j * l.stride.toNat + p.2.1) p.2.2 := by
    intro p hp
    obtain ⟨m1, m2, m3⟩ := mem_indices.mp hp
    exact ⟨tiles_lt hkt.1 hin.1 m1, tiles_lt hkt.2 hin.2.1 m2, hkd ▸ m3⟩
  have hfin : ∀ {s : Tensor F32}, s.shape = l.input_shape → Within s M →
      (F32.add (Spec.sum (l.kernels[k].shape.indices.map fun p =>
      F32.mul (val s (i * l.stride.toNat + p.1) (j * l.stride.toNat + p.2.1) p.2.2)
        (val l.kernels[k] p.1 p.2.1 p.2.2))) (val l.biases[k] 0 0 0)).isFinite = true := by
    intro s hss hs
    refine unit_finite _ _ _ _ (fun p => |(val l.kernels[k] p.1 p.2.1 p.2.2).toReal|)
      (by rw [indices_length]; omega)
      (fun p hp => ⟨(hs _ _ _ (hss ▸ hin' p hp)).1, c2 _ _ _ (mem_indices.mp hp)⟩) d1
      (fun p hp => ?_) c3 d2 hM hmax
    rw [abs_mul, mul_comm]
    exact mul_le_mul_of_nonneg_left (hs _ _ _ (hss ▸ hin' p hp)).2 (abs_nonneg _)
  simp only [layerAt]
  rw [act_relu _ (summed_convPre l s i j k), act_relu _ (summed_convPre l s' i j k), e1, e1]
  exact unit_mono l.kernels[k].shape.indices
    (fun p => val s (i * l.stride.toNat + p.1) (j * l.stride.toNat + p.2.1) p.2.2)
    (fun p => val l.kernels[k] p.1 p.2.1 p.2.2)
    (fun p => val s' (i * l.stride.toNat + p.1) (j * l.stride.toNat + p.2.1) p.2.2)
    (fun p => val l.kernels[k] p.1 p.2.1 p.2.2) (val l.biases[k] 0 0 0)
    (hfin hss hs) (hfin hss' hs') fun p hp =>
      mul_le_mul_of_nonneg_right (hle _ _ _ (hss ▸ hin' p hp))
        (hpos _ hkm _ _ _ (mem_indices.mp hp))

theorem mp_mono {l : MaxPoolLayer} (hl : l.Ok) (h1 : l.mask_shape.di ≠ 0) (h2 : l.mask_shape.dj ≠ 0)
    {s s' : Tensor F32} (hss : s.shape = l.input_shape) (hss' : s'.shape = l.input_shape)
    (hs : ∀ i j k, s.shape.Inside i j k → (val s i j k).isFinite = true)
    (hs' : ∀ i j k, s'.shape.Inside i j k → (val s' i j k).isFinite = true) (hle : Below s s')
    {i j k : Nat} (hin : l.output_shape.Inside i j k) :
    (layerAt (.mp l) s i j k).toReal ≤ (layerAt (.mp l) s' i j k).toReal := by
  have p1 : 0 < l.mask_shape.di.toNat := by
    have : l.mask_shape.di.toNat ≠ 0 := fun h => h1 (UInt32.toNat_inj.mp h)
    omega
  have p2 : 0 < l.mask_shape.dj.toNat := by
    have : l.mask_shape.dj.toNat ≠ 0 := fun h => h2 (UInt32.toNat_inj.mp h)
    omega
  have hin' : ∀ ii jj, ii < l.mask_shape.di.toNat → jj < l.mask_shape.dj.toNat →
      l.input_shape.Inside (i * l.stride.toNat + ii) (j * l.stride.toNat + jj) k := fun ii jj m1 m2 =>
    ⟨tiles_lt hl.tiles.1 hin.1 m1, tiles_lt hl.tiles.2 hin.2.1 m2, hl.depth ▸ hin.2.2⟩
  have hmem : ∀ {s : Tensor F32}, ∀ v ∈ window s l.mask_shape l.stride.toNat i j k, ∃ ii jj,
      ii < l.mask_shape.di.toNat ∧ jj < l.mask_shape.dj.toNat ∧
      v = val s (i * l.stride.toNat + ii) (j * l.stride.toNat + jj) k := by
    intro s v hv
    obtain ⟨⟨ii, jj⟩, hp, rfl⟩ := List.mem_map.mp hv
    exact ⟨ii, jj, (mem_idx2.mp hp).1, (mem_idx2.mp hp).2, rfl⟩
  have hmem' : ∀ (s : Tensor F32) ii jj, ii < l.mask_shape.di.toNat → jj < l.mask_shape.dj.toNat →
      val s (i * l.stride.toNat + ii) (j * l.stride.toNat + jj) k ∈
        window s l.mask_shape l.stride.toNat i j k := fun s ii jj m1 m2 =>
    List.mem_map.mpr ⟨(ii, jj), mem_idx2.mpr ⟨m1, m2⟩, rfl⟩
  obtain ⟨g1, _⟩ := maxOf_finite (List.ne_nil_of_mem (hmem' s 0 0 p1 p2)) fun v hv => by
    obtain ⟨ii, jj, m1, m2, rfl⟩ := hmem v hv
    exact hs _ _ _ (hss ▸ hin' ii jj m1 m2)
  obtain ⟨_, g2⟩ := maxOf_finite (List.ne_nil_of_mem (hmem' s' 0 0 p1 p2)) fun v hv => by
    obtain ⟨ii, jj, m1, m2, rfl⟩ := hmem v hv
    exact hs' _ _ _ (hss' ▸ hin' ii jj m1 m2)
  obtain ⟨ii, jj, m1, m2, hv⟩ := hmem _ g1
  simp only [layerAt]
  rw [hv]
  exact (hle _ _ _ (hss ▸ hin' ii jj m1 m2)).trans (g2 _ (hmem' s' ii jj m1 m2))

/-- Of two runs of the same layers, the one with larger inputs has larger outputs. -/
theorem layers_mono (b : Build) {ls : List (AnyLayer F32)} {M e M' e' : ℝ}
    (hA : Accuracy ls M e M' e') : (∀ l ∈ ls, l.Ok) → (∀ l ∈ ls, Nonneg l) →
    ∀ t t' : Nat → Tensor F32, 0 ≤ M → 0 ≤ e →
    ∀ x x' : Nat → Nat → Nat → ℝ, Near (t 0) x M e → Near (t' 0) x' M e →
    (t 0).shape = (t' 0).shape → Below (t 0) (t' 0) →
    (∀ i l, ls[i]? = some l → (t i).WF ∧ (t i).shape = l.get_input_shape ∧
      applies b l (t i) (t (i + 1))) →
    (∀ i l, ls[i]? = some l → (t' i).WF ∧ (t' i).shape = l.get_input_shape ∧
      applies b l (t' i) (t' (i + 1))) →
    (∀ i j k, (t ls.length).shape.Inside i j k → (val (t ls.length) i j k).isFinite = true) ∧
    (∀ i j k, (t' ls.length).shape.Inside i j k → (val (t' ls.length) i j k).isFinite = true) ∧
    Below (t ls.length) (t' ls.length) := by
  have entry : ∀ {l : AnyLayer F32} {s s' : Tensor F32}, applies b l s s' →
      ∀ i j k, s'.shape.Inside i j k → l.get_output_shape.Inside i j k ∧
        val s' i j k = layerAt l s i j k := by
    intro l s s' h i j k hin
    have hin' : l.get_output_shape.Inside i j k := by rw [← h.2.1]; exact hin
    have := h.2.2 i j k hin'
    rw [get_item_ok h.1 hin] at this
    exact ⟨hin', by injection this⟩
  have step : ∀ (l : AnyLayer F32) (ls : List (AnyLayer F32)) (M1 e1 : ℝ),
      ((∀ l ∈ ls, l.Ok) → (∀ l ∈ ls, Nonneg l) → ∀ t t' : Nat → Tensor F32, 0 ≤ M1 → 0 ≤ e1 →
        ∀ x x' : Nat → Nat → Nat → ℝ, Near (t 0) x M1 e1 → Near (t' 0) x' M1 e1 →
        (t 0).shape = (t' 0).shape → Below (t 0) (t' 0) →
        (∀ i l, ls[i]? = some l → (t i).WF ∧ (t i).shape = l.get_input_shape ∧
          applies b l (t i) (t (i + 1))) →
        (∀ i l, ls[i]? = some l → (t' i).WF ∧ (t' i).shape = l.get_input_shape ∧
          applies b l (t' i) (t' (i + 1))) →
        (∀ i j k, (t ls.length).shape.Inside i j k → (val (t ls.length) i j k).isFinite = true) ∧
        (∀ i j k, (t' ls.length).shape.Inside i j k → (val (t' ls.length) i j k).isFinite = true) ∧
        Below (t ls.length) (t' ls.length)) →
      0 ≤ M1 → 0 ≤ e1 → (∀ m ∈ l :: ls, m.Ok) → (∀ m ∈ l :: ls, Nonneg m) →
      ∀ (t t' : Nat → Tensor F32) (x x' : Nat → Nat → Nat → ℝ),
      (∀ i m, (l :: ls)[i]? = some m → (t i).WF ∧ (t i).shape = m.get_input_shape ∧
        applies b m (t i) (t (i + 1))) →
      (∀ i m, (l :: ls)[i]? = some m → (t' i).WF ∧ (t' i).shape = m.get_input_shape ∧
        applies b m (t' i) (t' (i + 1))) →
      (∀ i j k, l.get_output_shape.Inside i j k → (layerAt l (t 0) i j k).isFinite = true ∧
        |(layerAt l (t 0) i j k).toReal - exactLayer l x i j k| ≤ e1 ∧
        |exactLayer l x i j k| ≤ M1) →
      (∀ i j k, l.get_output_shape.Inside i j k → (layerAt l (t' 0) i j k).isFinite = true ∧
        |(layerAt l (t' 0) i j k).toReal - exactLayer l x' i j k| ≤ e1 ∧
        |exactLayer l x' i j k| ≤ M1) →
      (∀ i j k, l.get_output_shape.Inside i j k →
        (layerAt l (t 0) i j k).toReal ≤ (layerAt l (t' 0) i j k).toReal) →
      (∀ i j k, (t (l :: ls).length).shape.Inside i j k →
        (val (t (l :: ls).length) i j k).isFinite = true) ∧
      (∀ i j k, (t' (l :: ls).length).shape.Inside i j k →
        (val (t' (l :: ls).length) i j k).isFinite = true) ∧
      Below (t (l :: ls).length) (t' (l :: ls).length) := by
    intro l ls M1 e1 ih h1 h2 hok hnn t t' x x' hstep hstep' hnear hnear' hle
    obtain ⟨_, _, ha⟩ := hstep 0 l rfl
    obtain ⟨_, _, ha'⟩ := hstep' 0 l rfl
    refine ih (fun m hm => hok m (List.mem_cons_of_mem _ hm))
      (fun m hm => hnn m (List.mem_cons_of_mem _ hm)) (fun i => t (i + 1)) (fun i => t' (i + 1)) h1 h2
      (exactLayer l x) (exactLayer l x') ?_ ?_ (ha.2.1.trans ha'.2.1.symm) ?_
      (fun i m hi => hstep (i + 1) m hi) (fun i m hi => hstep' (i + 1) m hi)
    · intro i j k hin
      obtain ⟨f1, f2⟩ := entry ha i j k hin
      rw [f2]
      exact hnear i j k f1
    · intro i j k hin
      obtain ⟨f1, f2⟩ := entry ha' i j k hin
      rw [f2]
      exact hnear' i j k f1
    · intro i j k hin
      obtain ⟨f1, f2⟩ := entry ha i j k hin
      obtain ⟨_, f3⟩ := entry ha' i j k (by rw [ha'.2.1]; exact f1)
      rw [f2, f3]
      exact hle i j k f1
  induction hA with
  | nil M e => exact fun _ _ t t' _ _ x x' hx hx' _ hle _ _ =>
      ⟨fun i j k h => (hx i j k h).1, fun i j k h => (hx' i j k h).1, hle⟩
  | fc l ls A B M e M' e' hw hb hA0 hB0 hn hmax _ ih =>
    intro hok hnn t t' hM he x x' hx hx' hsh hle hstep hstep'
    obtain ⟨_, g2, _⟩ := hstep 0 _ rfl
    obtain ⟨_, g2', _⟩ := hstep' 0 _ rfl
    have h0 : 0 ≤ A * (M + e) + B := by positivity
    have hl := hok _ (List.mem_cons_self ..)
    exact step _ ls _ _ ih (by positivity) (by positivity) hok hnn t t' x x' hstep hstep'
      (fun i j k hin => fc_near hl hM he hw hb hn hmax g2 hx hin)
      (fun i j k hin => fc_near hl hM he hw hb hn hmax g2' hx' hin)
      (fun i j k hin => fc_mono hl (by positivity) hw hb hn hmax (hnn _ (List.mem_cons_self ..)) g2 g2'
        (fun i j k h => near_within hx h) (fun i j k h => near_within hx' h) hle hin)
  | conv l ls n A B M e M' e' hk hb hA0 hB0 hn hmax _ ih =>
    intro hok hnn t t' hM he x x' hx hx' hsh hle hstep hstep'
    obtain ⟨_, g2, _⟩ := hstep 0 _ rfl
    obtain ⟨_, g2', _⟩ := hstep' 0 _ rfl
    have h0 : 0 ≤ A * (M + e) + B := by positivity
    have hl := hok _ (List.mem_cons_self ..)
    exact step _ ls _ _ ih (by positivity) (by positivity) hok hnn t t' x x' hstep hstep'
      (fun i j k hin => conv_near hl hM he hk hb hn hmax g2 hx hin)
      (fun i j k hin => conv_near hl hM he hk hb hn hmax g2' hx' hin)
      (fun i j k hin => conv_mono hl (by positivity) hk hb hn hmax (hnn _ (List.mem_cons_self ..)) g2
        g2' (fun i j k h => near_within hx h) (fun i j k h => near_within hx' h) hle hin)
  | mp l ls M e M' e' h1 h2 _ ih =>
    intro hok hnn t t' hM he x x' hx hx' hsh hle hstep hstep'
    obtain ⟨_, g2, _⟩ := hstep 0 _ rfl
    obtain ⟨_, g2', _⟩ := hstep' 0 _ rfl
    have hl := hok _ (List.mem_cons_self ..)
    exact step _ ls _ _ ih hM he hok hnn t t' x x' hstep hstep'
      (fun i j k hin => mp_near hl h1 h2 g2 hx hin)
      (fun i j k hin => mp_near hl h1 h2 g2' hx' hin)
      (fun i j k hin => mp_mono hl h1 h2 g2 g2' (fun i j k h => (hx i j k h).1)
        (fun i j k h => (hx' i j k h).1) hle hin)
  | sm l ls M e M' e' h1 hn _ ih =>
    intro _ hnn
    exact absurd (hnn _ (List.mem_cons_self ..)) (fun h => h)

end Rusty
