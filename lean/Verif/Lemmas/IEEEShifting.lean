import Verif.Lemmas.IEEEScaling
import Verif.Spec.Shifting

/-! # Helper lemmas: layers whose parameters are multiplied by powers of two -/

namespace Rusty

open F32Ops Spec F32

namespace F32

theorem natAbs_toInt (v : F32) : v.toInt.natAbs = units v.code := by
  unfold toInt; cases v.sign <;> simp

/-- the product with factors multiplied by powers of two -/
theorem mul_scaled' {x y x' y' : F32} {k : Nat} (h : (mul x y).isFinite = true)
    (h' : (mul x' y').isFinite = true) (he : x'.toReal * y'.toReal = 2 ^ k * (x.toReal * y.toReal))
    (hu : 0 < k → NoUnderflow (x.toReal * y.toReal)) : (mul x' y').toReal = 2 ^ k * (mul x y).toReal := by
  rw [mul_finite_eq h, mul_finite_eq h']
  have hn : units x'.code * units y'.code = units x.code * units y.code * 2 ^ k := by
    have a := abs_mul_units x' y'
    rw [he, abs_mul, abs_mul_units x y, abs_of_pos (show (0 : ℝ) < 2 ^ k by positivity), ← mul_div_assoc,
      div_left_inj' (by positivity)] at a
    rw [mul_comm (units x.code * units y.code)]
    exact_mod_cast a.symm
  have hr : units (rawCode (units x'.code * units y'.code) (2 ^ 149)) =
      units (rawCode (units x.code * units y.code) (2 ^ 149)) * 2 ^ k := by
    rw [hn]
    rcases Nat.eq_zero_or_pos k with rfl | hk
    · rw [pow_zero, Nat.mul_one, Nat.mul_one]
    · exact rawCode_scale (by positivity) (noUnderflow_units (hu hk))
  rw [hr]
  by_cases h0 : units x.code * units y.code = 0
  · rw [h0, rawCode_zero, units_zero]
    simp
  · have hs : (x'.sign != y'.sign) = (x.sign != y.sign) := by
      have key : ∀ u v : F32, u.toReal * v.toReal = (if (u.sign != v.sign) = true then -1 else 1) *
          ((units u.code * units v.code : Nat) / (2 ^ 149 * 2 ^ 149)) := by
        intro u v
        rw [toReal_eq u, toReal_eq v]
        cases u.sign <;> cases v.sign <;> simp <;> ring
      have pos : (0 : ℝ) < (units x.code * units y.code : Nat) / (2 ^ 149 * 2 ^ 149) :=
        div_pos (by exact_mod_cast Nat.pos_of_ne_zero h0) (by positivity)
      have hk : (0 : ℝ) < 2 ^ k := by positivity
      rw [key, key, hn] at he
      have e2 : ((units x.code * units y.code * 2 ^ k : Nat) : ℝ) / (2 ^ 149 * 2 ^ 149) =
          2 ^ k * ((units x.code * units y.code : Nat) / (2 ^ 149 * 2 ^ 149)) := by push_cast; ring
      rw [e2] at he
      have q := mul_pos hk pos
      cases h1 : (x'.sign != y'.sign) <;> cases h2 : (x.sign != y.sign) <;> simp only [h1, h2] at he <;> first
        | rfl
        | (exfalso; simp only [if_true, if_false, Bool.false_eq_true] at he; linarith)
    rw [hs]
    push_cast
    ring

theorem mul_shifted {x y x' y' : F32} {z : ℤ} (h : (mul x y).isFinite = true)
    (h' : (mul x' y').isFinite = true) (he : x'.toReal * y'.toReal = 2 ^ z * (x.toReal * y.toReal))
    (hu : (0 < z → NoUnderflow (x.toReal * y.toReal)) ∧ (z < 0 → NoUnderflow (2 ^ z * (x.toReal * y.toReal)))) :
    (mul x' y').toReal = 2 ^ z * (mul x y).toReal := by
  obtain ⟨k, rfl | rfl⟩ := z.eq_nat_or_neg
  · rw [zpow_natCast] at he ⊢
    exact mul_scaled' h h' he fun hk => hu.1 (by omega)
  · have hk : (2 : ℝ) ^ k ≠ 0 := by positivity
    rw [zpow_neg, zpow_natCast] at he ⊢
    have := mul_scaled' (k := k) h' h (by rw [he, mul_inv_cancel_left₀ hk]) fun hk => by
      have := hu.2 (by omega)
      rw [zpow_neg, zpow_natCast, ← he] at this
      exact this
    rw [this, inv_mul_cancel_left₀ hk]

theorem add_shifted {x y x' y' : F32} {z : ℤ} (h : (add x y).isFinite = true)
    (h' : (add x' y').isFinite = true) (hx : x'.toReal = 2 ^ z * x.toReal)
    (hy : y'.toReal = 2 ^ z * y.toReal) : (add x' y').toReal = 2 ^ z * (add x y).toReal := by
  obtain ⟨k, rfl | rfl⟩ := z.eq_nat_or_neg
  · rw [zpow_natCast] at *
    exact add_scaled h h' hx hy
  · have hk : (2 : ℝ) ^ k ≠ 0 := by positivity
    rw [zpow_neg, zpow_natCast] at *
    rw [add_scaled (k := k) h' h (by rw [hx, mul_inv_cancel_left₀ hk]) (by rw [hy, mul_inv_cancel_left₀ hk]),
      inv_mul_cancel_left₀ hk]

variable [Libm]

theorem dot_shifted {ι : Type} (L : List ι) (f g f' g' : ι → F32) {z : ℤ}
    (h : (Spec.sum (L.map fun m => mul (f m) (g m))).isFinite = true)
    (h' : (Spec.sum (L.map fun m => mul (f' m) (g' m))).isFinite = true)
    (hs : ∀ m ∈ L, (mul (f m) (g m)).isFinite = true → (mul (f' m) (g' m)).isFinite = true →
      (mul (f' m) (g' m)).toReal = 2 ^ z * (mul (f m) (g m)).toReal) :
    (Spec.sum (L.map fun m => mul (f' m) (g' m))).toReal =
      2 ^ z * (Spec.sum (L.map fun m => mul (f m) (g m))).toReal := by
  induction L using List.reverseRecOn with
  | nil =>
    have h0 : ∀ f g : ι → F32, Spec.sum (([] : List ι).map fun m => mul (f m) (g m)) =
      (F32Ops.zero : F32) := fun _ _ => rfl
    rw [h0, h0, toReal_zero, mul_zero]
  | append_singleton L a ih =>
    rw [List.map_append, List.map_singleton, sum_append_singleton] at h h' ⊢
    obtain ⟨p1, p2⟩ := finite_of_add h
    obtain ⟨p3, p4⟩ := finite_of_add h'
    rw [List.map_append, List.map_singleton, sum_append_singleton]
    exact add_shifted h h' (ih p1 p3 fun m hm => hs m (List.mem_append_left _ hm)) (hs a (by simp) p2 p4)

/-- the affine map and the ReLU of a layer -/
theorem unit_shifted {ι : Type} (L : List ι) (f g f' g' : ι → F32) (β β' : F32) {z : ℤ}
    (hf : ∀ m ∈ L, (f m).isFinite = true ∧ (g m).isFinite = true)
    (hf' : ∀ m ∈ L, (f' m).isFinite = true ∧ (g' m).isFinite = true)
    (hβ : β.isFinite = true) (hβ' : β'.isFinite = true) (hb : β'.toReal = 2 ^ z * β.toReal)
    (hr : ∀ m ∈ L, (f' m).toReal * (g' m).toReal = 2 ^ z * ((f m).toReal * (g m).toReal))
    (hm : Room z (L.map fun m => (f m).toReal * (g m).toReal) β.toReal) :
    (Spec.relu (add (Spec.sum (L.map fun m => mul (f m) (g m))) β)).isFinite = true ∧
    (Spec.relu (add (Spec.sum (L.map fun m => mul (f' m) (g' m))) β')).isFinite = true ∧
    (Spec.relu (add (Spec.sum (L.map fun m => mul (f' m) (g' m))) β')).toReal =
      2 ^ z * (Spec.relu (add (Spec.sum (L.map fun m => mul (f m) (g m))) β)).toReal := by
  have hk : (0 : ℝ) < 2 ^ z := by positivity
  obtain ⟨m1, m2, m3, m4⟩ := hm
  rw [List.length_map] at m1
  simp only [List.map_map, Function.comp_def] at m3 m4
  have fin := affine_finite L f g β m1 hf hβ m3
  have fin' := affine_finite L f' g' β' m1 hf' hβ' (by
    rw [hb, abs_mul, abs_of_pos hk, List.map_congr_left (g := fun m => 2 ^ z * |(f m).toReal * (g m).toReal|)
      (fun m hm => by rw [hr m hm, abs_mul, abs_of_pos hk]), List.sum_map_mul_left, ← mul_add]
    exact m4)
  obtain ⟨q1, q2⟩ := (relu_spec _).2.2 fin
  obtain ⟨q3, q4⟩ := (relu_spec _).2.2 fin'
  refine ⟨q1, q3, ?_⟩
  rw [q2, q4, add_shifted fin fin' (dot_shifted L f g f' g' (finite_of_add fin).1 (finite_of_add fin').1
    fun m hmem h h' => mul_shifted h h' (hr m hmem) (m2 _ (List.mem_map_of_mem hmem))) hb,
    mul_max_of_nonneg _ _ hk.le, mul_zero]

end F32

variable [Libm]

theorem fc_shifted {l l' : FullyConnectedLayer F32} (hl : l.Ok) {z z' : ℤ}
    {s s' : Tensor F32} (hg : Shifts z z' (.fc l) (.fc l')) (hr : Roomy z' (.fc l) s)
    (hss : s.shape = l.get_input_shape) (hs : ShiftedBy z s s') {i j c : Nat}
    (hin : l.get_output_shape.Inside i j c) :
    (layerAt (.fc l) s i j c).isFinite = true ∧ (layerAt (.fc l') s' i j c).isFinite = true ∧
    (layerAt (.fc l') s' i j c).toReal = 2 ^ z' * (layerAt (.fc l) s i j c).toReal := by
  have hi : i < l.weights.shape.di.toNat := by
    unfold FullyConnectedLayer.get_output_shape at hin
    rw [hl.rows] at hin
    exact hin.1
  obtain ⟨hw, hb⟩ := hg
  have hin' : ∀ m ∈ List.range l.weights.shape.dj.toNat, s.shape.Inside m 0 0 := fun m hm => by
    rw [hss]; exact ⟨List.mem_range.mp hm, Nat.zero_lt_one, Nat.zero_lt_one⟩
  have hwi : ∀ m ∈ List.range l.weights.shape.dj.toNat, l.weights.shape.Inside i m 0 := fun m hm =>
    ⟨hi, List.mem_range.mp hm, by rw [hl.depth]; exact Nat.zero_lt_one⟩
  obtain ⟨b1, b2, b3⟩ := hb.2 i 0 0 (by rw [hl.rows]; exact ⟨hi, Nat.zero_lt_one, Nat.zero_lt_one⟩)
  simp only [layerAt]
  rw [act_relu _ (summed_preact l s i), act_relu _ (summed_preact l' s' i)]
  have e : preact l' s' i = F32.add (Spec.sum ((List.range l.weights.shape.dj.toNat).map fun m =>
      F32.mul (val l'.weights i m 0) (val s' m 0 0))) (val l'.bias i 0 0) := by
    unfold preact; rw [hw.1]; rfl
  rw [e]
  exact unit_shifted (List.range l.weights.shape.dj.toNat) (fun m => val l.weights i m 0)
    (fun m => val s m 0 0) (fun m => val l'.weights i m 0) (fun m => val s' m 0 0) (val l.bias i 0 0)
    (val l'.bias i 0 0)
    (fun m hm => ⟨(hw.2 _ _ _ (hwi m hm)).1, (hs.2 m 0 0 (hin' m hm)).1⟩)
    (fun m hm => ⟨(hw.2 _ _ _ (hwi m hm)).2.1, (hs.2 m 0 0 (hin' m hm)).2.1⟩) b1 b2 b3
    (fun m hm => by
      rw [(hs.2 m 0 0 (hin' m hm)).2.2, (hw.2 _ _ _ (hwi m hm)).2.2, zpow_sub₀ (by norm_num)]
      field_simp) (hr i hi)

theorem conv_shifted {l l' : ConvolutionalLayer F32} (hl : l.Ok) {z z' : ℤ}
    {s s' : Tensor F32} (hg : Shifts z z' (.conv l) (.conv l')) (hr : Roomy z' (.conv l) s)
    (hss : s.shape = l.input_shape) (hs : ShiftedBy z s s') {i j k : Nat}
    (hin : l.output_shape.Inside i j k) :
    (layerAt (.conv l) s i j k).isFinite = true ∧ (layerAt (.conv l') s' i j k).isFinite = true ∧
    (layerAt (.conv l') s' i j k).toReal = 2 ^ z' * (layerAt (.conv l) s i j k).toReal := by
  obtain ⟨g1, g2, g3, g4, g5⟩ := hg
  have hkl : k < l.kernels.length := by rw [hl.count]; exact hin.2.2
  have hbl : k < l.biases.length := by rw [hl.biasCount]; exact hkl
  have hkl' : k < l'.kernels.length := by rw [← g4.length_eq]; exact hkl
  have hbl' : k < l'.biases.length := by rw [← g5.length_eq]; exact hbl
  have hkm := List.getElem_mem hkl
  obtain ⟨_, hkd, hkt⟩ := hl.kernels _ hkm
  obtain ⟨_, hb1⟩ := hl.biases _ (List.getElem_mem hbl)
  have hK : ShiftedBy (z' - z) l.kernels[k] l'.kernels[k] := List.forall₂_iff_get.mp g4 |>.2 k hkl hkl'
  have hB : ShiftedBy z' l.biases[k] l'.biases[k] := List.forall₂_iff_get.mp g5 |>.2 k hbl hbl'
  obtain ⟨b1, b2, b3⟩ := hB.2 0 0 0 (by rw [hb1]; exact ⟨Nat.zero_lt_one, Nat.zero_lt_one, Nat.zero_lt_one⟩)
  have e1 : convPre l s i j k =
      F32.add (Spec.sum (l.kernels[k].shape.indices.map fun p =>
      F32.mul (val s (i * l.stride.toNat + p.1) (j * l.stride.toNat + p.2.1) p.2.2)
        (val l.kernels[k] p.1 p.2.1 p.2.2))) (val l.biases[k] 0 0 0) := by
    unfold convPre
    rw [List.getElem?_eq_getElem hkl, List.getElem?_eq_getElem hbl]
    rfl
  have e2 : convPre l' s' i j k =
      F32.add (Spec.sum (l.kernels[k].shape.indices.map fun p =>
      F32.mul (val s' (i * l.stride.toNat + p.1) (j * l.stride.toNat + p.2.1) p.2.2)
        (val l'.kernels[k] p.1 p.2.1 p.2.2))) (val l'.biases[k] 0 0 0) := by
    unfold convPre
    rw [List.getElem?_eq_getElem hkl', List.getElem?_eq_getElem hbl']
    change F32.add (Spec.sum (l'.kernels[k].shape.indices.map fun p =>
      F32.mul (val s' (i * l'.stride.toNat + p.1) (j * l'.stride.toNat + p.2.1) p.2.2)
        (val l'.kernels[k] p.1 p.2.1 p.2.2))) (val l'.biases[k] 0 0 0) = _
    rw [hK.1, g1]
  have hin' : ∀ p ∈ l.kernels[k].shape.indices,
      s.shape.Inside (i * l.stride.toNat + p.1) (j * l.stride.toNat + p.2.1) p.2.2 := by
    intro p hp
    obtain ⟨m1, m2, m3⟩ := mem_indices.mp hp
    rw [hss]
    exact ⟨tiles_lt hkt.1 hin.1 m1, tiles_lt hkt.2 hin.2.1 m2, hkd ▸ m3⟩
  have hroom : Room z' (l.kernels[k].shape.indices.map fun p =>
      (val s (i * l.stride.toNat + p.1) (j * l.stride.toNat + p.2.1) p.2.2).toReal *
        (val l.kernels[k] p.1 p.2.1 p.2.2).toReal) (val l.biases[k] 0 0 0).toReal :=
    hr i j k _ _ hin (List.getElem?_eq_getElem hkl) (List.getElem?_eq_getElem hbl)
  have hprod : ∀ p ∈ l.kernels[k].shape.indices,
      (val s' (i * l.stride.toNat + p.1) (j * l.stride.toNat + p.2.1) p.2.2).toReal *
        (val l'.kernels[k] p.1 p.2.1 p.2.2).toReal =
      2 ^ z' * ((val s (i * l.stride.toNat + p.1) (j * l.stride.toNat + p.2.1) p.2.2).toReal *
        (val l.kernels[k] p.1 p.2.1 p.2.2).toReal) := by
    intro p hp
    rw [(hs.2 _ _ _ (hin' p hp)).2.2, (hK.2 _ _ _ (mem_indices.mp hp)).2.2, zpow_sub₀ (by norm_num)]
    field_simp
  simp only [layerAt]
  rw [act_relu _ (summed_convPre l s i j k), act_relu _ (summed_convPre l' s' i j k), e1, e2]
  exact unit_shifted l.kernels[k].shape.indices
    (fun p => val s (i * l.stride.toNat + p.1) (j * l.stride.toNat + p.2.1) p.2.2)
    (fun p => val l.kernels[k] p.1 p.2.1 p.2.2)
    (fun p => val s' (i * l.stride.toNat + p.1) (j * l.stride.toNat + p.2.1) p.2.2)
    (fun p => val l'.kernels[k] p.1 p.2.1 p.2.2) (val l.biases[k] 0 0 0) (val l'.biases[k] 0 0 0)
    (fun p hp => ⟨(hs.2 _ _ _ (hin' p hp)).1, (hK.2 _ _ _ (mem_indices.mp hp)).1⟩)
    (fun p hp => ⟨(hs.2 _ _ _ (hin' p hp)).2.1, (hK.2 _ _ _ (mem_indices.mp hp)).2.1⟩) b1 b2 b3
    hprod hroom

theorem mp_shifted {l l' : MaxPoolLayer} (hl : l.Ok) {z z' : ℤ} {s s' : Tensor F32}
    (hg : Shifts z z' (.mp l) (.mp l')) (hss : s.shape = l.input_shape)
    (hs : ShiftedBy z s s') {i j k : Nat} (hin : l.output_shape.Inside i j k) :
    (layerAt (.mp l) s i j k).isFinite = true ∧ (layerAt (.mp l') s' i j k).isFinite = true ∧
    (layerAt (.mp l') s' i j k).toReal = 2 ^ z' * (layerAt (.mp l) s i j k).toReal := by
  obtain ⟨rfl, g1, g2, g3, g4, h1, h2⟩ := hg
  have p1 : 0 < l.mask_shape.di.toNat := by
    have : l.mask_shape.di.toNat ≠ 0 := fun h => h1 (UInt32.toNat_inj.mp h)
    omega
  have p2 : 0 < l.mask_shape.dj.toNat := by
    have : l.mask_shape.dj.toNat ≠ 0 := fun h => h2 (UInt32.toNat_inj.mp h)
    omega
  have hin' : ∀ ii jj, ii < l.mask_shape.di.toNat → jj < l.mask_shape.dj.toNat →
      s.shape.Inside (i * l.stride.toNat + ii) (j * l.stride.toNat + jj) k := fun ii jj m1 m2 => by
    rw [hss]
    exact ⟨tiles_lt hl.tiles.1 hin.1 m1, tiles_lt hl.tiles.2 hin.2.1 m2, hl.depth ▸ hin.2.2⟩
  have hmem : ∀ {s : Tensor F32}, ∀ v ∈ window s l.mask_shape l.stride.toNat i j k, ∃ ii jj,
      ii < l.mask_shape.di.toNat ∧ jj < l.mask_shape.dj.toNat ∧
      v = val s (i * l.stride.toNat + ii) (j * l.stride.toNat + jj) k := by
    intro s v hv
    obtain ⟨⟨ii, jj⟩, hp, rfl⟩ := List.mem_map.mp hv
    exact ⟨ii, jj, (mem_idx2.mp hp).1, (mem_idx2.mp hp).2, rfl⟩
  have hmem' : ∀ (s : Tensor F32) ii jj, ii < l.mask_shape.di.toNat → jj < l.mask_shape.dj.toNat →
      val s (i * l.stride.toNat + ii) (j * l.stride.toNat + jj) k ∈
        window s l.mask_shape l.stride.toNat i j k := fun s ii jj m1 m2 =>
    List.mem_map.mpr ⟨(ii, jj), mem_idx2.mpr ⟨m1, m2⟩, rfl⟩
  obtain ⟨g1, q2⟩ := maxOf_finite (List.ne_nil_of_mem (hmem' s 0 0 p1 p2)) fun v hv => by
    obtain ⟨ii, jj, m1, m2, rfl⟩ := hmem v hv
    exact (hs.2 _ _ _ (hin' ii jj m1 m2)).1
  obtain ⟨q3, q4⟩ := maxOf_finite (List.ne_nil_of_mem (hmem' s' 0 0 p1 p2)) fun v hv => by
    obtain ⟨ii, jj, m1, m2, rfl⟩ := hmem v hv
    exact (hs.2 _ _ _ (hin' ii jj m1 m2)).2.1
  simp only [layerAt]
  rw [g2, g4]
  obtain ⟨ii, jj, m1, m2, hv⟩ := hmem _ g1
  obtain ⟨ii', jj', m1', m2', hv'⟩ := hmem _ q3
  obtain ⟨a1, a2, a3⟩ := hs.2 _ _ _ (hin' ii jj m1 m2)
  obtain ⟨b1, b2, b3⟩ := hs.2 _ _ _ (hin' ii' jj' m1' m2')
  have u1 := q4 _ (hmem' s' ii jj m1 m2)
  have u2 := q2 _ (hmem' s ii' jj' m1' m2')
  rw [hv, hv'] at *
  refine ⟨a1, b2, le_antisymm ?_ ?_⟩
  · rw [b3]
    exact mul_le_mul_of_nonneg_left u2 (by positivity)
  · rw [← a3]
    exact u1

theorem layer_shifted {l l' : AnyLayer F32} (hl : l.Ok) {z z' : ℤ} {s s' : Tensor F32}
    (hg : Shifts z z' l l') (hr : Roomy z' l s) (hss : s.shape = l.get_input_shape) (hs : ShiftedBy z s s')
    {i j k : Nat} (hin : l.get_output_shape.Inside i j k) :
    (layerAt l s i j k).isFinite = true ∧ (layerAt l' s' i j k).isFinite = true ∧
    (layerAt l' s' i j k).toReal = 2 ^ z' * (layerAt l s i j k).toReal := by
  cases l with
  | fc l => cases l' with
    | fc l' => exact fc_shifted hl hg hr hss hs hin
    | _ => exact hg.elim
  | conv l => cases l' with
    | conv l' => exact conv_shifted hl hg hr hss hs hin
    | _ => exact hg.elim
  | mp l => cases l' with
    | mp l' => exact mp_shifted hl hg hss hs hin
    | _ => exact hg.elim
  | sm l => cases l' <;> exact hg.elim

/-- the shapes of such layers agree -/
theorem shifts_shapes {l l' : AnyLayer F32} {z z' : ℤ} (hg : Shifts z z' l l') :
    l'.get_input_shape = l.get_input_shape ∧ l'.get_output_shape = l.get_output_shape := by
  cases l <;> cases l' <;> first
    | exact absurd hg id
    | skip
  · exact ⟨hg.2.1, hg.2.2.1⟩
  · refine ⟨?_, hg.2.1⟩
    change TensorShape.new_1d _ = TensorShape.new_1d _
    rw [hg.1.1]
  · exact ⟨hg.2.1, hg.2.2.2.1⟩

/-- a layer with outputs `2^0` times those of another has the same outputs, bit for bit, unless it is a max-pool
layer -/
theorem shifted_same {l l' : AnyLayer F32} {z : ℤ} {s s' : Tensor F32} (hg : Shifts z 0 l l')
    (hmp : ∀ p, l ≠ .mp p) {i j k : Nat} (h : (layerAt l s i j k).isFinite = true)
    (h' : (layerAt l' s' i j k).isFinite = true)
    (e : (layerAt l' s' i j k).toReal = 2 ^ (0 : ℤ) * (layerAt l s i j k).toReal) :
    layerAt l' s' i j k = layerAt l s i j k := by
  have hsm : ∀ m, l ≠ .sm m := by rintro m rfl; exact absurd hg id
  have hsm' : ∀ m, l' ≠ .sm m := by rintro m rfl; cases l <;> exact absurd hg id
  have hmp' : ∀ p, l' ≠ .mp p := by
    rintro p rfl
    cases l with
    | mp q => exact hmp q rfl
    | _ => exact absurd hg id
  have a := (layerAt_notNaN l hsm s i j k).2 hmp
  have b := (layerAt_notNaN l' hsm' s' i j k).2 hmp'
  generalize layerAt l s i j k = u at *
  generalize layerAt l' s' i j k = v at *
  rw [zpow_zero, one_mul, toReal_eq, toReal_eq, a, b] at e
  refine ext_fields (b.trans a.symm) ?_
  simp only [Bool.false_eq_true, if_false, one_mul] at e
  rw [div_left_inj' (by positivity)] at e
  exact units_strictMono.injective (by exact_mod_cast e)

end Rusty
