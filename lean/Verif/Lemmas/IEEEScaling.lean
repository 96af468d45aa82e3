import Verif.Lemmas.IEEEExact
import Verif.Lemmas.IEEEMonotone
import Verif.Spec.Scaling

/-! # Helper lemmas: rounding commutes with powers of two, where nothing underflows or overflows -/

namespace Rusty

open F32Ops Spec F32

namespace F32

theorem units_exists' (m k : Nat) (hm : m ≤ 2 ^ 24) : ∃ c, units c = m * 2 ^ k := by
  induction k generalizing m with
  | zero => exact ⟨0 * 2 ^ 23 + m, units_code hm (.inl rfl)⟩
  | succ k ih =>
    by_cases h : 2 ^ 23 ≤ m
    · exact ⟨(k + 1) * 2 ^ 23 + m, units_code hm (.inr h)⟩
    · obtain ⟨c, hc⟩ := ih (2 * m) (by omega)
      exact ⟨c, by rw [hc, pow_succ]; ring⟩

/-- rounding commutes with a power of two -/
theorem rawCode_scale {a d k : Nat} (hd : 0 < d) (h : 2 ^ 23 ≤ a / d ∨ d ∣ a) :
    units (rawCode (a * 2 ^ k) d) = units (rawCode a d) * 2 ^ k := by
  by_cases hl : 2 ^ 23 ≤ a / d
  · have hb : 2 ^ (excess (a / d) + 23) ≤ a / d ∧ a / d < 2 ^ (excess (a / d) + 24) := by
      by_cases h24 : 2 ^ 24 ≤ a / d
      · exact excess_bounds h24
      · rw [excess_zero (by omega)]
        exact ⟨hl, by omega⟩
    rw [units_rawCode hd, units_rawCode hd]
    generalize excess (a / d) = e at *
    obtain ⟨b1, b2⟩ := hb
    rw [Nat.le_div_iff_mul_le hd] at b1
    rw [Nat.div_lt_iff_lt_mul hd] at b2
    have hk : 0 < 2 ^ k := Nat.pow_pos (by decide)
    have he : excess (a * 2 ^ k / d) = e + k := by
      apply excess_eq
      · rw [Nat.le_div_iff_mul_le hd]
        calc 2 ^ (e + k + 23) * d = 2 ^ (e + 23) * d * 2 ^ k := by
              rw [show e + k + 23 = e + 23 + k by omega, pow_add _ (e + 23)]; ring
          _ ≤ _ := Nat.mul_le_mul_right _ b1
      · rw [Nat.div_lt_iff_lt_mul hd]
        calc a * 2 ^ k < 2 ^ (e + 24) * d * 2 ^ k := Nat.mul_lt_mul_of_pos_right b2 hk
          _ = _ := by rw [show e + k + 24 = e + 24 + k by omega, pow_add _ (e + 24)]; ring
    rw [he]
    have hr : rne (a * 2 ^ k) (d * 2 ^ (e + k)) = rne a (d * 2 ^ e) := by
      have h1 : 0 < d * 2 ^ (e + k) := Nat.mul_pos hd (Nat.pow_pos (by decide))
      have h2 : 0 < d * 2 ^ e := Nat.mul_pos hd (Nat.pow_pos (by decide))
      have h3 : a * 2 ^ k * (d * 2 ^ e) = a * (d * 2 ^ (e + k)) := by rw [pow_add]; ring
      exact Nat.le_antisymm (rne_mono h1 h2 h3.le) (rne_mono h2 h1 h3.ge)
    rw [hr, pow_add]
    ring
  · obtain ⟨m, rfl⟩ := h.resolve_left hl
    rw [Nat.mul_div_cancel_left _ hd] at hl
    obtain ⟨c, hc⟩ := units_exists' m k (by omega)
    obtain ⟨c0, hc0⟩ := units_exists' m 0 (by omega)
    rw [pow_zero, Nat.mul_one] at hc0
    rw [show d * m * 2 ^ k = units c * d by rw [hc]; ring, rawCode_units hd, hc,
      show d * m = units c0 * d by rw [hc0]; ring, rawCode_units hd, hc0]

theorem toInt_scaled {x x' : F32} {k : Nat} (h : x'.toReal = 2 ^ k * x.toReal) :
    x'.toInt = x.toInt * 2 ^ k := by
  unfold toReal at h
  have h2 : (x'.toInt : ℝ) = x.toInt * 2 ^ k := by
    have : (2 : ℝ) ^ 149 ≠ 0 := by positivity
    field_simp at h
    linarith
  exact_mod_cast h2

theorem add_finite_eq {x y : F32} (h : (add x y).isFinite = true) : (add x y).toReal =
    if x.toInt + y.toInt = 0 then 0 else (if x.toInt + y.toInt < 0 then (-1 : ℝ) else 1) *
      (units (rawCode (x.toInt + y.toInt).natAbs 1) / 2 ^ 149) := by
  obtain ⟨fx, fy⟩ := finite_of_add h
  have e : add x y = if x.toInt + y.toInt = 0 then mk' (x.sign && y.sign) 0
      else mk' (decide (x.toInt + y.toInt < 0)) (roundCode (x.toInt + y.toInt).natAbs 1) := by
    unfold add
    rw [finite_nan fx, finite_nan fy, finite_inf fx, finite_inf fy]
    simp
  rw [e] at h ⊢
  by_cases hz : x.toInt + y.toInt = 0
  · rw [if_pos hz, if_pos hz, toReal_mk' (by decide), units_zero]
    simp
  · rw [if_neg hz] at h
    rw [if_neg hz, if_neg hz, toReal_mk' (roundCode_lt _ _), raw_of_finite h]
    simp only [decide_eq_true_eq]

theorem add_scaled {x y x' y' : F32} {k : Nat} (h : (add x y).isFinite = true)
    (h' : (add x' y').isFinite = true) (hx : x'.toReal = 2 ^ k * x.toReal)
    (hy : y'.toReal = 2 ^ k * y.toReal) : (add x' y').toReal = 2 ^ k * (add x y).toReal := by
  rw [add_finite_eq h, add_finite_eq h', toInt_scaled hx, toInt_scaled hy, ← add_mul]
  generalize x.toInt + y.toInt = z
  have hk : (0 : Int) < 2 ^ k := by positivity
  by_cases hz : z = 0
  · simp [hz]
  · have hz' : z * 2 ^ k ≠ 0 := mul_ne_zero hz hk.ne'
    have hs : z * 2 ^ k < 0 ↔ z < 0 := by
      constructor
      · intro h; by_contra hc
        have := mul_nonneg (not_lt.mp hc) hk.le
        omega
      · intro h; exact mul_neg_of_neg_of_pos h hk
    rw [if_neg hz, if_neg hz', show (z * 2 ^ k).natAbs = z.natAbs * 2 ^ k by
      rw [Int.natAbs_mul, Int.natAbs_pow]; rfl, rawCode_scale (by decide) (.inr (one_dvd _))]
    simp only [hs]
    push_cast
    ring

theorem mul_finite_eq {x y : F32} (h : (mul x y).isFinite = true) : (mul x y).toReal =
    (if (x.sign != y.sign) = true then -1 else 1) *
      (units (rawCode (units x.code * units y.code) (2 ^ 149)) / 2 ^ 149) := by
  obtain ⟨fx, fy⟩ := finite_of_mul h
  have e : mul x y = mk' (x.sign != y.sign) (roundCode (units x.code * units y.code) (2 ^ 149)) := by
    unfold mul
    rw [finite_nan fx, finite_nan fy, finite_inf fx, finite_inf fy]
    simp only [Bool.or_self, Bool.false_eq_true, if_false]
  rw [e] at h ⊢
  rw [toReal_mk' (roundCode_lt _ _), raw_of_finite h]

theorem rawCode_zero (d : Nat) : rawCode 0 d = 0 := by
  unfold rawCode
  rw [Nat.zero_div, show excess 0 = 0 by decide]
  unfold rne
  rw [Nat.zero_mod, Nat.zero_div]
  split <;> simp

/-- a product as a multiple of `2^-149` -/
theorem abs_mul_units (x y : F32) :
    |x.toReal * y.toReal| = (units x.code * units y.code : Nat) / (2 ^ 149 * 2 ^ 149) := by
  rw [abs_mul, toReal_eq x, toReal_eq y]
  have hs : ∀ (s : Bool) (r : ℝ), 0 ≤ r → |(if s then -1 else 1) * r| = r := by
    intro s r hr
    cases s <;> simp [abs_of_nonneg hr]
  rw [hs _ _ (by positivity), hs _ _ (by positivity)]
  push_cast; ring

theorem noUnderflow_units {x y : F32} (h : NoUnderflow (x.toReal * y.toReal)) :
    2 ^ 23 ≤ units x.code * units y.code / 2 ^ 149 ∨ 2 ^ 149 ∣ units x.code * units y.code := by
  have e := abs_mul_units x y
  generalize units x.code * units y.code = a at *
  rcases h with h | ⟨z, hz⟩
  · left
    rw [Nat.le_div_iff_mul_le (by positivity)]
    rw [e, div_le_div_iff₀ (by positivity) (by positivity)] at h
    have : (2 : ℝ) ^ 23 * 2 ^ 149 ≤ a := by
      have h2 : (2 : ℝ) ^ 149 = 2 ^ 23 * 2 ^ 126 := by norm_num
      have h3 : (0 : ℝ) < 2 ^ 126 := by positivity
      nlinarith
    exact_mod_cast this
  · right
    rw [hz, abs_div, abs_of_pos (show (0 : ℝ) < 2 ^ 149 by positivity),
      div_eq_div_iff (by positivity) (by positivity)] at e
    have h5 : (z.natAbs : ℝ) = |(z : ℝ)| := by rw [Nat.cast_natAbs]; push_cast; rfl
    rw [← h5] at e
    have h6 : (a : ℝ) = 2 ^ 149 * z.natAbs := by
      have : (2 : ℝ) ^ 149 ≠ 0 := by positivity
      apply mul_right_cancel₀ this
      linarith
    exact ⟨z.natAbs, by exact_mod_cast h6⟩

/-- the product with a factor multiplied by a power of two -/
theorem mul_scaled {x y y' : F32} {k : Nat} (h : (mul x y).isFinite = true)
    (h' : (mul x y').isFinite = true) (hy : y'.toReal = 2 ^ k * y.toReal)
    (hu : NoUnderflow (x.toReal * y.toReal)) : (mul x y').toReal = 2 ^ k * (mul x y).toReal := by
  rw [mul_finite_eq h, mul_finite_eq h']
  have hi := toInt_scaled hy
  have hn : units y'.code = units y.code * 2 ^ k := by
    have : ∀ v : F32, v.toInt.natAbs = units v.code := by
      intro v; unfold toInt; cases v.sign <;> simp
    rw [← this, ← this, hi, Int.natAbs_mul, Int.natAbs_pow]; rfl
  rw [hn, ← mul_assoc, rawCode_scale (by positivity) (noUnderflow_units hu)]
  by_cases h0 : units y.code = 0
  · rw [h0, Nat.mul_zero, rawCode_zero, units_zero]
    simp
  · have hs : y'.sign = y.sign := by
      have hk : 0 < 2 ^ k := Nat.pow_pos (by decide)
      have h1 : 0 < units y'.code := by rw [hn]; exact Nat.mul_pos (by omega) hk
      have hk' : (0 : Int) < 2 ^ k := by positivity
      unfold toInt at hi
      revert hi
      have h2 : (0 : Int) < units y.code * 2 ^ k := mul_pos (by omega) hk'
      cases y'.sign <;> cases y.sign <;> intro hi <;> first
        | rfl
        | (exfalso; simp only [Bool.false_eq_true, if_true, if_false, neg_mul] at hi; omega)
    rw [hs]
    push_cast
    ring

theorem mul_scaled_left {x x' y : F32} {k : Nat} (h : (mul x y).isFinite = true)
    (h' : (mul x' y).isFinite = true) (hx : x'.toReal = 2 ^ k * x.toReal)
    (hu : NoUnderflow (x.toReal * y.toReal)) : (mul x' y).toReal = 2 ^ k * (mul x y).toReal := by
  have sw : ∀ {x y : F32}, (mul x y).isFinite = true → (mul y x).isFinite = true ∧
      (mul y x).toReal = (mul x y).toReal := by
    intro x y h
    have e : mul y x = mul x y := by
      obtain ⟨fx, fy⟩ := finite_of_mul h
      unfold mul
      rw [finite_nan fx, finite_nan fy, finite_inf fx, finite_inf fy, Nat.mul_comm,
        show (y.sign != x.sign) = (x.sign != y.sign) by cases x.sign <;> cases y.sign <;> rfl]
      rfl
    rw [e]
    exact ⟨h, rfl⟩
  obtain ⟨a1, a2⟩ := sw h
  obtain ⟨b1, b2⟩ := sw h'
  rw [← a2, ← b2]
  exact mul_scaled a1 b1 hx (by rwa [mul_comm])

variable [Libm]

/-- the products of a layer multiplied by a power of two -/
theorem dot_scaled {ι : Type} (L : List ι) (f g f' g' : ι → F32) {k : Nat}
    (h : (Spec.sum (L.map fun m => mul (f m) (g m))).isFinite = true)
    (h' : (Spec.sum (L.map fun m => mul (f' m) (g' m))).isFinite = true)
    (hs : ∀ m ∈ L, (mul (f m) (g m)).isFinite = true → (mul (f' m) (g' m)).isFinite = true →
      (mul (f' m) (g' m)).toReal = 2 ^ k * (mul (f m) (g m)).toReal) :
    (Spec.sum (L.map fun m => mul (f' m) (g' m))).toReal =
      2 ^ k * (Spec.sum (L.map fun m => mul (f m) (g m))).toReal := by
  induction L using List.reverseRecOn with
  | nil =>
    have h0 : ∀ f g : ι → F32, Spec.sum (([] : List ι).map fun m => mul (f m) (g m)) =
      (F32Ops.zero : F32) := fun _ _ => rfl
    rw [h0, h0, toReal_zero, mul_zero]
  | append_singleton L a ih =>
    rw [List.map_append, List.map_singleton, sum_append_singleton] at h h' ⊢
    obtain ⟨p1, p2⟩ := finite_of_add h
    obtain ⟨p3, p4⟩ := finite_of_add h'
    rw [List.map_append, List.map_singleton, sum_append_singleton]
    exact add_scaled h h' (ih p1 p3 fun m hm => hs m (List.mem_append_left _ hm))
      (hs a (by simp) p2 p4)

/-- the affine map without bias, and the ReLU, of a layer -/
theorem unit_scaled {ι : Type} (L : List ι) (f g f' g' : ι → F32) (β : F32) {k : Nat}
    (hn : L.length < 2 ^ 22) (hf : ∀ m ∈ L, (f m).isFinite = true ∧ (g m).isFinite = true)
    (hf' : ∀ m ∈ L, (f' m).isFinite = true ∧ (g' m).isFinite = true)
    (hβ : β.isFinite = true) (hβ0 : β.toReal = 0)
    (hr : ∀ m ∈ L, (f' m).toReal * (g' m).toReal = 2 ^ k * ((f m).toReal * (g m).toReal))
    (hs : ∀ m ∈ L, (mul (f m) (g m)).isFinite = true → (mul (f' m) (g' m)).isFinite = true →
      (mul (f' m) (g' m)).toReal = 2 ^ k * (mul (f m) (g m)).toReal)
    (hmax : 2 ^ k * (L.map fun m => |(f m).toReal * (g m).toReal|).sum ≤ 2 ^ 125) :
    (Spec.relu (add (Spec.sum (L.map fun m => mul (f m) (g m))) β)).isFinite = true ∧
    (Spec.relu (add (Spec.sum (L.map fun m => mul (f' m) (g' m))) β)).isFinite = true ∧
    (Spec.relu (add (Spec.sum (L.map fun m => mul (f' m) (g' m))) β)).toReal =
      2 ^ k * (Spec.relu (add (Spec.sum (L.map fun m => mul (f m) (g m))) β)).toReal := by
  have h0 : 0 ≤ (L.map fun m => |(f m).toReal * (g m).toReal|).sum :=
    List.sum_nonneg (by intro r hr; obtain ⟨m, _, rfl⟩ := List.mem_map.mp hr; exact abs_nonneg _)
  have h1 : (1 : ℝ) ≤ 2 ^ k := one_le_pow₀ (by norm_num)
  have hk : (0 : ℝ) < 2 ^ k := by positivity
  have b0 : |β.toReal| = 0 := by rw [hβ0, abs_zero]
  have fin := affine_finite L f g β hn hf hβ (by rw [b0]; nlinarith)
  have fin' := affine_finite L f' g' β hn hf' hβ (by
    rw [b0, add_zero, List.map_congr_left (g := fun m => 2 ^ k * |(f m).toReal * (g m).toReal|)
      (fun m hm => by rw [hr m hm, abs_mul, abs_of_pos hk]), List.sum_map_mul_left]
    exact hmax)
  obtain ⟨q1, q2⟩ := (relu_spec _).2.2 fin
  obtain ⟨q3, q4⟩ := (relu_spec _).2.2 fin'
  refine ⟨q1, q3, ?_⟩
  rw [q2, q4, add_scaled fin fin' (dot_scaled L f g f' g' (finite_of_add fin).1 (finite_of_add fin').1 hs)
    (by rw [hβ0, mul_zero]), mul_max_of_nonneg _ _ hk.le, mul_zero]

end F32

variable [Libm]

theorem fc_scaled {l : FullyConnectedLayer F32} (hl : l.Ok) {k : Nat} {s s' : Tensor F32}
    (hg : Gentle k (.fc l) s) (hss : s.shape = l.get_input_shape) (hs : ScaledBy k s s') {i j c : Nat}
    (hin : l.get_output_shape.Inside i j c) :
    (layerAt (.fc l) s i j c).isFinite = true ∧ (layerAt (.fc l) s' i j c).isFinite = true ∧
    (layerAt (.fc l) s' i j c).toReal = 2 ^ k * (layerAt (.fc l) s i j c).toReal := by
  have hi : i < l.weights.shape.di.toNat := by
    unfold FullyConnectedLayer.get_output_shape at hin
    rw [hl.rows] at hin
    exact hin.1
  obtain ⟨hn, hg⟩ := hg
  obtain ⟨⟨hb, hb0⟩, hw, hmax⟩ := hg i hi
  have hin' : ∀ m ∈ List.range l.weights.shape.dj.toNat, s.shape.Inside m 0 0 := fun m hm => by
    rw [hss]; exact ⟨List.mem_range.mp hm, Nat.zero_lt_one, Nat.zero_lt_one⟩
  simp only [layerAt]
  rw [act_relu _ (summed_preact l s i), act_relu _ (summed_preact l s' i)]
  exact unit_scaled (List.range l.weights.shape.dj.toNat) (fun m => val l.weights i m 0)
    (fun m => val s m 0 0) (fun m => val l.weights i m 0) (fun m => val s' m 0 0) (val l.bias i 0 0)
    (by rw [List.length_range]; exact hn)
    (fun m hm => ⟨(hw m (List.mem_range.mp hm)).1, (hs.2 m 0 0 (hin' m hm)).1⟩)
    (fun m hm => ⟨(hw m (List.mem_range.mp hm)).1, (hs.2 m 0 0 (hin' m hm)).2.1⟩) hb hb0
    (fun m hm => by rw [(hs.2 m 0 0 (hin' m hm)).2.2]; ring)
    (fun m hm h h' => mul_scaled h h' (hs.2 m 0 0 (hin' m hm)).2.2 (hw m (List.mem_range.mp hm)).2) hmax

theorem conv_scaled {l : ConvolutionalLayer F32} (hl : l.Ok) {e : Nat} {s s' : Tensor F32}
    (hg : Gentle e (.conv l) s) (hss : s.shape = l.input_shape) (hs : ScaledBy e s s') {i j k : Nat}
    (hin : l.output_shape.Inside i j k) :
    (layerAt (.conv l) s i j k).isFinite = true ∧ (layerAt (.conv l) s' i j k).isFinite = true ∧
    (layerAt (.conv l) s' i j k).toReal = 2 ^ e * (layerAt (.conv l) s i j k).toReal := by
  have hkl : k < l.kernels.length := by rw [hl.count]; exact hin.2.2
  have hbl : k < l.biases.length := by rw [hl.biasCount]; exact hkl
  have hkm := List.getElem_mem hkl
  obtain ⟨_, hkd, hkt⟩ := hl.kernels _ hkm
  obtain ⟨d0, c0⟩ := hg
  obtain ⟨c1, c2, c3⟩ := c0 _ hkm
  obtain ⟨c4, hmax⟩ := c3 i j hin.1 hin.2.1
  obtain ⟨d1, d2⟩ := d0 _ (List.getElem_mem hbl)
  have e1 : ∀ s : Tensor F32, convPre l s i j k =
      F32.add (Spec.sum (l.kernels[k].shape.indices.map fun p =>
      F32.mul (val s (i * l.stride.toNat + p.1) (j * l.stride.toNat + p.2.1) p.2.2)
        (val l.kernels[k] p.1 p.2.1 p.2.2))) (val l.biases[k] 0 0 0) := by
    intro s
    unfold convPre
    rw [List.getElem?_eq_getElem hkl, List.getElem?_eq_getElem hbl]
    rfl
  have hin' : ∀ p ∈ l.kernels[k].shape.indices,
      s.shape.Inside (i * l.stride.toNat + p.1) (j * l.stride.toNat + p.2.1) p.2.2 := by
    intro p hp
    obtain ⟨m1, m2, m3⟩ := mem_indices.mp hp
    rw [hss]
    exact ⟨tiles_lt hkt.1 hin.1 m1, tiles_lt hkt.2 hin.2.1 m2, hkd ▸ m3⟩
  simp only [layerAt]
  rw [act_relu _ (summed_convPre l s i j k), act_relu _ (summed_convPre l s' i j k), e1, e1]
  exact unit_scaled l.kernels[k].shape.indices
    (fun p => val s (i * l.stride.toNat + p.1) (j * l.stride.toNat + p.2.1) p.2.2)
    (fun p => val l.kernels[k] p.1 p.2.1 p.2.2)
    (fun p => val s' (i * l.stride.toNat + p.1) (j * l.stride.toNat + p.2.1) p.2.2)
    (fun p => val l.kernels[k] p.1 p.2.1 p.2.2) (val l.biases[k] 0 0 0)
    (by rw [indices_length]; exact c1)
    (fun p hp => ⟨(hs.2 _ _ _ (hin' p hp)).1, c2 _ _ _ (mem_indices.mp hp)⟩)
    (fun p hp => ⟨(hs.2 _ _ _ (hin' p hp)).2.1, c2 _ _ _ (mem_indices.mp hp)⟩) d1 d2
    (fun p hp => by rw [(hs.2 _ _ _ (hin' p hp)).2.2]; ring)
    (fun p hp h h' => mul_scaled_left h h' (hs.2 _ _ _ (hin' p hp)).2.2 (c4 _ _ _ (mem_indices.mp hp)))
    hmax

theorem mp_scaled {l : MaxPoolLayer} (hl : l.Ok) {e : Nat} {s s' : Tensor F32}
    (h1 : l.mask_shape.di ≠ 0) (h2 : l.mask_shape.dj ≠ 0) (hss : s.shape = l.input_shape)
    (hs : ScaledBy e s s') {i j k : Nat} (hin : l.output_shape.Inside i j k) :
    (layerAt (.mp l) s i j k).isFinite = true ∧ (layerAt (.mp l) s' i j k).isFinite = true ∧
    (layerAt (.mp l) s' i j k).toReal = 2 ^ e * (layerAt (.mp l) s i j k).toReal := by
  have p1 : 0 < l.mask_shape.di.toNat := by
    have : l.mask_shape.di.toNat ≠ 0 := fun h => h1 (UInt32.toNat_inj.mp h)
    omega
  have p2 : 0 < l.mask_shape.dj.toNat := by
    have : l.mask_shape.dj.toNat ≠ 0 := fun h => h2 (UInt32.toNat_inj.mp h)
    omega
  have hin' : ∀ ii jj, ii < l.mask_shape.di.toNat → jj < l.mask_shape.dj.toNat →
      s.shape.Inside (i * l.stride.toNat + ii) (j * l.stride.toNat + jj) k := fun ii jj m1 m2 => by
    rw [hss]
    exact ⟨tiles_lt hl.tiles.1 hin.1 m1, tiles_lt hl.tiles.2 hin.2.1 m2, hl.depth ▸ hin.2.2⟩
  have hmem : ∀ {s : Tensor F32}, ∀ v ∈ window s l.mask_shape l.stride.toNat i j k, ∃ ii jj,
      ii < l.mask_shape.di.toNat ∧ jj < l.mask_shape.dj.toNat ∧
      v = val s (i * l.stride.toNat + ii) (j * l.stride.toNat + jj) k := by
    intro s v hv
    obtain ⟨⟨ii, jj⟩, hp, rfl⟩ := List.mem_map.mp hv
    exact ⟨ii, jj, (mem_idx2.mp hp).1, (mem_idx2.mp hp).2, rfl⟩
  have hmem' : ∀ (s : Tensor F32) ii jj, ii < l.mask_shape.di.toNat → jj < l.mask_shape.dj.toNat →
      val s (i * l.stride.toNat + ii) (j * l.stride.toNat + jj) k ∈
        window s l.mask_shape l.stride.toNat i j k := fun s ii jj m1 m2 =>
    List.mem_map.mpr ⟨(ii, jj), mem_idx2.mpr ⟨m1, m2⟩, rfl⟩
  obtain ⟨g1, g2⟩ := maxOf_finite (List.ne_nil_of_mem (hmem' s 0 0 p1 p2)) fun v hv => by
    obtain ⟨ii, jj, m1, m2, rfl⟩ := hmem v hv
    exact (hs.2 _ _ _ (hin' ii jj m1 m2)).1
  obtain ⟨g3, g4⟩ := maxOf_finite (List.ne_nil_of_mem (hmem' s' 0 0 p1 p2)) fun v hv => by
    obtain ⟨ii, jj, m1, m2, rfl⟩ := hmem v hv
    exact (hs.2 _ _ _ (hin' ii jj m1 m2)).2.1
  simp only [layerAt]
  obtain ⟨ii, jj, m1, m2, hv⟩ := hmem _ g1
  obtain ⟨ii', jj', m1', m2', hv'⟩ := hmem _ g3
  obtain ⟨a1, a2, a3⟩ := hs.2 _ _ _ (hin' ii jj m1 m2)
  obtain ⟨b1, b2, b3⟩ := hs.2 _ _ _ (hin' ii' jj' m1' m2')
  have u1 := g4 _ (hmem' s' ii jj m1 m2)
  have u2 := g2 _ (hmem' s ii' jj' m1' m2')
  rw [hv, hv'] at *
  refine ⟨a1, b2, le_antisymm ?_ ?_⟩
  · rw [b3]
    exact mul_le_mul_of_nonneg_left u2 (by positivity)
  · rw [← a3]
    exact u1

theorem layer_scaled {l : AnyLayer F32} (hl : l.Ok) {e : Nat} {s s' : Tensor F32} (hg : Gentle e l s)
    (hss : s.shape = l.get_input_shape) (hs : ScaledBy e s s') {i j k : Nat}
    (hin : l.get_output_shape.Inside i j k) :
    (layerAt l s i j k).isFinite = true ∧ (layerAt l s' i j k).isFinite = true ∧
    (layerAt l s' i j k).toReal = 2 ^ e * (layerAt l s i j k).toReal := by
  cases l with
  | fc l => exact fc_scaled hl hg hss hs hin
  | conv l => exact conv_scaled hl hg hss hs hin
  | mp l => exact mp_scaled hl hg.1 hg.2 hss hs hin
  | sm l => exact absurd hg (fun h => h)

/-! ## Binary places -/

namespace F32

omit [Libm] in
/-- rounding does not add binary places -/
theorem rawCode_places {m g d : Nat} (hd : 0 < d) :
    units (rawCode (m * 2 ^ g * d) d) = units (rawCode (m * d) d) * 2 ^ g := by
  rw [show m * 2 ^ g * d = m * d * 2 ^ g by ring]
  exact rawCode_scale hd (.inr (Nat.dvd_mul_left _ _))

omit [Libm] in
theorem grid_of_units {v : F32} {s : ℝ} {m p : Nat} (hp : p ≤ 149) (hf : v.isFinite = true)
    (hs : s = 1 ∨ s = -1) (h : v.toReal = s * (((m * 2 ^ (149 - p) : Nat) : ℝ) / 2 ^ 149)) : Grid p v := by
  refine ⟨hf, ?_⟩
  have h3 : (2 : ℝ) ^ 149 = 2 ^ (149 - p) * 2 ^ p := by rw [← pow_add, Nat.sub_add_cancel hp]
  have h4 : ((m * 2 ^ (149 - p) : Nat) : ℝ) / 2 ^ 149 = m / 2 ^ p := by
    rw [h3]
    push_cast
    field_simp
  rw [h, h4]
  rcases hs with rfl | rfl
  · exact ⟨m, by push_cast; ring⟩
  · exact ⟨-m, by push_cast; ring⟩

omit [Libm] in
theorem grid_toInt {v : F32} {p : Nat} (hp : p ≤ 149) (h : Grid p v) :
    ∃ z : Int, v.toInt = z * 2 ^ (149 - p) := by
  obtain ⟨_, z, hz⟩ := h
  refine ⟨z, ?_⟩
  have h3 : (2 : ℝ) ^ 149 = 2 ^ (149 - p) * 2 ^ p := by rw [← pow_add, Nat.sub_add_cancel hp]
  unfold toReal at hz
  rw [div_eq_div_iff (by positivity) (by positivity), h3, ← mul_assoc] at hz
  have h2 : (v.toInt : ℝ) = z * 2 ^ (149 - p) := mul_right_cancel₀ (by positivity) hz
  exact_mod_cast h2

omit [Libm] in
theorem add_places {x y : F32} {p : Nat} (hp : p ≤ 149) (hx : Grid p x) (hy : Grid p y)
    (h : (add x y).isFinite = true) : Grid p (add x y) := by
  obtain ⟨a, ha⟩ := grid_toInt hp hx
  obtain ⟨c, hc⟩ := grid_toInt hp hy
  have e := add_finite_eq h
  rw [ha, hc, ← add_mul] at e
  by_cases h0 : (a + c) * 2 ^ (149 - p) = 0
  · rw [if_pos h0] at e
    exact ⟨h, 0, by rw [e]; simp⟩
  · rw [if_neg h0, show ((a + c) * 2 ^ (149 - p)).natAbs = (a + c).natAbs * 2 ^ (149 - p) * 1 by
      rw [Int.natAbs_mul, Int.natAbs_pow, Nat.mul_one]; rfl, rawCode_places (by decide)] at e
    refine grid_of_units hp h ?_ e
    split
    · exact .inr rfl
    · exact .inl rfl

omit [Libm] in
theorem mul_places {x y : F32} {p q : Nat} (hp : p + q ≤ 149) (hx : Grid p x) (hy : Grid q y)
    (h : (mul x y).isFinite = true) : Grid (p + q) (mul x y) := by
  obtain ⟨a, ha⟩ := grid_toInt (by omega) hx
  obtain ⟨c, hc⟩ := grid_toInt (by omega) hy
  have e := mul_finite_eq h
  have hu : ∀ v : F32, v.toInt.natAbs = units v.code := by
    intro v; unfold toInt; cases v.sign <;> simp
  have h2 : units x.code * units y.code = (a * c).natAbs * 2 ^ (149 - (p + q)) * 2 ^ 149 := by
    rw [← hu, ← hu, ha, hc, Int.natAbs_mul, Int.natAbs_mul, Int.natAbs_mul, Int.natAbs_pow,
      Int.natAbs_pow, show Int.natAbs 2 = 2 from rfl, mul_assoc _ _ (2 ^ 149), ← pow_add,
      mul_mul_mul_comm, ← pow_add]
    congr 2
    omega
  rw [h2, rawCode_places (by positivity)] at e
  refine grid_of_units hp h ?_ e
  split
  · exact .inr rfl
  · exact .inl rfl

omit [Libm] in
theorem noUnderflow_places {x y : F32} {p q : Nat} (hp : p + q ≤ 149) (hx : Grid p x) (hy : Grid q y) :
    NoUnderflow (x.toReal * y.toReal) := by
  obtain ⟨_, a, ha⟩ := hx
  obtain ⟨_, c, hc⟩ := hy
  have h3 : (2 : ℝ) ^ 149 = 2 ^ (149 - (p + q)) * (2 ^ p * 2 ^ q) := by
    rw [← pow_add, ← pow_add, Nat.sub_add_cancel hp]
  refine .inr ⟨a * c * 2 ^ (149 - (p + q)), ?_⟩
  rw [ha, hc, h3]
  push_cast
  field_simp

theorem dot_places {ι : Type} (L : List ι) (f g : ι → F32) {p q : Nat} (hp : p + q ≤ 149)
    (hf : ∀ m ∈ L, Grid p (f m)) (hg : ∀ m ∈ L, Grid q (g m))
    (h : (Spec.sum (L.map fun m => mul (f m) (g m))).isFinite = true) :
    Grid (p + q) (Spec.sum (L.map fun m => mul (f m) (g m))) := by
  induction L using List.reverseRecOn with
  | nil => exact ⟨h, 0, by
      rw [show Spec.sum (([] : List ι).map fun m => mul (f m) (g m)) = (F32Ops.zero : F32) from rfl,
        toReal_zero]
      simp⟩
  | append_singleton L a ih =>
    rw [List.map_append, List.map_singleton, sum_append_singleton] at h ⊢
    obtain ⟨p1, p2⟩ := finite_of_add h
    exact add_places hp (ih (fun m hm => hf m (List.mem_append_left _ hm))
      (fun m hm => hg m (List.mem_append_left _ hm)) p1) (mul_places hp (hf a (by simp))
      (hg a (by simp)) p2) h

theorem unit_places {ι : Type} (L : List ι) (f g : ι → F32) (β : F32) {p q : Nat} (hp : p + q ≤ 149)
    (hf : ∀ m ∈ L, Grid p (f m)) (hg : ∀ m ∈ L, Grid q (g m)) (hβ : β.isFinite = true)
    (hβ0 : β.toReal = 0) (hn : L.length < 2 ^ 22)
    (hmax : (L.map fun m => |(f m).toReal * (g m).toReal|).sum ≤ 2 ^ 125) :
    Grid (p + q) (Spec.relu (add (Spec.sum (L.map fun m => mul (f m) (g m))) β)) := by
  have h := affine_finite L f g β hn (fun m hm => ⟨(hf m hm).1, (hg m hm).1⟩) hβ
    (by rw [hβ0, abs_zero, add_zero]; exact hmax)
  exact (relu_grid (add_places hp (dot_places L f g hp hf hg (finite_of_add h).1)
    ⟨hβ, 0, by rw [hβ0]; simp⟩ h)).1

end F32

/-- the entries have `p` binary places -/
theorem fc_places {l : FullyConnectedLayer F32} (hl : l.Ok) {k p q : Nat} {s : Tensor F32}
    (hg : Gentle k (.fc l) s) (hw : ∀ o i, o < l.weights.shape.di.toNat → i < l.weights.shape.dj.toNat →
      Grid q (val l.weights o i 0)) (hp : p + q ≤ 149) (hss : s.shape = l.get_input_shape)
    (hs : ∀ a c d, s.shape.Inside a c d → Grid p (val s a c d)) {i j c : Nat}
    (hin : l.get_output_shape.Inside i j c) : Grid (p + q) (layerAt (.fc l) s i j c) := by
  have hi : i < l.weights.shape.di.toNat := by
    unfold FullyConnectedLayer.get_output_shape at hin
    rw [hl.rows] at hin
    exact hin.1
  obtain ⟨hn, hg⟩ := hg
  obtain ⟨⟨hb, hb0⟩, _, hmax⟩ := hg i hi
  have h1 : (1 : ℝ) ≤ 2 ^ k := one_le_pow₀ (by norm_num)
  have h0 : 0 ≤ ((List.range l.weights.shape.dj.toNat).map fun m =>
      |(val l.weights i m 0).toReal * (val s m 0 0).toReal|).sum :=
    List.sum_nonneg (by intro r hr; obtain ⟨m, _, rfl⟩ := List.mem_map.mp hr; exact abs_nonneg _)
  simp only [layerAt]
  rw [act_relu _ (summed_preact l s i), Nat.add_comm p q]
  exact unit_places (List.range l.weights.shape.dj.toNat) (fun m => val l.weights i m 0)
    (fun m => val s m 0 0) (val l.bias i 0 0) (by omega)
    (fun m hm => hw i m hi (List.mem_range.mp hm))
    (fun m hm => hs m 0 0 (by
      rw [hss]; exact ⟨List.mem_range.mp hm, Nat.zero_lt_one, Nat.zero_lt_one⟩)) hb hb0
    (by rw [List.length_range]; exact hn) (by nlinarith)

theorem conv_places {l : ConvolutionalLayer F32} (hl : l.Ok) {e p q : Nat} {s : Tensor F32}
    (hg : Gentle e (.conv l) s)
    (hw : ∀ kernel ∈ l.kernels, ∀ i j k, kernel.shape.Inside i j k → Grid q (val kernel i j k))
    (hp : p + q ≤ 149) (hss : s.shape = l.input_shape)
    (hs : ∀ a c d, s.shape.Inside a c d → Grid p (val s a c d)) {i j k : Nat}
    (hin : l.output_shape.Inside i j k) : Grid (p + q) (layerAt (.conv l) s i j k) := by
  have hkl : k < l.kernels.length := by rw [hl.count]; exact hin.2.2
  have hbl : k < l.biases.length := by rw [hl.biasCount]; exact hkl
  have hkm := List.getElem_mem hkl
  obtain ⟨_, hkd, hkt⟩ := hl.kernels _ hkm
  obtain ⟨d0, c0⟩ := hg
  obtain ⟨c1, c2, c3⟩ := c0 _ hkm
  obtain ⟨c4, hmax⟩ := c3 i j hin.1 hin.2.1
  obtain ⟨d1, d2⟩ := d0 _ (List.getElem_mem hbl)
  have h1 : (1 : ℝ) ≤ 2 ^ e := one_le_pow₀ (by norm_num)
  have h0 : 0 ≤ (l.kernels[k].shape.indices.map fun r =>
      |(val s (i * l.stride.toNat + r.1) (j * l.stride.toNat + r.2.1) r.2.2).toReal *
        (val l.kernels[k] r.1 r.2.1 r.2.2).toReal|).sum :=
    List.sum_nonneg (by intro r hr; obtain ⟨m, _, rfl⟩ := List.mem_map.mp hr; exact abs_nonneg _)
  have e1 : convPre l s i j k =
      F32.add (Spec.sum (l.kernels[k].shape.indices.map fun p =>
      F32.mul (val s (i * l.stride.toNat + p.1) (j * l.stride.toNat + p.2.1) p.2.2)
        (val l.kernels[k] p.1 p.2.1 p.2.2))) (val l.biases[k] 0 0 0) := by
    unfold convPre
    rw [List.getElem?_eq_getElem hkl, List.getElem?_eq_getElem hbl]
    rfl
  simp only [layerAt]
  rw [act_relu _ (summed_convPre l s i j k), e1]
  exact unit_places l.kernels[k].shape.indices
    (fun p => val s (i * l.stride.toNat + p.1) (j * l.stride.toNat + p.2.1) p.2.2)
    (fun p => val l.kernels[k] p.1 p.2.1 p.2.2) (val l.biases[k] 0 0 0) hp
    (fun r hr => by
      obtain ⟨m1, m2, m3⟩ := mem_indices.mp hr
      refine hs _ _ _ ?_
      rw [hss]
      exact ⟨tiles_lt hkt.1 hin.1 m1, tiles_lt hkt.2 hin.2.1 m2, hkd ▸ m3⟩)
    (fun r hr => hw _ hkm _ _ _ (mem_indices.mp hr)) d1 d2
    (by rw [indices_length]; exact c1) (by nlinarith)

/-- Of two runs of the same layers, the inputs of the second one being `2^k` times those of the first: all
states are. -/
theorem layers_places (b : Build) {ls : List (AnyLayer F32)} {M e M' e' : ℝ} (k : Nat)
    (hA : Accuracy ls M e M' e') : ∀ p, Places ls p → (∀ l ∈ ls, l.Ok) →
    ∀ t t' : Nat → Tensor F32, 0 ≤ M → 0 ≤ e → ∀ x : Nat → Nat → Nat → ℝ, Near (t' 0) x M e →
    (∀ a c d, (t 0).shape.Inside a c d → Grid p (val (t 0) a c d)) → ScaledBy k (t 0) (t' 0) →
    (∀ i l, ls[i]? = some l → (t i).WF ∧ (t i).shape = l.get_input_shape ∧
      applies b l (t i) (t (i + 1))) →
    (∀ i l, ls[i]? = some l → (t' i).WF ∧ (t' i).shape = l.get_input_shape ∧
      applies b l (t' i) (t' (i + 1))) →
    ScaledBy k (t ls.length) (t' ls.length) := by
  have entry : ∀ {l : AnyLayer F32} {s s' : Tensor F32}, applies b l s s' →
      ∀ i j k, s'.shape.Inside i j k → l.get_output_shape.Inside i j k ∧
        val s' i j k = layerAt l s i j k := by
    intro l s s' h i j k hin
    have hin' : l.get_output_shape.Inside i j k := by rw [← h.2.1]; exact hin
    have := h.2.2 i j k hin'
    rw [get_item_ok h.1 hin] at this
    exact ⟨hin', by injection this⟩
  have step : ∀ (l : AnyLayer F32) (ls : List (AnyLayer F32)) (p1 : Nat) (M1 e1 : ℝ),
      (∀ p, Places ls p → (∀ l ∈ ls, l.Ok) →
        ∀ t t' : Nat → Tensor F32, 0 ≤ M1 → 0 ≤ e1 → ∀ x : Nat → Nat → Nat → ℝ, Near (t' 0) x M1 e1 →
        (∀ a c d, (t 0).shape.Inside a c d → Grid p (val (t 0) a c d)) → ScaledBy k (t 0) (t' 0) →
        (∀ i l, ls[i]? = some l → (t i).WF ∧ (t i).shape = l.get_input_shape ∧
          applies b l (t i) (t (i + 1))) →
        (∀ i l, ls[i]? = some l → (t' i).WF ∧ (t' i).shape = l.get_input_shape ∧
          applies b l (t' i) (t' (i + 1))) →
        ScaledBy k (t ls.length) (t' ls.length)) →
      Places ls p1 → 0 ≤ M1 → 0 ≤ e1 → (∀ m ∈ l :: ls, m.Ok) →
      ∀ (t t' : Nat → Tensor F32) (x : Nat → Nat → Nat → ℝ), Gentle k l (t 0) → ScaledBy k (t 0) (t' 0) →
      (∀ i m, (l :: ls)[i]? = some m → (t i).WF ∧ (t i).shape = m.get_input_shape ∧
        applies b m (t i) (t (i + 1))) →
      (∀ i m, (l :: ls)[i]? = some m → (t' i).WF ∧ (t' i).shape = m.get_input_shape ∧
        applies b m (t' i) (t' (i + 1))) →
      (∀ i j k, l.get_output_shape.Inside i j k → (layerAt l (t' 0) i j k).isFinite = true ∧
        |(layerAt l (t' 0) i j k).toReal - exactLayer l x i j k| ≤ e1 ∧
        |exactLayer l x i j k| ≤ M1) →
      (∀ i j k, l.get_output_shape.Inside i j k → Grid p1 (layerAt l (t 0) i j k)) →
      ScaledBy k (t (l :: ls).length) (t' (l :: ls).length) := by
    intro l ls p1 M1 e1 ih hp h1 h2 hok t t' x hg hsc hstep hstep' hnear hgrid
    obtain ⟨_, hsh, ha⟩ := hstep 0 l rfl
    obtain ⟨_, _, ha'⟩ := hstep' 0 l rfl
    refine ih p1 hp (fun m hm => hok m (List.mem_cons_of_mem _ hm)) (fun i => t (i + 1))
      (fun i => t' (i + 1)) h1 h2 (exactLayer l x) ?_ ?_ ⟨ha'.2.1.trans ha.2.1.symm, ?_⟩
      (fun i m hi => hstep (i + 1) m hi) (fun i m hi => hstep' (i + 1) m hi)
    · intro i j k hin
      obtain ⟨f1, f2⟩ := entry ha' i j k hin
      rw [f2]
      exact hnear i j k f1
    · intro i j k hin
      obtain ⟨f1, f2⟩ := entry ha i j k hin
      rw [f2]
      exact hgrid i j k f1
    · intro i j c hin
      obtain ⟨f1, f2⟩ := entry ha i j c hin
      obtain ⟨_, f3⟩ := entry ha' i j c (by rw [ha'.2.1]; exact f1)
      rw [f2, f3]
      exact layer_scaled (hok l (List.mem_cons_self ..)) hg hsh hsc f1
  have hk : (0 : ℝ) < 2 ^ k := by positivity
  have hk' : |(2 : ℝ) ^ k| = 2 ^ k := abs_of_pos hk
  induction hA with
  | nil M e => exact fun p _ _ t t' _ _ x _ _ hsc _ _ => hsc
  | fc l ls A B M e M' e' hw hb hA0 hB0 hn hmax _ ih =>
    intro p hp hok t t' hM he x hx hgrid hsc hstep hstep'
    cases hp with
    | fc _ _ q _ hq hz hpq hp =>
    obtain ⟨_, g2, _⟩ := hstep 0 _ rfl
    obtain ⟨_, g2', _⟩ := hstep' 0 _ rfl
    have h0 : 0 ≤ A * (M + e) + B := by positivity
    have hl := hok _ (List.mem_cons_self ..)
    have hin : ∀ m, m < l.weights.shape.dj.toNat → (t 0).shape.Inside m 0 0 := fun m hm => by
      rw [g2]; exact ⟨hm, Nat.zero_lt_one, Nat.zero_lt_one⟩
    have hg : Gentle k (.fc l) (t 0) := by
      refine ⟨hn, fun o ho => ⟨⟨(hb o ho).1, hz o ho⟩, fun i hi => ⟨hw o i ho hi, ?_⟩, ?_⟩⟩
      · exact noUnderflow_places (p := q) (q := p) (by omega) (hq o i ho hi) (hgrid i 0 0 (hin i hi))
      · rw [← List.sum_map_mul_left]
        have hM' : 0 ≤ M + e := by positivity
        refine le_trans (sum_map_le _ _ (fun i => |(val l.weights o i 0).toReal| * (M + e)) ?_) ?_
        · intro i hi
          have hi' := hin i (List.mem_range.mp hi)
          have w := (near_within hx (i := i) (j := 0) (k := 0) (by rw [hsc.1]; exact hi')).2
          rw [(hsc.2 i 0 0 hi').2.2, abs_mul, hk'] at w
          rw [abs_mul, mul_left_comm]
          exact mul_le_mul_of_nonneg_left w (abs_nonneg _)
        · rw [sum_map_mul]
          have := mul_le_mul_of_nonneg_right (hb o ho).2.1 hM'
          linarith
    exact step _ ls (p + q) _ _ ih hp (by positivity) (by positivity) hok t t' x hg hsc hstep hstep'
      (fun i j k hin => fc_near hl hM he hw hb hn hmax g2' hx hin)
      (fun i j k hin => fc_places hl hg hq hpq g2 hgrid hin)
  | conv l ls n A B M e M' e' hkr hb hA0 hB0 hn hmax _ ih =>
    intro p hp hok t t' hM he x hx hgrid hsc hstep hstep'
    cases hp with
    | conv _ _ q _ hq hz hpq hp =>
    obtain ⟨_, g2, _⟩ := hstep 0 _ rfl
    obtain ⟨_, g2', _⟩ := hstep' 0 _ rfl
    have h0 : 0 ≤ A * (M + e) + B := by positivity
    have hl : l.Ok := hok _ (List.mem_cons_self ..)
    have hg : Gentle k (.conv l) (t 0) := by
      refine ⟨fun bias hm => ⟨(hb bias hm).1, hz bias hm⟩, fun kernel hm => ?_⟩
      obtain ⟨c1, c2, c3⟩ := hkr _ hm
      obtain ⟨_, hkd, hkt⟩ := hl.kernels _ hm
      refine ⟨by omega, c2, fun i j hi hj => ?_⟩
      have hin : ∀ a c d, kernel.shape.Inside a c d →
          (t 0).shape.Inside (i * l.stride.toNat + a) (j * l.stride.toNat + c) d := by
        intro a c d ⟨m1, m2, m3⟩
        rw [g2]
        exact ⟨tiles_lt hkt.1 hi m1, tiles_lt hkt.2 hj m2, hkd ▸ m3⟩
      refine ⟨fun a c d h => noUnderflow_places hpq (hgrid _ _ _ (hin a c d h)) (hq _ hm _ _ _ h), ?_⟩
      rw [← List.sum_map_mul_left]
      have hM' : 0 ≤ M + e := by positivity
      refine le_trans (sum_map_le _ _ (fun r => |(val kernel r.1 r.2.1 r.2.2).toReal| * (M + e)) ?_) ?_
      · intro r hr
        have hi' := hin _ _ _ (mem_indices.mp hr)
        have w := (near_within hx (i := i * l.stride.toNat + r.1) (j := j * l.stride.toNat + r.2.1)
          (k := r.2.2) (by rw [hsc.1]; exact hi')).2
        rw [(hsc.2 _ _ _ hi').2.2, abs_mul, hk'] at w
        rw [abs_mul, ← mul_assoc, mul_comm]
        exact mul_le_mul_of_nonneg_left w (abs_nonneg _)
      · rw [sum_map_mul]
        have := mul_le_mul_of_nonneg_right c3 hM'
        linarith
    exact step _ ls (p + q) _ _ ih hp (by positivity) (by positivity) hok t t' x hg hsc hstep hstep'
      (fun i j k hin => conv_near hl hM he hkr hb hn hmax g2' hx hin)
      (fun i j k hin => conv_places hl hg hq hpq g2 hgrid hin)
  | mp l ls M e M' e' h1 h2 _ ih =>
    intro p hp hok t t' hM he x hx hgrid hsc hstep hstep'
    cases hp with
    | mp _ _ _ hp =>
    obtain ⟨_, g2, _⟩ := hstep 0 _ rfl
    obtain ⟨_, g2', _⟩ := hstep' 0 _ rfl
    have hl := hok _ (List.mem_cons_self ..)
    refine step _ ls p _ _ ih hp hM he hok t t' x ⟨h1, h2⟩ hsc hstep hstep'
      (fun i j k hin => mp_near hl h1 h2 g2' hx hin) fun i j c hin => ?_
    refine (mp_grid hl (M := M + e) h1 h2 g2 (x := fun i j k => (val (t 0) i j k).toReal) ?_ hin).1
    intro a c d h
    refine ⟨hgrid a c d h, rfl, ?_⟩
    have w := (near_within hx (i := a) (j := c) (k := d) (by rw [hsc.1]; exact h)).2
    rw [(hsc.2 _ _ _ h).2.2, abs_mul, hk'] at w
    have h1 : (1 : ℝ) ≤ 2 ^ k := one_le_pow₀ (by norm_num)
    have := abs_nonneg (val (t 0) a c d).toReal
    nlinarith
  | sm l ls M e M' e' h1 hn _ ih =>
    intro p hp
    cases hp

end Rusty
