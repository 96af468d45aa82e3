import Verif.Lemmas.IEEENetwork
import Verif.Spec.Grid

/-! # Helper lemmas: `f32` operations whose results need no rounding -/

namespace Rusty

open F32Ops Spec F32

namespace F32

theorem units_exists {m k : Nat} (hm : m ≤ 2 ^ 24) (hk : k ≤ 149) :
    ∃ c, c < infCode ∧ units c = m * 2 ^ k := by
  obtain ⟨c, hc⟩ : ∃ c, units c = m * 2 ^ k := by
    clear hk
    induction k generalizing m with
    | zero => exact ⟨0 * 2 ^ 23 + m, units_code hm (.inl rfl)⟩
    | succ k ih =>
      by_cases h : 2 ^ 23 ≤ m
      · exact ⟨(k + 1) * 2 ^ 23 + m, units_code hm (.inr h)⟩
      · obtain ⟨c, hc⟩ := ih (m := 2 * m) (by omega)
        exact ⟨c, by rw [hc, pow_succ]; ring⟩
  refine ⟨c, ?_, hc⟩
  have h1 : units c < units (254 * 2 ^ 23) := by
    rw [hc, units_pow 253]
    generalize hN : 23 + 253 = N
    calc m * 2 ^ k ≤ 2 ^ 24 * 2 ^ 149 := Nat.mul_le_mul hm (Nat.pow_le_pow_right (by decide) hk)
      _ = 2 ^ 173 := by rw [← pow_add]
      _ < 2 ^ N := Nat.pow_lt_pow_right (by decide) (by omega)
  have h2 := units_lt.mp h1
  unfold infCode
  omega

/-- a magnitude of 24 digits is not rounded -/
theorem roundCode_exact {m k d : Nat} (hm : m ≤ 2 ^ 24) (hk : k ≤ 149) (hd : 0 < d) :
    roundCode (m * 2 ^ k * d) d < infCode ∧ units (roundCode (m * 2 ^ k * d) d) = m * 2 ^ k := by
  obtain ⟨c, h1, h2⟩ := units_exists hm hk
  rw [← h2, roundCode_units hd h1.le]
  exact ⟨h1, rfl⟩

/-- the sum of two floats that has at most 24 digits is exact -/
theorem add_exact {x y : F32} (fx : x.isFinite = true) (fy : y.isFinite = true) {z : Int} {p : Nat}
    (hp : p ≤ 149) (hz : z.natAbs ≤ 2 ^ 24) (h : x.toReal + y.toReal = z / 2 ^ p) :
    (add x y).isFinite = true ∧ (add x y).toReal = x.toReal + y.toReal := by
  have hsum : x.toInt + y.toInt = z * 2 ^ (149 - p) := by
    have h1 : ((x.toInt + y.toInt : Int) : ℝ) / 2 ^ 149 = z / 2 ^ p := by
      rw [← h]; unfold toReal; push_cast; ring
    rw [div_eq_div_iff (by positivity) (by positivity)] at h1
    have h2 : ((x.toInt + y.toInt : Int) : ℝ) = z * 2 ^ (149 - p) := by
      have h3 : (2 : ℝ) ^ 149 = 2 ^ (149 - p) * 2 ^ p := by rw [← pow_add, Nat.sub_add_cancel hp]
      rw [h3, ← mul_assoc] at h1
      exact mul_right_cancel₀ (by positivity) h1
    exact_mod_cast h2
  have hreal : x.toReal + y.toReal = ((x.toInt + y.toInt : Int) : ℝ) / 2 ^ 149 := by
    unfold toReal; push_cast; ring
  rw [hreal]
  unfold add
  rw [finite_nan fx, finite_nan fy, finite_inf fx, finite_inf fy]
  simp only [Bool.or_self, Bool.false_eq_true, if_false]
  split
  · next h0 =>
    rw [h0, finite_iff, mk'_code (by decide), toReal_mk' (by decide), units_zero]
    exact ⟨by decide, by simp⟩
  · next h0 =>
    have ha : (x.toInt + y.toInt).natAbs = z.natAbs * 2 ^ (149 - p) * 1 := by
      rw [hsum, Int.natAbs_mul, Int.natAbs_pow, Nat.mul_one]; rfl
    obtain ⟨g1, g2⟩ := roundCode_exact (d := 1) hz (show 149 - p ≤ 149 by omega) (by decide)
    rw [← ha] at g1 g2
    rw [finite_iff, mk'_code (roundCode_lt _ _), toReal_mk' (roundCode_lt _ _), g2]
    refine ⟨g1, ?_⟩
    rw [Nat.mul_one] at ha
    rw [← ha, Nat.cast_natAbs]
    by_cases hn : x.toInt + y.toInt < 0
    · rw [decide_eq_true hn, abs_of_neg hn]; push_cast; simp; ring
    · rw [decide_eq_false hn, abs_of_nonneg (by omega)]; simp

/-- the product of two floats that has at most 24 digits is exact -/
theorem mul_exact {x y : F32} (fx : x.isFinite = true) (fy : y.isFinite = true) {z : Int} {p : Nat}
    (hp : p ≤ 149) (hz : z.natAbs ≤ 2 ^ 24) (h : x.toReal * y.toReal = z / 2 ^ p) :
    (mul x y).isFinite = true ∧ (mul x y).toReal = x.toReal * y.toReal := by
  have habs : |x.toReal * y.toReal| = (units x.code * units y.code : Nat) / (2 ^ 149 * 2 ^ 149) := by
    rw [abs_mul, toReal_eq x, toReal_eq y]
    have hs : ∀ (s : Bool) (r : ℝ), 0 ≤ r → |(if s then -1 else 1) * r| = r := by
      intro s r hr
      cases s <;> simp [abs_of_nonneg hr]
    rw [hs _ _ (by positivity), hs _ _ (by positivity)]
    push_cast; ring
  have hu : units x.code * units y.code = z.natAbs * 2 ^ (149 - p) * 2 ^ 149 := by
    rw [h, abs_div, abs_of_pos (show (0 : ℝ) < 2 ^ p by positivity),
      div_eq_div_iff (by positivity) (by positivity)] at habs
    have h3 : (2 : ℝ) ^ 149 = 2 ^ (149 - p) * 2 ^ p := by rw [← pow_add, Nat.sub_add_cancel hp]
    have h4 : |(z : ℝ)| * 2 ^ (149 - p) * 2 ^ 149 = (units x.code * units y.code : Nat) := by
      generalize (2 : ℝ) ^ 149 = P at *
      have h6 : (2 : ℝ) ^ p ≠ 0 := by positivity
      apply mul_right_cancel₀ h6
      rw [← habs]
      calc |(z : ℝ)| * 2 ^ (149 - p) * P * 2 ^ p = |(z : ℝ)| * (2 ^ (149 - p) * 2 ^ p * P) := by ring
        _ = |(z : ℝ)| * (P * P) := by rw [← h3]
    have h5 : (z.natAbs : ℝ) = |(z : ℝ)| := by rw [Nat.cast_natAbs]; push_cast; rfl
    rw [← h5] at h4
    exact_mod_cast h4.symm
  obtain ⟨g1, g2⟩ := roundCode_exact (d := 2 ^ 149) hz (show 149 - p ≤ 149 by omega) (by positivity)
  rw [← hu] at g1 g2
  have e : mul x y = mk' (x.sign != y.sign) (roundCode (units x.code * units y.code) (2 ^ 149)) := by
    unfold mul
    rw [finite_nan fx, finite_nan fy, finite_inf fx, finite_inf fy]
    simp only [Bool.or_self, Bool.false_eq_true, if_false]
  rw [e, finite_iff, mk'_code (roundCode_lt _ _), toReal_mk' (roundCode_lt _ _), g2]
  refine ⟨g1, ?_⟩
  rw [toReal_eq x, toReal_eq y]
  have hu' : (units x.code : ℝ) * units y.code = ((z.natAbs * 2 ^ (149 - p) : Nat) : ℝ) * 2 ^ 149 := by
    exact_mod_cast hu
  generalize ((z.natAbs * 2 ^ (149 - p) : Nat) : ℝ) = W at *
  have : (units x.code : ℝ) / 2 ^ 149 * (units y.code / 2 ^ 149) = W / 2 ^ 149 := by
    rw [div_mul_div_comm, hu', mul_div_mul_right _ _ (by positivity)]
  rw [mul_mul_mul_comm, this]
  cases x.sign <;> cases y.sign <;> simp

theorem grid_natAbs {z : Int} {p : Nat} (h : |(z : ℝ) / 2 ^ p| ≤ 2 ^ 24 / 2 ^ p) :
    z.natAbs ≤ 2 ^ 24 := by
  rw [abs_div, abs_of_pos (show (0 : ℝ) < 2 ^ p by positivity),
    div_le_div_iff_of_pos_right (by positivity)] at h
  have h5 : (z.natAbs : ℝ) = |(z : ℝ)| := by rw [Nat.cast_natAbs]; push_cast; rfl
  rw [← h5] at h
  exact_mod_cast h

theorem add_grid {x y : F32} {p : Nat} (hp : p ≤ 149) (hx : Grid p x) (hy : Grid p y)
    (h : |x.toReal + y.toReal| ≤ 2 ^ 24 / 2 ^ p) :
    Grid p (add x y) ∧ (add x y).toReal = x.toReal + y.toReal := by
  obtain ⟨fx, a, ha⟩ := hx
  obtain ⟨fy, c, hc⟩ := hy
  have hz : x.toReal + y.toReal = ((a + c : Int) : ℝ) / 2 ^ p := by
    rw [ha, hc]; push_cast; ring
  obtain ⟨g1, g2⟩ := add_exact fx fy hp (grid_natAbs (by rw [← hz]; exact h)) hz
  exact ⟨⟨g1, a + c, g2.trans hz⟩, g2⟩

theorem mul_grid {x y : F32} {p q : Nat} (hp : p + q ≤ 149) (hx : Grid p x) (hy : Grid q y)
    (h : |x.toReal * y.toReal| ≤ 2 ^ 24 / 2 ^ (p + q)) :
    Grid (p + q) (mul x y) ∧ (mul x y).toReal = x.toReal * y.toReal := by
  obtain ⟨fx, a, ha⟩ := hx
  obtain ⟨fy, c, hc⟩ := hy
  have hz : x.toReal * y.toReal = ((a * c : Int) : ℝ) / 2 ^ (p + q) := by
    rw [ha, hc, div_mul_div_comm, pow_add]; push_cast; rfl
  obtain ⟨g1, g2⟩ := mul_exact fx fy hp (grid_natAbs (by rw [← hz]; exact h)) hz
  exact ⟨⟨g1, a * c, g2.trans hz⟩, g2⟩

variable [Libm]

/-- a sum of products of fixed-point numbers -/
theorem dot_grid {ι : Type} (L : List ι) (f g : ι → F32) {p q : Nat} (hp : p + q ≤ 149)
    (hf : ∀ m ∈ L, Grid p (f m)) (hg : ∀ m ∈ L, Grid q (g m))
    (hA : (L.map fun m => |(f m).toReal * (g m).toReal|).sum ≤ 2 ^ 24 / 2 ^ (p + q)) :
    Grid (p + q) (Spec.sum (L.map fun m => mul (f m) (g m))) ∧
    (Spec.sum (L.map fun m => mul (f m) (g m))).toReal =
      (L.map fun m => (f m).toReal * (g m).toReal).sum := by
  induction L using List.reverseRecOn with
  | nil =>
    have h0 : Spec.sum (([] : List ι).map fun m => mul (f m) (g m)) = (F32Ops.zero : F32) := rfl
    rw [h0, toReal_zero]
    exact ⟨⟨by change (mk' false 0).isFinite = true; decide, 0, by rw [toReal_zero]; simp⟩, by simp⟩
  | append_singleton L a ih =>
    rw [List.map_append, List.sum_append, List.map_singleton, List.sum_singleton] at hA
    have hn : 0 ≤ (L.map fun m => |(f m).toReal * (g m).toReal|).sum :=
      List.sum_nonneg (by intro r hr; obtain ⟨m, _, rfl⟩ := List.mem_map.mp hr; exact abs_nonneg _)
    have ha := abs_nonneg ((f a).toReal * (g a).toReal)
    obtain ⟨g1, g2⟩ := ih (fun m hm => hf m (List.mem_append_left _ hm))
      (fun m hm => hg m (List.mem_append_left _ hm)) (by linarith)
    obtain ⟨k1, k2⟩ := mul_grid hp (hf a (by simp)) (hg a (by simp)) (by linarith)
    rw [List.map_append, List.map_append, List.map_singleton, List.map_singleton,
      sum_append_singleton, List.sum_append, List.sum_singleton]
    have hs := abs_sum_le L fun m => (f m).toReal * (g m).toReal
    obtain ⟨r1, r2⟩ := add_grid hp g1 k1 (by
      rw [g2, k2]
      exact (abs_add_le _ _).trans (by linarith))
    exact ⟨r1, by rw [r2, g2, k2]⟩

theorem affine_grid {ι : Type} (L : List ι) (f g : ι → F32) (β : F32) {p q : Nat} (hp : p + q ≤ 149)
    (hf : ∀ m ∈ L, Grid p (f m)) (hg : ∀ m ∈ L, Grid q (g m)) (hβ : Grid (p + q) β)
    (hA : (L.map fun m => |(f m).toReal * (g m).toReal|).sum + |β.toReal| ≤ 2 ^ 24 / 2 ^ (p + q)) :
    Grid (p + q) (add (Spec.sum (L.map fun m => mul (f m) (g m))) β) ∧
    (add (Spec.sum (L.map fun m => mul (f m) (g m))) β).toReal =
      (L.map fun m => (f m).toReal * (g m).toReal).sum + β.toReal := by
  have h0 := abs_nonneg β.toReal
  obtain ⟨g1, g2⟩ := dot_grid L f g hp hf hg (by linarith)
  have hs := abs_sum_le L fun m => (f m).toReal * (g m).toReal
  obtain ⟨r1, r2⟩ := add_grid hp g1 hβ (by
    rw [g2]
    exact (abs_add_le _ _).trans (by linarith))
  exact ⟨r1, by rw [r2, g2]⟩

theorem relu_grid {p : Nat} {x : F32} (h : Grid p x) :
    Grid p (Spec.relu x) ∧ (Spec.relu x).toReal = max 0 x.toReal := by
  obtain ⟨_, _, h3⟩ := relu_spec x
  obtain ⟨f, z, hz⟩ := h
  obtain ⟨h4, h5⟩ := h3 f
  refine ⟨⟨h4, ?_⟩, h5⟩
  rw [h5, hz]
  rcases le_total 0 ((z : ℝ) / 2 ^ p) with hc | hc
  · exact ⟨z, max_eq_right hc⟩
  · exact ⟨0, by rw [max_eq_left hc]; simp⟩

/-- the affine map and the ReLU of a layer: `W` bounds the weights -/
theorem unit_grid {ι : Type} (L : List ι) (f g : ι → F32) (β : F32) (w : ι → ℝ) {p q : Nat}
    {A B M : ℝ} (hp : p + q ≤ 149) (hf : ∀ m ∈ L, Grid p (f m)) (hg : ∀ m ∈ L, Grid q (g m))
    (hβ : Grid (p + q) β) (hw : ∀ m ∈ L, |(f m).toReal * (g m).toReal| ≤ w m * M)
    (hA : (L.map w).sum ≤ A) (hB : |β.toReal| ≤ B) (hM : 0 ≤ M)
    (hmax : A * M + B ≤ 2 ^ 24 / 2 ^ (p + q)) :
    Grid (p + q) (Spec.relu (add (Spec.sum (L.map fun m => mul (f m) (g m))) β)) ∧
    (Spec.relu (add (Spec.sum (L.map fun m => mul (f m) (g m))) β)).toReal =
      max 0 ((L.map fun m => (f m).toReal * (g m).toReal).sum + β.toReal) ∧
    |max 0 ((L.map fun m => (f m).toReal * (g m).toReal).sum + β.toReal)| ≤ A * M + B := by
  have h1 : (L.map fun m => |(f m).toReal * (g m).toReal|).sum ≤ A * M := by
    refine (sum_map_le L _ _ hw).trans ?_
    rw [sum_map_mul]
    exact mul_le_mul_of_nonneg_right hA hM
  obtain ⟨r1, r2⟩ := affine_grid L f g β hp hf hg hβ (by linarith)
  obtain ⟨s1, s2⟩ := relu_grid r1
  refine ⟨s1, by rw [s2, r2], ?_⟩
  have hs := abs_sum_le L fun m => (f m).toReal * (g m).toReal
  have h2 := abs_add_le (L.map fun m => (f m).toReal * (g m).toReal).sum β.toReal
  rw [abs_of_nonneg (le_max_left _ _)]
  have h3 : 0 ≤ A * M + B := le_trans (abs_nonneg _) (h2.trans (by linarith))
  exact max_le h3 ((le_abs_self _).trans (h2.trans (by linarith)))

end F32

variable [Libm]

theorem fc_grid {l : FullyConnectedLayer F32} (hl : l.Ok) {p q : Nat} {A B M : ℝ} (hM : 0 ≤ M)
    (hw : ∀ o i, o < l.weights.shape.di.toNat → i < l.weights.shape.dj.toNat →
      Grid q (val l.weights o i 0))
    (hb : ∀ o, o < l.weights.shape.di.toNat → Grid (p + q) (val l.bias o 0 0) ∧
      ((List.range l.weights.shape.dj.toNat).map fun i => |(val l.weights o i 0).toReal|).sum ≤ A ∧
      |(val l.bias o 0 0).toReal| ≤ B)
    (hp : p + q ≤ 149) (hmax : A * M + B ≤ 2 ^ 24 / 2 ^ (p + q)) {s : Tensor F32}
    (hss : s.shape = l.get_input_shape) {x : Nat → Nat → Nat → ℝ} (hx : OnGrid s x p M) {i j k : Nat}
    (hin : l.get_output_shape.Inside i j k) :
    Grid (p + q) (layerAt (.fc l) s i j k) ∧
    (layerAt (.fc l) s i j k).toReal = exactLayer (.fc l) x i j k ∧
    |exactLayer (.fc l) x i j k| ≤ A * M + B := by
  have hi : i < l.weights.shape.di.toNat := by
    unfold FullyConnectedLayer.get_output_shape at hin
    rw [hl.rows] at hin
    exact hin.1
  have hx' : ∀ m ∈ List.range l.weights.shape.dj.toNat, Grid p (val s m 0 0) ∧
      (val s m 0 0).toReal = x m 0 0 ∧ |x m 0 0| ≤ M := by
    intro m hm
    exact hx m 0 0 (by
      rw [hss]
      exact ⟨List.mem_range.mp hm, Nat.zero_lt_one, Nat.zero_lt_one⟩)
  have he : exactLayer (.fc l) x i j k = max 0 (((List.range l.weights.shape.dj.toNat).map fun m =>
      (val l.weights i m 0).toReal * (val s m 0 0).toReal).sum + (val l.bias i 0 0).toReal) := by
    simp only [exactLayer]
    congr 3
    exact List.map_congr_left fun m hm => by rw [(hx' m hm).2.1]
  rw [he]
  simp only [layerAt]
  rw [act_relu _ (summed_preact l s i)]
  rw [Nat.add_comm p q] at hp hmax hb ⊢
  exact unit_grid (List.range l.weights.shape.dj.toNat) (fun m => val l.weights i m 0)
    (fun m => val s m 0 0) (val l.bias i 0 0) (fun m => |(val l.weights i m 0).toReal|) hp
    (fun m hm => hw i m hi (List.mem_range.mp hm)) (fun m hm => (hx' m hm).1) (hb i hi).1
    (fun m hm => by
      rw [abs_mul, (hx' m hm).2.1]
      exact mul_le_mul_of_nonneg_left (hx' m hm).2.2 (abs_nonneg _))
    (hb i hi).2.1 (hb i hi).2.2 hM hmax

theorem conv_grid {l : ConvolutionalLayer F32} (hl : l.Ok) {p q : Nat} {A B M : ℝ} (hM : 0 ≤ M)
    (hk : ∀ kernel ∈ l.kernels,
      (∀ i j k, kernel.shape.Inside i j k → Grid q (val kernel i j k)) ∧
      (kernel.shape.indices.map fun r => |(val kernel r.1 r.2.1 r.2.2).toReal|).sum ≤ A)
    (hb : ∀ bias ∈ l.biases, Grid (p + q) (val bias 0 0 0) ∧ |(val bias 0 0 0).toReal| ≤ B)
    (hp : p + q ≤ 149) (hmax : A * M + B ≤ 2 ^ 24 / 2 ^ (p + q)) {s : Tensor F32}
    (hss : s.shape = l.input_shape) {x : Nat → Nat → Nat → ℝ} (hx : OnGrid s x p M) {i j k : Nat}
    (hin : l.output_shape.Inside i j k) :
    Grid (p + q) (layerAt (.conv l) s i j k) ∧
    (layerAt (.conv l) s i j k).toReal = exactLayer (.conv l) x i j k ∧
    |exactLayer (.conv l) x i j k| ≤ A * M + B := by
  have hkl : k < l.kernels.length := by rw [hl.count]; exact hin.2.2
  have hbl : k < l.biases.length := by rw [hl.biasCount]; exact hkl
  have hkm := List.getElem_mem hkl
  obtain ⟨_, hkd, hkt⟩ := hl.kernels _ hkm
  obtain ⟨c2, c3⟩ := hk _ hkm
  obtain ⟨d1, d2⟩ := hb _ (List.getElem_mem hbl)
  have hx' : ∀ r ∈ l.kernels[k].shape.indices,
      Grid p (val s (i * l.stride.toNat + r.1) (j * l.stride.toNat + r.2.1) r.2.2) ∧
      (val s (i * l.stride.toNat + r.1) (j * l.stride.toNat + r.2.1) r.2.2).toReal =
        x (i * l.stride.toNat + r.1) (j * l.stride.toNat + r.2.1) r.2.2 ∧
      |x (i * l.stride.toNat + r.1) (j * l.stride.toNat + r.2.1) r.2.2| ≤ M := by
    intro r hr
    obtain ⟨m1, m2, m3⟩ := mem_indices.mp hr
    refine hx _ _ _ ?_
    rw [hss]
    exact ⟨tiles_lt hkt.1 hin.1 m1, tiles_lt hkt.2 hin.2.1 m2, hkd ▸ m3⟩
  have e1 : convPre l s i j k = F32.add (Spec.sum (l.kernels[k].shape.indices.map fun r =>
      F32.mul (val s (i * l.stride.toNat + r.1) (j * l.stride.toNat + r.2.1) r.2.2)
        (val l.kernels[k] r.1 r.2.1 r.2.2))) (val l.biases[k] 0 0 0) := by
    unfold convPre
    rw [List.getElem?_eq_getElem hkl, List.getElem?_eq_getElem hbl]
    rfl
  have e2 : exactLayer (.conv l) x i j k = max 0 ((l.kernels[k].shape.indices.map fun r =>
        (val s (i * l.stride.toNat + r.1) (j * l.stride.toNat + r.2.1) r.2.2).toReal *
          (val l.kernels[k] r.1 r.2.1 r.2.2).toReal).sum + (val l.biases[k] 0 0 0).toReal) := by
    simp only [exactLayer]
    rw [List.getElem?_eq_getElem hkl, List.getElem?_eq_getElem hbl]
    simp only
    congr 3
    exact List.map_congr_left fun r hr => by rw [(hx' r hr).2.1]
  rw [e2]
  simp only [layerAt]
  rw [act_relu _ (summed_convPre l s i j k), e1]
  exact unit_grid l.kernels[k].shape.indices
    (fun r => val s (i * l.stride.toNat + r.1) (j * l.stride.toNat + r.2.1) r.2.2)
    (fun r => val l.kernels[k] r.1 r.2.1 r.2.2) (val l.biases[k] 0 0 0)
    (fun r => |(val l.kernels[k] r.1 r.2.1 r.2.2).toReal|) hp
    (fun r hr => (hx' r hr).1) (fun r hr => c2 _ _ _ (mem_indices.mp hr)) d1
    (fun r hr => by
      rw [abs_mul, (hx' r hr).2.1, mul_comm]
      exact mul_le_mul_of_nonneg_left (hx' r hr).2.2 (abs_nonneg _))
    c3 d2 hM hmax

theorem mp_grid {l : MaxPoolLayer} (hl : l.Ok) {p : Nat} {M : ℝ} (h1 : l.mask_shape.di ≠ 0)
    (h2 : l.mask_shape.dj ≠ 0) {s : Tensor F32} (hss : s.shape = l.input_shape)
    {x : Nat → Nat → Nat → ℝ} (hx : OnGrid s x p M) {i j k : Nat}
    (hin : l.output_shape.Inside i j k) :
    Grid p (layerAt (.mp l) s i j k) ∧
    (layerAt (.mp l) s i j k).toReal = exactLayer (.mp l) x i j k ∧
    |exactLayer (.mp l) x i j k| ≤ M := by
  obtain ⟨n1, n2, n3⟩ := mp_near hl (e := 0) h1 h2 hss (x := x) (M := M) (fun i j k h => by
    obtain ⟨g1, g2, g3⟩ := hx i j k h
    exact ⟨g1.1, by rw [g2]; simp, g3⟩) hin
  refine ⟨?_, ?_, n3⟩
  · have p1 : 0 < l.mask_shape.di.toNat := by
      have : l.mask_shape.di.toNat ≠ 0 := fun h => h1 (UInt32.toNat_inj.mp h)
      omega
    have p2 : 0 < l.mask_shape.dj.toNat := by
      have : l.mask_shape.dj.toNat ≠ 0 := fun h => h2 (UInt32.toNat_inj.mp h)
      omega
    have hmem : ∀ v ∈ window s l.mask_shape l.stride.toNat i j k, Grid p v := by
      intro v hv
      obtain ⟨⟨ii, jj⟩, hr, rfl⟩ := List.mem_map.mp hv
      obtain ⟨m1, m2⟩ := mem_idx2.mp hr
      refine (hx _ _ _ ?_).1
      rw [hss]
      exact ⟨tiles_lt hl.tiles.1 hin.1 m1, tiles_lt hl.tiles.2 hin.2.1 m2, hl.depth ▸ hin.2.2⟩
    have hne : window s l.mask_shape l.stride.toNat i j k ≠ [] :=
      List.ne_nil_of_mem (List.mem_map.mpr ⟨(0, 0), mem_idx2.mpr ⟨p1, p2⟩, rfl⟩)
    exact hmem _ (maxOf_finite hne fun v hv => (hmem v hv).1).1
  · have := abs_le.mp n2
    linarith

/-- The states that the layers write one after the other are the exact values. -/
theorem layers_grid (b : Build) {ls : List (AnyLayer F32)} {p p' : Nat} {M M' : ℝ}
    (hA : Exact ls p M p' M') : (∀ l ∈ ls, l.Ok) → ∀ t : Nat → Tensor F32, 0 ≤ M →
    ∀ x : Nat → Nat → Nat → ℝ, OnGrid (t 0) x p M →
    (∀ i l, ls[i]? = some l → (t i).WF ∧ (t i).shape = l.get_input_shape ∧
      applies b l (t i) (t (i + 1))) →
    OnGrid (t ls.length) (exactNet ls x) p' M' := by
  have entry : ∀ {l : AnyLayer F32} {s s' : Tensor F32}, applies b l s s' →
      ∀ i j k, s'.shape.Inside i j k → l.get_output_shape.Inside i j k ∧
        val s' i j k = layerAt l s i j k := by
    intro l s s' h i j k hin
    have hin' : l.get_output_shape.Inside i j k := by rw [← h.2.1]; exact hin
    have := h.2.2 i j k hin'
    rw [get_item_ok h.1 hin] at this
    exact ⟨hin', by injection this⟩
  have step : ∀ (l : AnyLayer F32) (ls : List (AnyLayer F32)) (p1 : Nat) (M1 : ℝ) (p' : Nat) (M' : ℝ),
      ((∀ l ∈ ls, l.Ok) → ∀ t : Nat → Tensor F32, 0 ≤ M1 →
        ∀ x : Nat → Nat → Nat → ℝ, OnGrid (t 0) x p1 M1 →
        (∀ i l, ls[i]? = some l → (t i).WF ∧ (t i).shape = l.get_input_shape ∧
          applies b l (t i) (t (i + 1))) → OnGrid (t ls.length) (exactNet ls x) p' M') →
      0 ≤ M1 → (∀ m ∈ l :: ls, m.Ok) → ∀ (t : Nat → Tensor F32) (x : Nat → Nat → Nat → ℝ),
      (∀ i m, (l :: ls)[i]? = some m → (t i).WF ∧ (t i).shape = m.get_input_shape ∧
        applies b m (t i) (t (i + 1))) →
      (∀ i j k, l.get_output_shape.Inside i j k → Grid p1 (layerAt l (t 0) i j k) ∧
        (layerAt l (t 0) i j k).toReal = exactLayer l x i j k ∧ |exactLayer l x i j k| ≤ M1) →
      OnGrid (t (l :: ls).length) (exactNet (l :: ls) x) p' M' := by
    intro l ls p1 M1 p' M' ih h1 hok t x hstep hnear
    obtain ⟨_, _, ha⟩ := hstep 0 l rfl
    refine ih (fun m hm => hok m (List.mem_cons_of_mem _ hm)) (fun i => t (i + 1)) h1
      (exactLayer l x) ?_ (fun i m hi => hstep (i + 1) m hi)
    intro i j k hin
    obtain ⟨f1, f2⟩ := entry ha i j k hin
    rw [f2]
    exact hnear i j k f1
  induction hA with
  | nil p M => exact fun _ t _ x hx _ => hx
  | fc l ls q A B p M p' M' hw hb hA0 hB0 hp hmax _ ih =>
    intro hok t hM x hx hstep
    obtain ⟨_, g2, _⟩ := hstep 0 _ rfl
    exact step _ ls _ _ p' M' ih (by positivity) hok t x hstep fun i j k hin =>
      fc_grid (hok _ (List.mem_cons_self ..)) hM hw hb hp hmax g2 hx hin
  | conv l ls q A B p M p' M' hk hb hA0 hB0 hp hmax _ ih =>
    intro hok t hM x hx hstep
    obtain ⟨_, g2, _⟩ := hstep 0 _ rfl
    exact step _ ls _ _ p' M' ih (by positivity) hok t x hstep fun i j k hin =>
      conv_grid (hok _ (List.mem_cons_self ..)) hM hk hb hp hmax g2 hx hin
  | mp l ls p M p' M' h1 h2 _ ih =>
    intro hok t hM x hx hstep
    obtain ⟨_, g2, _⟩ := hstep 0 _ rfl
    exact step _ ls _ _ p' M' ih hM hok t x hstep fun i j k hin =>
      mp_grid (hok _ (List.mem_cons_self ..)) h1 h2 g2 hx hin

end Rusty
