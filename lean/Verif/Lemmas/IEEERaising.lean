import Verif.Lemmas.IEEEMonotone
import Verif.Spec.Raising

/-! # Helper lemmas: layers with larger parameters have larger outputs, also when rounding -/

namespace Rusty

open F32Ops Spec F32

variable [Libm]

/-- everything the layer adds up on the input `s` stays finite -/
def Tame : AnyLayer F32 → Tensor F32 → Prop
  | .fc l, s => ∀ o, o < l.weights.shape.di.toNat → (preact l s o).isFinite = true
  | .conv l, s => ∀ i j k, l.output_shape.Inside i j k → (convPre l s i j k).isFinite = true
  | .mp l, s => l.mask_shape.di ≠ 0 ∧ l.mask_shape.dj ≠ 0 ∧
      ∀ i j k, s.shape.Inside i j k → (val s i j k).isFinite = true
  | .sm _, _ => True

theorem fc_tame {l : FullyConnectedLayer F32} {A B M : ℝ} (hM : 0 ≤ M)
    (hw : ∀ o i, o < l.weights.shape.di.toNat → i < l.weights.shape.dj.toNat →
      (val l.weights o i 0).isFinite = true)
    (hb : ∀ o, o < l.weights.shape.di.toNat → (val l.bias o 0 0).isFinite = true ∧
      ((List.range l.weights.shape.dj.toNat).map fun i => |(val l.weights o i 0).toReal|).sum ≤ A ∧
      |(val l.bias o 0 0).toReal| ≤ B)
    (hn : l.weights.shape.dj.toNat < 2 ^ 22) (hmax : A * M + B ≤ 2 ^ 125) {s : Tensor F32}
    (hss : s.shape = l.get_input_shape) (hs : Within s M) : Tame (.fc l) s := by
  intro i hi
  have hin' : ∀ m ∈ List.range l.weights.shape.dj.toNat, l.get_input_shape.Inside m 0 0 :=
    fun m hm => ⟨List.mem_range.mp hm, Nat.zero_lt_one, Nat.zero_lt_one⟩
  refine unit_finite _ _ _ _ (fun m => |(val l.weights i m 0).toReal|)
    (by rw [List.length_range]; exact hn)
    (fun m hm => ⟨hw i m hi (List.mem_range.mp hm), (hs m 0 0 (hss ▸ hin' m hm)).1⟩) (hb i hi).1
    (fun m hm => ?_) (hb i hi).2.1 (hb i hi).2.2 hM hmax
  rw [abs_mul]
  exact mul_le_mul_of_nonneg_left (hs m 0 0 (hss ▸ hin' m hm)).2 (abs_nonneg _)

/-- the pre-activation of a convolutional layer -/
theorem convPre_eq {l : ConvolutionalLayer F32} {k : Nat} (hk : k < l.kernels.length)
    (hb : k < l.biases.length) (s : Tensor F32) (i j : Nat) : convPre l s i j k =
      F32.add (Spec.sum (l.kernels[k].shape.indices.map fun p =>
      F32.mul (val s (i * l.stride.toNat + p.1) (j * l.stride.toNat + p.2.1) p.2.2)
        (val l.kernels[k] p.1 p.2.1 p.2.2))) (val l.biases[k] 0 0 0) := by
  unfold convPre
  rw [List.getElem?_eq_getElem hk, List.getElem?_eq_getElem hb]
  rfl

omit [Libm] in
/-- the window of an output lies in the input -/
theorem conv_window {l : ConvolutionalLayer F32} (hl : l.Ok) {i j k : Nat}
    (hin : l.output_shape.Inside i j k) (hk : k < l.kernels.length) :
    ∀ p ∈ l.kernels[k].shape.indices,
      l.input_shape.Inside (i * l.stride.toNat + p.1) (j * l.stride.toNat + p.2.1) p.2.2 := by
  intro p hp
  obtain ⟨_, hkd, hkt⟩ := hl.kernels _ (List.getElem_mem hk)
  obtain ⟨m1, m2, m3⟩ := mem_indices.mp hp
  exact ⟨tiles_lt hkt.1 hin.1 m1, tiles_lt hkt.2 hin.2.1 m2, hkd ▸ m3⟩

theorem conv_tame {l : ConvolutionalLayer F32} (hl : l.Ok) {n : Nat} {A B M : ℝ} (hM : 0 ≤ M)
    (hk : ∀ kernel ∈ l.kernels, kernel.shape.count ≤ n ∧
      (∀ i j k, kernel.shape.Inside i j k → (val kernel i j k).isFinite = true) ∧
      (kernel.shape.indices.map fun p => |(val kernel p.1 p.2.1 p.2.2).toReal|).sum ≤ A)
    (hb : ∀ bias ∈ l.biases, (val bias 0 0 0).isFinite = true ∧ |(val bias 0 0 0).toReal| ≤ B)
    (hn : n < 2 ^ 22) (hmax : A * M + B ≤ 2 ^ 125) {s : Tensor F32}
    (hss : s.shape = l.input_shape) (hs : Within s M) : Tame (.conv l) s := by
  intro i j k hin
  have hkl : k < l.kernels.length := by rw [hl.count]; exact hin.2.2
  have hbl : k < l.biases.length := by rw [hl.biasCount]; exact hkl
  obtain ⟨c1, c2, c3⟩ := hk _ (List.getElem_mem hkl)
  obtain ⟨d1, d2⟩ := hb _ (List.getElem_mem hbl)
  have hin' := conv_window hl hin hkl
  rw [convPre_eq hkl hbl]
  refine unit_finite _ _ _ _ (fun p => |(val l.kernels[k] p.1 p.2.1 p.2.2).toReal|)
    (by rw [indices_length]; omega)
    (fun p hp => ⟨(hs _ _ _ (hss ▸ hin' p hp)).1, c2 _ _ _ (mem_indices.mp hp)⟩) d1
    (fun p hp => ?_) c3 d2 hM hmax
  rw [abs_mul, mul_comm]
  exact mul_le_mul_of_nonneg_left (hs _ _ _ (hss ▸ hin' p hp)).2 (abs_nonneg _)

/-- an entry of the output of a layer -/
theorem applies_entry {b : Build} {l : AnyLayer F32} {s s' : Tensor F32} (h : applies b l s s') {i j k : Nat}
    (hin : s'.shape.Inside i j k) : l.get_output_shape.Inside i j k ∧ val s' i j k = layerAt l s i j k := by
  rw [h.2.1] at hin
  exact ⟨hin, applies_val h hin⟩

/-- In a run within the bounds of `Accuracy`, all sums and all states are finite. -/
theorem accuracy_tame (b : Build) {ls : List (AnyLayer F32)} {M e M' e' : ℝ}
    (hA : Accuracy ls M e M' e') : (∀ l ∈ ls, l.Ok) → (∀ l ∈ ls, ∀ p, l ≠ .sm p) →
    ∀ t : Nat → Tensor F32, 0 ≤ M → 0 ≤ e → ∀ x : Nat → Nat → Nat → ℝ, Near (t 0) x M e →
    (∀ i l, ls[i]? = some l → (t i).WF ∧ (t i).shape = l.get_input_shape ∧
      applies b l (t i) (t (i + 1))) →
    (∀ i l, ls[i]? = some l → Tame l (t i)) ∧
    ∀ m, m ≤ ls.length → ∀ i j k, (t m).shape.Inside i j k → (val (t m) i j k).isFinite = true := by
  have step : ∀ (l : AnyLayer F32) (ls : List (AnyLayer F32)) (M1 e1 : ℝ),
      ((∀ l ∈ ls, l.Ok) → (∀ l ∈ ls, ∀ p, l ≠ .sm p) → ∀ t : Nat → Tensor F32, 0 ≤ M1 → 0 ≤ e1 →
        ∀ x : Nat → Nat → Nat → ℝ, Near (t 0) x M1 e1 →
        (∀ i l, ls[i]? = some l → (t i).WF ∧ (t i).shape = l.get_input_shape ∧
          applies b l (t i) (t (i + 1))) →
        (∀ i l, ls[i]? = some l → Tame l (t i)) ∧
        ∀ m, m ≤ ls.length → ∀ i j k, (t m).shape.Inside i j k → (val (t m) i j k).isFinite = true) →
      0 ≤ M1 → 0 ≤ e1 → (∀ m ∈ l :: ls, m.Ok) → (∀ m ∈ l :: ls, ∀ p, m ≠ .sm p) →
      ∀ (t : Nat → Tensor F32) (x : Nat → Nat → Nat → ℝ),
      (∀ i m, (l :: ls)[i]? = some m → (t i).WF ∧ (t i).shape = m.get_input_shape ∧
        applies b m (t i) (t (i + 1))) →
      (∀ i j k, (t 0).shape.Inside i j k → (val (t 0) i j k).isFinite = true) → Tame l (t 0) →
      (∀ i j k, l.get_output_shape.Inside i j k → (layerAt l (t 0) i j k).isFinite = true ∧
        |(layerAt l (t 0) i j k).toReal - exactLayer l x i j k| ≤ e1 ∧
        |exactLayer l x i j k| ≤ M1) →
      (∀ i m, (l :: ls)[i]? = some m → Tame m (t i)) ∧
      ∀ m, m ≤ (l :: ls).length → ∀ i j k, (t m).shape.Inside i j k →
        (val (t m) i j k).isFinite = true := by
    intro l ls M1 e1 ih h1 h2 hok hns t x hstep hfin htame hnear
    obtain ⟨_, _, ha⟩ := hstep 0 l rfl
    obtain ⟨r1, r2⟩ := ih (fun m hm => hok m (List.mem_cons_of_mem _ hm))
      (fun m hm => hns m (List.mem_cons_of_mem _ hm)) (fun i => t (i + 1)) h1 h2
      (exactLayer l x) (fun i j k hin => by
        obtain ⟨f1, f2⟩ := applies_entry ha hin
        rw [f2]
        exact hnear i j k f1) (fun i m hi => hstep (i + 1) m hi)
    refine ⟨fun i m hi => ?_, fun m hm => ?_⟩
    · cases i with
      | zero => cases hi; exact htame
      | succ i => exact r1 i m hi
    · cases m with
      | zero => exact hfin
      | succ m => exact r2 m (by rw [List.length_cons] at hm; omega)
  induction hA with
  | nil M e =>
    intro _ _ t _ _ x hx _
    refine ⟨fun i l hi => (by cases hi), fun m hm => ?_⟩
    obtain rfl : m = 0 := by rw [List.length_nil] at hm; omega
    exact fun i j k h => (hx i j k h).1
  | fc l ls A B M e M' e' hw hb hA0 hB0 hn hmax _ ih =>
    intro hok hns t hM he x hx hstep
    obtain ⟨_, g2, _⟩ := hstep 0 _ rfl
    have h0 : 0 ≤ A * (M + e) + B := by positivity
    have hl := hok _ (List.mem_cons_self ..)
    exact step _ ls _ _ ih (by positivity) (by positivity) hok hns t x hstep
      (fun i j k h => (hx i j k h).1)
      (fc_tame (by positivity) hw hb hn hmax g2 fun i j k h => near_within hx h)
      (fun i j k hin => fc_near hl hM he hw hb hn hmax g2 hx hin)
  | conv l ls n A B M e M' e' hk hb hA0 hB0 hn hmax _ ih =>
    intro hok hns t hM he x hx hstep
    obtain ⟨_, g2, _⟩ := hstep 0 _ rfl
    have h0 : 0 ≤ A * (M + e) + B := by positivity
    have hl := hok _ (List.mem_cons_self ..)
    exact step _ ls _ _ ih (by positivity) (by positivity) hok hns t x hstep
      (fun i j k h => (hx i j k h).1)
      (conv_tame hl (by positivity) hk hb hn hmax g2 fun i j k h => near_within hx h)
      (fun i j k hin => conv_near hl hM he hk hb hn hmax g2 hx hin)
  | mp l ls M e M' e' h1 h2 _ ih =>
    intro hok hns t hM he x hx hstep
    obtain ⟨_, g2, _⟩ := hstep 0 _ rfl
    have hl := hok _ (List.mem_cons_self ..)
    exact step _ ls _ _ ih hM he hok hns t x hstep (fun i j k h => (hx i j k h).1)
      ⟨h1, h2, fun i j k h => (hx i j k h).1⟩ (fun i j k hin => mp_near hl h1 h2 g2 hx hin)
  | sm l ls M e M' e' h1 hn _ ih =>
    intro _ hns
    exact absurd rfl (hns _ (List.mem_cons_self ..) l)

omit [Libm] in
/-- larger factors have a larger product, if the signs allow it -/
theorem product_raised {w w' a a' : ℝ} (h1 : w ≤ w') (h2 : a ≤ a') (h3 : 0 ≤ w' ∨ a' = a)
    (h4 : 0 ≤ a ∨ w' = w) : w * a ≤ w' * a' := by
  have e1 : w * a ≤ w' * a := by
    rcases h4 with h | h
    · exact mul_le_mul_of_nonneg_right h1 h
    · rw [h]
  have e2 : w' * a ≤ w' * a' := by
    rcases h3 with h | h
    · exact mul_le_mul_of_nonneg_left h2 h
    · rw [h]
  exact e1.trans e2

/-- the affine map and the ReLU of a layer -/
theorem unit_raised {ι : Type} (L : List ι) (f g f' g' : ι → F32) (β β' : F32)
    (h : (F32.add (Spec.sum (L.map fun m => F32.mul (f m) (g m))) β).isFinite = true)
    (h' : (F32.add (Spec.sum (L.map fun m => F32.mul (f' m) (g' m))) β').isFinite = true)
    (hle : ∀ m ∈ L, (f m).toReal * (g m).toReal ≤ (f' m).toReal * (g' m).toReal)
    (hβ : β.toReal ≤ β'.toReal) :
    (Spec.relu (F32.add (Spec.sum (L.map fun m => F32.mul (f m) (g m))) β)).toReal ≤
      (Spec.relu (F32.add (Spec.sum (L.map fun m => F32.mul (f' m) (g' m))) β')).toReal :=
  relu_mono h h' (add_mono h h' (dot_mono L f g f' g' (finite_of_add h).1 (finite_of_add h').1 hle) hβ)

/-- the conditions on the signs: a layer whose weights grow needs inputs that are not negative, and weights that
are not negative if the inputs grow -/
structure Signs (l l' : AnyLayer F32) (s s' : Tensor F32) : Prop where
  weights : Nonneg l' ∨ ∀ i j k, s.shape.Inside i j k → val s' i j k = val s i j k
  input : NoneNegative s ∨ EqualWeights l l'

theorem fc_raised {l l' : FullyConnectedLayer F32} (hl : l.Ok) (hr : Raised (.fc l) (.fc l'))
    {s s' : Tensor F32} (hss : s.shape = l.get_input_shape) (ht : Tame (.fc l) s) (ht' : Tame (.fc l') s')
    (hle : Below s s') (hsg : Signs (.fc l) (.fc l') s s') {i j k : Nat}
    (hin : l.get_output_shape.Inside i j k) :
    (layerAt (.fc l) s i j k).toReal ≤ (layerAt (.fc l') s' i j k).toReal := by
  obtain ⟨⟨w1, w2⟩, b1, b2⟩ := hr
  unfold FullyConnectedLayer.get_output_shape at hin
  have hi : i < l.weights.shape.di.toNat := by rw [hl.rows] at hin; exact hin.1
  have hi0 : l.bias.shape.Inside i 0 0 := ⟨hin.1, Nat.lt_of_le_of_lt (Nat.zero_le _) hin.2.1,
    Nat.lt_of_le_of_lt (Nat.zero_le _) hin.2.2⟩
  have hdk : 0 < l.weights.shape.dk.toNat := by
    rw [hl.depth]
    exact Nat.one_pos
  have e1 := ht i hi
  have e2 := ht' i (by rw [w1]; exact hi)
  simp only [layerAt]
  rw [act_relu _ (summed_preact l s i), act_relu _ (summed_preact l' s' i)]
  unfold preact at e1 e2 ⊢
  rw [show l'.weights.shape.dj = l.weights.shape.dj by rw [w1]] at e2 ⊢
  refine unit_raised (List.range l.weights.shape.dj.toNat) (fun m => val l.weights i m 0)
    (fun m => val s m 0 0) (fun m => val l'.weights i m 0) (fun m => val s' m 0 0) (val l.bias i 0 0)
    (val l'.bias i 0 0) e1 e2 (fun m hm => ?_) (b2 i 0 0 hi0)
  have hm := List.mem_range.mp hm
  have hsin : s.shape.Inside m 0 0 := by rw [hss]; exact ⟨hm, Nat.zero_lt_one, Nat.zero_lt_one⟩
  refine product_raised (w2 i m 0 ⟨hi, hm, hdk⟩) (hle m 0 0 hsin) ?_ ?_
  · rcases hsg.weights with h | h
    · exact .inl (h i m (by rw [w1]; exact hi) (by rw [w1]; exact hm))
    · exact .inr (by rw [h m 0 0 hsin])
  · rcases hsg.input with h | h
    · exact .inl (h m 0 0 hsin)
    · exact .inr (by rw [show l'.weights = l.weights from h])

theorem conv_raised {l l' : ConvolutionalLayer F32} (hl : l.Ok) (hr : Raised (.conv l) (.conv l'))
    {s s' : Tensor F32} (hss : s.shape = l.input_shape) (ht : Tame (.conv l) s) (ht' : Tame (.conv l') s')
    (hle : Below s s') (hsg : Signs (.conv l) (.conv l') s s') {i j k : Nat}
    (hin : l.output_shape.Inside i j k) :
    (layerAt (.conv l) s i j k).toReal ≤ (layerAt (.conv l') s' i j k).toReal := by
  obtain ⟨r1, r2, r3, r4, r5⟩ := hr
  have hkl : k < l.kernels.length := by rw [hl.count]; exact hin.2.2
  have hbl : k < l.biases.length := by rw [hl.biasCount]; exact hkl
  have hkl' : k < l'.kernels.length := by rw [← r4.length_eq]; exact hkl
  have hbl' : k < l'.biases.length := by rw [← r5.length_eq]; exact hbl
  obtain ⟨k1, k2⟩ := r4.get hkl hkl'
  obtain ⟨c1, c2⟩ := r5.get hbl hbl'
  simp only [List.get_eq_getElem] at k1 k2 c1 c2
  have e1 := ht i j k hin
  have e2 := ht' i j k (by rw [r3]; exact hin)
  simp only [layerAt]
  rw [act_relu _ (summed_convPre l s i j k), act_relu _ (summed_convPre l' s' i j k)]
  rw [convPre_eq hkl hbl] at e1 ⊢
  rw [convPre_eq hkl' hbl', k1, r1] at e2 ⊢
  have hin' := conv_window hl hin hkl
  refine unit_raised l.kernels[k].shape.indices
    (fun p => val s (i * l.stride.toNat + p.1) (j * l.stride.toNat + p.2.1) p.2.2)
    (fun p => val l.kernels[k] p.1 p.2.1 p.2.2)
    (fun p => val s' (i * l.stride.toNat + p.1) (j * l.stride.toNat + p.2.1) p.2.2)
    (fun p => val l'.kernels[k] p.1 p.2.1 p.2.2) (val l.biases[k] 0 0 0) (val l'.biases[k] 0 0 0) e1 e2
    (fun p hp => ?_) (c2 0 0 0 ?_)
  · have hsin := hss ▸ hin' p hp
    have hkin := mem_indices.mp hp
    rw [mul_comm, mul_comm (val s' _ _ _).toReal]
    refine product_raised (k2 _ _ _ hkin) (hle _ _ _ hsin) ?_ ?_
    · rcases hsg.weights with h | h
      · exact .inl (h _ (List.getElem_mem hkl') _ _ _ (by rw [k1]; exact hkin))
      · exact .inr (by rw [h _ _ _ hsin])
    · rcases hsg.input with h | h
      · exact .inl (h _ _ _ hsin)
      · have h : l'.kernels = l.kernels := h
        exact .inr (by simp only [h])
  · have := hl.biases _ (List.getElem_mem hbl)
    rw [this.2]
    exact ⟨Nat.one_pos, Nat.one_pos, Nat.one_pos⟩

/-- one layer -/
theorem layer_raised {l l' : AnyLayer F32} (hl : l.Ok) (hr : Raised l l') {s s' : Tensor F32}
    (hss : s.shape = l.get_input_shape) (hss' : s'.shape = l'.get_input_shape) (ht : Tame l s) (ht' : Tame l' s')
    (hle : Below s s') (hsg : Signs l l' s s') {i j k : Nat} (hin : l.get_output_shape.Inside i j k) :
    (layerAt l s i j k).toReal ≤ (layerAt l' s' i j k).toReal := by
  cases l with
  | fc l => cases l' with
    | fc l' => exact fc_raised hl hr hss ht ht' hle hsg hin
    | _ => exact hr.elim
  | conv l => cases l' with
    | conv l' => exact conv_raised hl hr hss ht ht' hle hsg hin
    | _ => exact hr.elim
  | mp l => cases l' with
    | mp l' =>
      obtain ⟨r1, r2, r3, r4⟩ := hr
      have := mp_mono hl ht.1 ht.2.1 hss (hss'.trans r3) ht.2.2 ht'.2.2 hle hin
      simp only [layerAt] at this ⊢
      rw [r1, r2]
      exact this
    | _ => exact hr.elim
  | sm l => cases l' <;> exact hr.elim

theorem raised_shapes {l l' : AnyLayer F32} (h : Raised l l') :
    l'.get_input_shape = l.get_input_shape ∧ l'.get_output_shape = l.get_output_shape := by
  cases l with
  | fc l => cases l' with
    | fc l' =>
      obtain ⟨⟨w1, _⟩, b1, _⟩ := h
      refine ⟨?_, b1⟩
      change (⟨_, 1, 1⟩ : TensorShape) = ⟨_, 1, 1⟩
      rw [w1]
    | _ => exact h.elim
  | conv l => cases l' with
    | conv l' => exact ⟨h.2.1, h.2.2.1⟩
    | _ => exact h.elim
  | mp l => cases l' with
    | mp l' => exact ⟨h.2.2.1, h.2.2.2⟩
    | _ => exact h.elim
  | sm l => cases l' <;> exact h.elim

/-- outputs are not negative where inputs are not -/
theorem layer_noneNegative {b : Build} {l : AnyLayer F32} (hl : l.Ok) (hsm : ∀ p, l ≠ .sm p) {s s' : Tensor F32}
    (hss : s.shape = l.get_input_shape) (ht : Tame l s) (hs : NoneNegative s) (h : applies b l s s') :
    NoneNegative s' := by
  intro i j k hin
  obtain ⟨f1, f2⟩ := applies_entry h hin
  rw [f2]
  cases l with
  | fc l =>
    simp only [layerAt]
    rw [act_relu _ (summed_preact l s i), ((relu_spec _).2.2 (ht i ?_)).2]
    · exact le_max_left _ _
    · have : i < l.bias.shape.di.toNat := f1.1
      rw [hl.rows] at this
      exact this
  | conv l =>
    simp only [layerAt]
    rw [act_relu _ (summed_convPre l s i j k), ((relu_spec _).2.2 (ht i j k f1)).2]
    exact le_max_left _ _
  | mp l =>
    obtain ⟨t1, t2, t3⟩ := ht
    have p1 : 0 < l.mask_shape.di.toNat := by
      have : l.mask_shape.di.toNat ≠ 0 := fun h => t1 (UInt32.toNat_inj.mp h)
      omega
    have p2 : 0 < l.mask_shape.dj.toNat := by
      have : l.mask_shape.dj.toNat ≠ 0 := fun h => t2 (UInt32.toNat_inj.mp h)
      omega
    have hmem : ∀ v ∈ window s l.mask_shape l.stride.toNat i j k, ∃ ii jj,
        s.shape.Inside (i * l.stride.toNat + ii) (j * l.stride.toNat + jj) k ∧
        v = val s (i * l.stride.toNat + ii) (j * l.stride.toNat + jj) k := by
      intro v hv
      obtain ⟨⟨ii, jj⟩, hp, rfl⟩ := List.mem_map.mp hv
      refine ⟨ii, jj, ?_, rfl⟩
      rw [hss]
      exact ⟨tiles_lt hl.tiles.1 f1.1 (mem_idx2.mp hp).1, tiles_lt hl.tiles.2 f1.2.1 (mem_idx2.mp hp).2,
        hl.depth ▸ f1.2.2⟩
    obtain ⟨g1, _⟩ := maxOf_finite (w := window s l.mask_shape l.stride.toNat i j k)
      (List.ne_nil_of_mem (List.mem_map.mpr ⟨(0, 0), mem_idx2.mpr ⟨p1, p2⟩, rfl⟩)) fun v hv => by
        obtain ⟨ii, jj, m1, rfl⟩ := hmem v hv
        exact t3 _ _ _ m1
    obtain ⟨ii, jj, m1, hv⟩ := hmem _ g1
    simp only [layerAt]
    rw [hv]
    exact hs _ _ _ m1
  | sm l => exact absurd rfl (hsm l)

end Rusty
