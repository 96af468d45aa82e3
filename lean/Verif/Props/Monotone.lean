import Verif.Lemmas.IEEEMonotone
import Verif.Props.Exact

/-! # C78: networks without negative weights are monotone, in spite of rounding -/

namespace Rusty

open F32Ops Spec F32

variable [Libm]

/-- one run of a network, as a sequence of states -/
theorem run_states (b : Build) {n : Net F32} (hn : Built b n) (hne : n.get_layers ≠ []) {x : Tensor F32}
    (hx : x.WF) (hxs : x.shape = n.get_input_shape) : ∃ (n' : Net F32) (t : Nat → Tensor F32),
    n.infer b x = .ok (.ok (), n') ∧ t 0 = x ∧ n'.get_output = .ok (t n.get_layers.length) ∧
    (t n.get_layers.length).WF ∧ (t n.get_layers.length).shape = n.get_output_shape ∧
    ∀ i l, n.get_layers[i]? = some l → (t i).WF ∧ (t i).shape = l.get_input_shape ∧
      applies b l (t i) (t (i + 1)) := by
  have hok := built_netOk hn
  obtain ⟨n', h1, h2, h3⟩ := infer_ok (b := b) hok hne hx hxs
  obtain ⟨n'', g1, _, _, g4⟩ := C36_infer b n hn hne x hx hxs
  obtain rfl : n'' = n' := by rw [h1] at g1; injection g1 with g1; exact (Prod.mk.inj g1).2.symm
  have hpos : 0 < n.layers.length := List.length_pos_of_ne_nil hne
  obtain ⟨last, hlast⟩ : ∃ l, n.layers[n.layers.length - 1]? = some l :=
    ⟨_, List.getElem?_eq_getElem (by omega)⟩
  obtain ⟨s, s', _, e2, e3, _⟩ := h3 _ _ hlast
  rw [Nat.sub_add_cancel hpos] at e2
  have ht : (n''.intermediate_states[n.get_layers.length]?).getD x = s' := by
    unfold Network.get_layers
    rw [e2, Option.getD_some]
  refine ⟨n'', fun i => (n''.intermediate_states[i]?).getD x, h1, ?_, ?_, ?_, ?_, ?_⟩
  · simp only [h2, Option.getD_some]
  · rw [g4]
    unfold Network.get_intermediate_state Network.get_layers
    simp only [e2, Option.getD_some]
  · simp only [ht]
    exact e3.1
  · simp only [ht]
    rw [e3.2.1, hok.chain.last last (by rw [List.getLast?_eq_getElem?]; exact hlast)]
  · intro i l hi
    obtain ⟨s, s', e1, e2, e3, _, _, _, e4, e5, _⟩ := h3 i l hi
    simp only [e1, e2, Option.getD_some]
    exact ⟨e4, e5, e3⟩

/-- C78: in a network without negative weights and without softmax layers (`Nonneg`), whose sums stay in
range for inputs of at most `M` (`Accuracy`), an input that is entrywise at least another one never gives
a smaller output, in any entry, whatever the rounding does. -/
theorem C78_infer (b : Build) (n : Net F32) (hn : Built b n) (hne : n.get_layers ≠ [])
    (hnn : ∀ l ∈ n.get_layers, Nonneg l) (M M' e' : ℝ) (hM : 0 ≤ M)
    (hA : Accuracy n.get_layers M 0 M' e') (x x' : Tensor F32) (hx : x.WF) (hx' : x'.WF)
    (hxs : x.shape = n.get_input_shape) (hxs' : x'.shape = n.get_input_shape)
    (hw : Within x M) (hw' : Within x' M) (hle : Below x x') :
    ∃ n1 y n2 y', n.infer b x = .ok (.ok (), n1) ∧ n1.get_output = .ok y ∧
      n.infer b x' = .ok (.ok (), n2) ∧ n2.get_output = .ok y' ∧ y'.shape = y.shape ∧
      ∀ i j k, y.shape.Inside i j k → ∃ v v', y.get_item b (ix i j k) = .ok v ∧
        y'.get_item b (ix i j k) = .ok v' ∧ v.isFinite = true ∧ v'.isFinite = true ∧
        v.toReal ≤ v'.toReal ∧ F32.gt v v' = false := by
  obtain ⟨n1, t, r1, r2, r3, r4, r5, r6⟩ := run_states b hn hne hx hxs
  obtain ⟨n2, t', s1, s2, s3, s4, s5, s6⟩ := run_states b hn hne hx' hxs'
  have near : ∀ {x : Tensor F32}, Within x M → Near x (fun i j k => (val x i j k).toReal) M 0 :=
    fun h i j k hin => ⟨(h i j k hin).1, by simp, (h i j k hin).2⟩
  obtain ⟨f1, f2, f3⟩ := layers_mono b hA (built_netOk hn).layers hnn t t' hM (le_refl _) _ _
    (by rw [r2]; exact near hw) (by rw [s2]; exact near hw') (by rw [r2, s2, hxs, hxs'])
    (by rw [r2, s2]; exact hle) r6 s6
  refine ⟨n1, _, n2, _, r1, r3, s1, s3, s5.trans r5.symm, fun i j k hin => ?_⟩
  have hin' : (t' n.get_layers.length).shape.Inside i j k := by rw [s5, ← r5]; exact hin
  have hv := f3 i j k hin
  refine ⟨_, _, get_item_ok r4 hin, get_item_ok s4 hin', f1 i j k hin, f2 i j k hin', hv, ?_⟩
  by_contra hc
  simp only [Bool.not_eq_false] at hc
  have := (gt_real (f1 i j k hin) (f2 i j k hin')).mp hc
  linarith

/-- a 1 -> 1 layer -/
def exFc (w c : F32) : FullyConnectedLayer F32 :=
  { weights := single w, bias := single c, weights_gradients := single ⟨0⟩
    weights_gradients_intermediate := single ⟨0⟩, bias_gradients := single ⟨0⟩
    relu_mask := single ⟨0⟩, name := "fc", run_state := .Inference }

theorem exFc_ok (w c : F32) : (AnyLayer.fc (exFc w c)).Ok :=
  ⟨single_wf _, single_wf _, rfl, rfl, fun _ => ⟨⟨single_wf _, rfl⟩, ⟨single_wf _, rfl⟩,
    ⟨single_wf _, rfl⟩, ⟨single_wf _, rfl⟩⟩⟩

/-- two such layers make a network -/
theorem exFc2_built (b : Build) (w c w' c' : F32) : ∃ n : Net F32, Built b n ∧
    n.get_layers = [.fc (exFc w c), .fc (exFc w' c')] ∧ n.get_input_shape = ⟨1, 1, 1⟩ :=
  ⟨_, .add_layer _ (.fc (exFc w' c')) (.ok ()) _
    (.add_layer (Network.new .Inference) (.fc (exFc w c)) (.ok ()) _ (.new _) (exFc_ok w c)
      (by cases b <;> rfl)) (exFc_ok w' c') (by cases b <;> rfl), rfl, rfl⟩

/-- what such a layer computes -/
theorem exFc_at (w c : F32) (s : Tensor F32) : layerAt (.fc (exFc w c)) s 0 0 0 =
    Spec.relu (F32.add (F32.add (mk' false 0) (F32.mul w (val s 0 0 0))) c) := by
  simp only [layerAt]
  rw [act_relu _ (summed_preact _ _ _)]
  unfold preact Spec.sum
  rw [show (exFc w c).weights.shape.dj.toNat = 1 from rfl, List.range_succ, List.range_zero,
    List.nil_append, List.map_singleton, List.foldl_cons, List.foldl_nil]
  rfl

/-- the outputs of two such layers -/
theorem exFc2_run (b : Build) (w c w' c' a v1 v2 : F32)
    (h1 : Spec.relu (F32.add (F32.add (mk' false 0) (F32.mul w a)) c) = v1)
    (h2 : Spec.relu (F32.add (F32.add (mk' false 0) (F32.mul w' v1)) c') = v2) (n : Net F32)
    (hn : Built b n) (hl : n.get_layers = [.fc (exFc w c), .fc (exFc w' c')])
    (hs : n.get_input_shape = ⟨1, 1, 1⟩) :
    ∃ n' y, n.infer b (single a) = .ok (.ok (), n') ∧ n'.get_output = .ok y ∧
      y.get_item b (ix 0 0 0) = .ok v2 := by
  obtain ⟨n', t, r1, r2, r3, r4, r5, r6⟩ := run_states b hn (by rw [hl]; exact List.cons_ne_nil _ _)
    (single_wf a) hs.symm
  have in1 : (⟨1, 1, 1⟩ : TensorShape).Inside 0 0 0 := ⟨Nat.one_pos, Nat.one_pos, Nat.one_pos⟩
  obtain ⟨_, _, a1⟩ := r6 0 _ (by rw [hl]; rfl)
  obtain ⟨_, _, a2⟩ := r6 1 _ (by rw [hl]; rfl)
  have e1 : val (t 1) 0 0 0 = v1 := by
    have := a1.2.2 0 0 0 in1
    rw [get_item_ok a1.1 (by rw [a1.2.1]; exact in1)] at this
    injection this with this
    rw [this, exFc_at, r2]
    exact h1
  refine ⟨n', _, r1, r3, ?_⟩
  rw [hl]
  have := a2.2.2 0 0 0 in1
  rw [exFc_at, e1, h2] at this
  exact this

omit [Libm] in
theorem two_real : (⟨0x40000000⟩ : F32).toReal = 2 := by
  unfold toReal
  rw [show (⟨0x40000000⟩ : F32).toInt = 2 * 2 ^ 149 by decide]
  norm_num

omit [Libm] in
theorem zero_real : (⟨0⟩ : F32).toReal = 0 := by
  unfold toReal
  rw [show (⟨0⟩ : F32).toInt = 0 by decide]
  norm_num

/-- The assumptions of C78 can be met: the network `max(0, 1 * max(0, 2 * x + 0) + 1)` and the inputs
1 and 2. -/
example (b : Build) : ∃ (n : Net F32) (M' e' : ℝ), Built b n ∧
    n.get_layers = [.fc (exFc ⟨0x40000000⟩ ⟨0⟩), .fc (exFc ⟨0x3f800000⟩ ⟨0x3f800000⟩)] ∧
    (∀ l ∈ n.get_layers, Nonneg l) ∧ Accuracy n.get_layers 2 0 M' e' ∧
    (single ⟨0x3f800000⟩).shape = n.get_input_shape ∧ Within (single ⟨0x3f800000⟩) 2 ∧
    Within (single ⟨0x40000000⟩) 2 ∧ Below (single ⟨0x3f800000⟩) (single ⟨0x40000000⟩) := by
  obtain ⟨n, h1, h2, h3⟩ := exFc2_built b ⟨0x40000000⟩ ⟨0⟩ ⟨0x3f800000⟩ ⟨0x3f800000⟩
  have v (c : F32) : val (single c) 0 0 0 = c := rfl
  have one := one_grid.2
  have W : ∀ (w c : F32), w.isFinite = true → c.isFinite = true →
      (∀ o i, o < (exFc w c).weights.shape.di.toNat → i < (exFc w c).weights.shape.dj.toNat →
        (val (exFc w c).weights o i 0).isFinite = true) ∧
      ∀ o, o < (exFc w c).weights.shape.di.toNat → (val (exFc w c).bias o 0 0).isFinite = true ∧
        ((List.range (exFc w c).weights.shape.dj.toNat).map fun i =>
          |(val (exFc w c).weights o i 0).toReal|).sum ≤ |w.toReal| ∧
        |(val (exFc w c).bias o 0 0).toReal| ≤ |c.toReal| := by
    intro w c hw hc
    have d1 : (exFc w c).weights.shape.dj.toNat = 1 := rfl
    have d2 : (exFc w c).weights.shape.di.toNat = 1 := rfl
    rw [d1, d2]
    refine ⟨fun o i ho hi => ?_, fun o ho => ?_⟩
    · obtain rfl : o = 0 := by omega
      obtain rfl : i = 0 := by omega
      exact hw
    · obtain rfl : o = 0 := by omega
      refine ⟨hc, ?_⟩
      change ((List.range 1).map fun i => |(val (single w) 0 i 0).toReal|).sum ≤ _ ∧
        |(val (single c) 0 0 0).toReal| ≤ _
      simp only [List.range_succ, List.range_zero, List.nil_append, List.map_cons, List.map_nil,
        List.sum_cons, List.sum_nil, v, add_zero]
      exact ⟨le_refl _, le_refl _⟩
  have hN : ∀ w c : F32, 0 ≤ w.toReal → Nonneg (.fc (exFc w c)) := by
    intro w c h o i ho hi
    have ho : o < 1 := ho
    have hi : i < 1 := hi
    obtain rfl : o = 0 := by omega
    obtain rfl : i = 0 := by omega
    exact h
  have hacc : ∃ M' e', Accuracy n.get_layers 2 0 M' e' := by
    rw [h2]
    obtain ⟨w1, w2⟩ := W ⟨0x40000000⟩ ⟨0⟩ (by decide) (by decide)
    obtain ⟨w3, w4⟩ := W ⟨0x3f800000⟩ ⟨0x3f800000⟩ (by decide) (by decide)
    refine ⟨_, _, .fc _ _ _ _ _ _ _ _ w1 w2 (abs_nonneg _) (abs_nonneg _) ?_ ?_
      (.fc _ _ _ _ _ _ _ _ w3 w4 (abs_nonneg _) (abs_nonneg _) ?_ ?_ (.nil _ _))⟩
    · change (1 : Nat) < _
      norm_num
    · rw [two_real, zero_real]
      norm_num
    · change (1 : Nat) < _
      norm_num
    · rw [two_real, zero_real, one]
      change |(1 : ℝ)| * ((|2| * 2 + |0|) + (|2| * 0 + ((((1 : Nat) : ℝ) + 2) / 2 ^ 23 *
        (|2| * (2 + 0) + |0|) + (((1 : Nat) : ℝ) + 1) / 2 ^ 149))) + |1| ≤ 2 ^ 125
      norm_num
  obtain ⟨M', e', hacc⟩ := hacc
  refine ⟨n, M', e', h1, h2, ?_, hacc, h3.symm, ?_, ?_, ?_⟩
  · rw [h2]
    intro l hl
    simp only [List.mem_cons, List.not_mem_nil, or_false] at hl
    rcases hl with rfl | rfl
    · exact hN _ _ (by rw [two_real]; norm_num)
    · exact hN _ _ (by rw [one]; norm_num)
  · intro i j k hin
    obtain ⟨rfl, rfl, rfl⟩ := single_inside hin
    rw [v, one]
    exact ⟨by decide, by norm_num⟩
  · intro i j k hin
    obtain ⟨rfl, rfl, rfl⟩ := single_inside hin
    rw [v, two_real]
    exact ⟨by decide, by norm_num⟩
  · intro i j k hin
    obtain ⟨rfl, rfl, rfl⟩ := single_inside hin
    rw [v, v, one, two_real]
    norm_num

/-- C78: without the range condition it is false.  The first layer multiplies by `2^127`, the second by 0,
and adds 1.  The input 1 gives 1.  The larger input 2 gives 0: the product overflows, `0 * ∞` is NaN, and
the ReLU turns NaN into 0. -/
theorem C78_overflow (b : Build) : ∃ n : Net F32, Built b n ∧ (∀ l ∈ n.get_layers, Nonneg l) ∧
    (single ⟨0x3f800000⟩).shape = n.get_input_shape ∧
    Below (single ⟨0x3f800000⟩) (single ⟨0x40000000⟩) ∧
    ∃ n1 y n2 y' v v', n.infer b (single ⟨0x3f800000⟩) = .ok (.ok (), n1) ∧ n1.get_output = .ok y ∧
      n.infer b (single ⟨0x40000000⟩) = .ok (.ok (), n2) ∧ n2.get_output = .ok y' ∧
      y.get_item b (ix 0 0 0) = .ok v ∧ y'.get_item b (ix 0 0 0) = .ok v' ∧
      v.toReal = 1 ∧ v'.toReal = 0 := by
  obtain ⟨n, h1, h2, h3⟩ := exFc2_built b ⟨0x7f000000⟩ ⟨0⟩ ⟨0⟩ ⟨0x3f800000⟩
  have hN : ∀ w c : F32, 0 ≤ w.toReal → Nonneg (.fc (exFc w c)) := by
    intro w c h o i ho hi
    have ho : o < 1 := ho
    have hi : i < 1 := hi
    obtain rfl : o = 0 := by omega
    obtain rfl : i = 0 := by omega
    exact h
  have relu : ∀ x : F32, Spec.relu x = if F32.gt x (mk' false 0) then x else mk' false 0 := fun _ => rfl
  obtain ⟨n1, y, r1, r2, r3⟩ := exFc2_run b ⟨0x7f000000⟩ ⟨0⟩ ⟨0⟩ ⟨0x3f800000⟩ ⟨0x3f800000⟩ ⟨0x7f000000⟩
    ⟨0x3f800000⟩ (by rw [relu]; decide +kernel) (by rw [relu]; decide +kernel) n h1 h2 h3
  obtain ⟨n2, y', s1, s2, s3⟩ := exFc2_run b ⟨0x7f000000⟩ ⟨0⟩ ⟨0⟩ ⟨0x3f800000⟩ ⟨0x40000000⟩ ⟨0x7f800000⟩
    ⟨0⟩ (by rw [relu]; decide +kernel) (by rw [relu]; decide +kernel) n h1 h2 h3
  refine ⟨n, h1, ?_, h3.symm, ?_, n1, y, n2, y', _, _, r1, r2, s1, s2, r3, s3, one_grid.2, zero_real⟩
  · rw [h2]
    intro l hl
    simp only [List.mem_cons, List.not_mem_nil, or_false] at hl
    rcases hl with rfl | rfl
    · refine hN _ _ ?_
      rw [toReal_eq, show (⟨0x7f000000⟩ : F32).sign = false by decide]
      simp only [Bool.false_eq_true, if_false, one_mul]
      positivity
    · exact hN _ _ (by rw [zero_real])
  · intro i j k hin
    obtain ⟨rfl, rfl, rfl⟩ := single_inside hin
    change (⟨0x3f800000⟩ : F32).toReal ≤ (⟨0x40000000⟩ : F32).toReal
    rw [one_grid.2, two_real]
    norm_num

end Rusty
