import Verif.Lemmas.IEEENetwork
import Verif.Props.Rounding

/-! # C73-C74: accuracy of softmax and of whole networks in `f32` -/

namespace Rusty

open F32Ops Spec F32

variable [Libm]

/-! ## C73 -/

/-- C73: for `n < 2^22` entries between -87 and 71, every entry that softmax writes is the exact
normalised exponential of the input up to a relative error of `(3n+40) 2^-23`, plus `2^-150`. -/
theorem C73_softmax [ExpAccurate] (b : Build) (x out : Tensor F32) (hx : x.WF) (ho : out.WF)
    (hs : x.shape = out.shape) (hn : x.shape.count < 2 ^ 22)
    (hr : ∀ i j k, x.shape.Inside i j k → (val x i j k).isFinite = true ∧
      -87 ≤ (val x i j k).toReal ∧ (val x i j k).toReal ≤ 71) :
    ∃ y, Tensor.softmax x out = .ok y ∧ ∀ i j k, out.shape.Inside i j k →
      ∃ v, y.get_item b (ix i j k) = .ok v ∧ v.isFinite = true ∧
        |v.toReal - Real.exp (val x i j k).toReal /
            (x.shape.indices.map fun p => Real.exp (val x p.1 p.2.1 p.2.2).toReal).sum| ≤
          (3 * x.shape.count + 40) / 2 ^ 23 * (Real.exp (val x i j k).toReal /
            (x.shape.indices.map fun p => Real.exp (val x p.1 p.2.1 p.2.2).toReal).sum) +
          1 / 2 ^ 150 := by
  obtain ⟨y, h1, h2, h3, h4⟩ := softmax_ok hx ho hs
  refine ⟨y, h1, fun i j k hin => ⟨_, get_item_ok h2 (h3 ▸ hin), ?_⟩⟩
  rw [h4 i j k hin]
  exact softmax_error hx hn hr (hs ▸ hin)

/-- The assumptions of C73 can be met: the entry 1. -/
example : (single ⟨0x3f800000⟩).WF ∧ (single ⟨0x3f800000⟩).shape.count < 2 ^ 22 ∧
    ∀ i j k, (single ⟨0x3f800000⟩).shape.Inside i j k →
      (val (single ⟨0x3f800000⟩) i j k).isFinite = true ∧
      -87 ≤ (val (single ⟨0x3f800000⟩) i j k).toReal ∧
      (val (single ⟨0x3f800000⟩) i j k).toReal ≤ 71 := by
  refine ⟨single_wf _, by decide, fun i j k hin => ?_⟩
  obtain ⟨h1, h2, h3⟩ : i < 1 ∧ j < 1 ∧ k < 1 := hin
  obtain rfl : i = 0 := by omega
  obtain rfl : j = 0 := by omega
  obtain rfl : k = 0 := by omega
  have v : val (single ⟨0x3f800000⟩) 0 0 0 = ⟨0x3f800000⟩ := rfl
  have e0 : (⟨0x3f800000⟩ : F32).toReal = 1 := by
    unfold toReal
    rw [show (⟨0x3f800000⟩ : F32).toInt = 2 ^ 149 by decide]
    norm_num
  rw [v, e0]
  exact ⟨by decide, by norm_num, by norm_num⟩

/-! ## C74 -/

/-- C74: the errors of the layers add up as `Accuracy` says.  If the input of a network is within `e`
of exact numbers `ξ` of at most `M` in absolute value, then `infer` succeeds, every entry of the output
is finite and within `e'` of what the network computes of `ξ` in exact arithmetic, and that is at most
`M'` in absolute value. -/
theorem C74_infer (b : Build) (n : Net F32) (hn : Built b n) (hne : n.get_layers ≠ [])
    (x : Tensor F32) (hx : x.WF) (hxs : x.shape = n.get_input_shape) (ξ : Nat → Nat → Nat → ℝ)
    (M e M' e' : ℝ) (hM : 0 ≤ M) (he : 0 ≤ e) (hnear : Near x ξ M e)
    (hA : Accuracy n.get_layers M e M' e') :
    ∃ n' y, n.infer b x = .ok (.ok (), n') ∧ n'.get_output = .ok y ∧ y.shape = n.get_output_shape ∧
      ∀ i j k, y.shape.Inside i j k → ∃ v, y.get_item b (ix i j k) = .ok v ∧ v.isFinite = true ∧
        |v.toReal - exactNet n.get_layers ξ i j k| ≤ e' ∧ |exactNet n.get_layers ξ i j k| ≤ M' := by
  have hok := built_netOk hn
  obtain ⟨n', h1, h2, h3⟩ := infer_ok (b := b) hok hne hx hxs
  obtain ⟨n'', g1, _, _, g4⟩ := C36_infer b n hn hne x hx hxs
  obtain rfl : n'' = n' := by rw [h1] at g1; injection g1 with g1; exact (Prod.mk.inj g1).2.symm
  have hstep : ∀ i l, n.layers[i]? = some l →
      ((n''.intermediate_states[i]?).getD x).WF ∧
      ((n''.intermediate_states[i]?).getD x).shape = l.get_input_shape ∧
      applies b l ((n''.intermediate_states[i]?).getD x)
        ((n''.intermediate_states[i + 1]?).getD x) := by
    intro i l hi
    obtain ⟨s, s', e1, e2, e3, _, _, _, e4, e5, _⟩ := h3 i l hi
    rw [e1, e2]
    exact ⟨e4, e5, e3⟩
  have hfin := layers_near b hA hok.layers (fun i => (n''.intermediate_states[i]?).getD x) hM he ξ
    (by simpa only [h2, Option.getD_some] using hnear) hstep
  have hpos : 0 < n.layers.length := List.length_pos_of_ne_nil hne
  obtain ⟨last, hlast⟩ : ∃ l, n.layers[n.layers.length - 1]? = some l :=
    ⟨_, List.getElem?_eq_getElem (by omega)⟩
  obtain ⟨s, s', _, e2, e3, _⟩ := h3 _ _ hlast
  rw [Nat.sub_add_cancel hpos] at e2
  have hfin : Near s' (exactNet n.layers ξ) M' e' := by
    have := hfin
    simp only [Network.get_layers, e2, Option.getD_some] at this
    exact this
  refine ⟨n'', s', h1, ?_, ?_, fun i j k hin => ⟨_, get_item_ok e3.1 hin, hfin i j k hin⟩⟩
  · rw [g4]
    unfold Network.get_intermediate_state Network.get_layers
    rw [e2]
  · rw [e3.2.1, hok.chain.last last (by rw [List.getLast?_eq_getElem?]; exact hlast)]

/-- C74: under the assumptions of `C74_infer`, two outputs that differ by more than `2e'` in exact
arithmetic come out in the right order. -/
theorem C74_order (b : Build) (n : Net F32) (hn : Built b n) (hne : n.get_layers ≠ [])
    (x : Tensor F32) (hx : x.WF) (hxs : x.shape = n.get_input_shape) (ξ : Nat → Nat → Nat → ℝ)
    (M e M' e' : ℝ) (hM : 0 ≤ M) (he : 0 ≤ e) (hnear : Near x ξ M e)
    (hA : Accuracy n.get_layers M e M' e') :
    ∃ n' y, n.infer b x = .ok (.ok (), n') ∧ n'.get_output = .ok y ∧
      ∀ i j k i' j' k', y.shape.Inside i j k → y.shape.Inside i' j' k' →
        exactNet n.get_layers ξ i' j' k' + 2 * e' < exactNet n.get_layers ξ i j k →
        ∃ v v', y.get_item b (ix i j k) = .ok v ∧ y.get_item b (ix i' j' k') = .ok v' ∧
          F32.gt v v' = true := by
  obtain ⟨n', y, h1, h2, _, h4⟩ := C74_infer b n hn hne x hx hxs ξ M e M' e' hM he hnear hA
  refine ⟨n', y, h1, h2, fun i j k i' j' k' hin hin' hlt => ?_⟩
  obtain ⟨v, q1, q2, q3, _⟩ := h4 i j k hin
  obtain ⟨v', r1, r2, r3, _⟩ := h4 i' j' k' hin'
  refine ⟨v, v', q1, r1, (gt_real q2 r2).mpr ?_⟩
  have q3 := abs_le.mp q3
  have r3 := abs_le.mp r3
  linarith

/-- a softmax layer for one number -/
def exSM1 : SoftmaxLayer F32 :=
  { shape := ⟨1, 1, 1⟩, name := "sm", intermediate1 := single ⟨0⟩, intermediate2 := single ⟨0⟩,
    run_state := .Inference }

/-- The assumptions of C74 can be met: for the two layers `max(0, x+1)` and softmax and inputs of at most
1, the final error is at most `2^-16`. -/
example [ExpAccurate] : ∃ n : Net F32, Built .debug n ∧ n.get_layers = [.fc exUnit, .sm exSM1] ∧
    ∃ M' e', Accuracy n.get_layers 1 0 M' e' ∧ e' ≤ 1 / 2 ^ 16 := by
  have e0 : (⟨0x3f800000⟩ : F32).toReal = 1 := by
    unfold toReal
    rw [show (⟨0x3f800000⟩ : F32).toInt = 2 ^ 149 by decide]
    norm_num
  have v : val (single ⟨0x3f800000⟩) 0 0 0 = ⟨0x3f800000⟩ := rfl
  have d1 : exUnit.weights.shape.dj.toNat = 1 := rfl
  have d2 : exUnit.weights.shape.di.toNat = 1 := rfl
  refine ⟨_, .add_layer _ (.sm exSM1) (.ok ()) _
    (.add_layer (Network.new .Inference) (.fc exUnit) (.ok ()) _ (.new _)
      ⟨single_wf _, single_wf _, rfl, rfl, fun _ => ⟨⟨single_wf _, rfl⟩, ⟨single_wf _, rfl⟩,
        ⟨single_wf _, rfl⟩, ⟨single_wf _, rfl⟩⟩⟩ rfl)
    ⟨by change TensorShape.Fits ⟨1, 1, 1⟩; decide, fun _ => ⟨⟨single_wf _, rfl⟩, ⟨single_wf _, rfl⟩⟩⟩
    rfl, rfl, _, _, .fc exUnit _ 1 1 1 0 _ _ ?_ ?_ (by norm_num) (by norm_num) (by rw [d1]; norm_num)
      (by norm_num) (.sm exSM1 _ _ _ _ _ ‹_› ?_ (by decide) (.nil _ _)), ?_⟩
  · intro o i ho hi
    rw [d2] at ho
    rw [d1] at hi
    obtain rfl : o = 0 := by omega
    obtain rfl : i = 0 := by omega
    change (val (single ⟨0x3f800000⟩) 0 0 0).isFinite = true
    rw [v]
    decide
  · intro o ho
    rw [d2] at ho
    obtain rfl : o = 0 := by omega
    rw [d1]
    change (val (single ⟨0x3f800000⟩) 0 0 0).isFinite = true ∧
      ((List.range 1).map fun i => |(val (single ⟨0x3f800000⟩) 0 i 0).toReal|).sum ≤ 1 ∧
      |(val (single ⟨0x3f800000⟩) 0 0 0).toReal| ≤ 1
    simp only [List.range_succ, List.range_zero, List.nil_append, List.map_cons, List.map_nil,
      List.sum_cons, List.sum_nil, v, e0]
    exact ⟨by decide, by norm_num, by norm_num⟩
  · rw [d1]
    norm_num
  · rw [d1, show exSM1.shape.count = 1 from rfl]
    have h := Real.abs_exp_sub_one_le (x := 2 * (1 * 0 + (((1 : ℕ) + 2 : ℝ) / 2 ^ 23 *
      (1 * (1 + 0) + 1) + ((1 : ℕ) + 1) / 2 ^ 149))) (by norm_num)
    have h2 := (abs_le.mp h).2
    refine (add_le_add_left h2 _).trans ?_
    norm_num

/-- a convolutional layer with the kernels 1 and 0 and biases 1 -/
def exConv2 : ConvolutionalLayer F32 :=
  { kernels := [single ⟨0x3f800000⟩, single ⟨0⟩]
    biases := [single ⟨0x3f800000⟩, single ⟨0x3f800000⟩]
    kernel_gradients := [], bias_gradients := [], stride := 1, relu_mask := single ⟨0⟩
    input_shape := ⟨1, 1, 1⟩, output_shape := ⟨1, 1, 2⟩, name := "conv", run_state := .Inference }

/-- a max-pool layer with windows of one entry -/
def exMP2 : MaxPoolLayer :=
  { input_shape := ⟨1, 1, 2⟩, mask_shape := ⟨1, 1, 1⟩, output_shape := ⟨1, 1, 2⟩, stride := 1
    name := "mp", run_state := .Inference, max_pool_origin := [] }

/-- An example for `C74_order` and C84: the exact outputs 2 and 1 are further apart than twice the error. -/
theorem ex_order : ∃ n : Net F32, Built .debug n ∧ n.get_layers = [.conv exConv2, .mp exMP2] ∧
    n.get_input_shape = ⟨1, 1, 1⟩ ∧ n.get_output_shape = ⟨1, 1, 2⟩ ∧
    ∃ M' e', Accuracy n.get_layers 1 0 M' e' ∧ e' ≤ 1 / 2 ^ 16 ∧
      exactNet n.get_layers (fun _ _ _ => 1) 0 0 1 + 1 =
        exactNet n.get_layers (fun _ _ _ => 1) 0 0 0 := by
  have e0 : (⟨0x3f800000⟩ : F32).toReal = 1 := by
    unfold toReal
    rw [show (⟨0x3f800000⟩ : F32).toInt = 2 ^ 149 by decide]
    norm_num
  have e1 : (⟨0⟩ : F32).toReal = 0 := by
    unfold toReal
    rw [show (⟨0⟩ : F32).toInt = 0 by decide]
    norm_num
  have v (c : F32) : val (single c) 0 0 0 = c := rfl
  have d (c : F32) : (single c).shape.indices = [(0, 0, 0)] := rfl
  have hk : ∀ c : F32, c = ⟨0x3f800000⟩ ∨ c = ⟨0⟩ → (single c).shape.count ≤ 1 ∧
      (∀ i j k, (single c).shape.Inside i j k → (val (single c) i j k).isFinite = true) ∧
      ((single c).shape.indices.map fun p => |(val (single c) p.1 p.2.1 p.2.2).toReal|).sum ≤ 1 := by
    intro c hc
    refine ⟨Nat.le_refl 1, fun i j k hin => ?_, ?_⟩
    · obtain ⟨h1, h2, h3⟩ : i < 1 ∧ j < 1 ∧ k < 1 := hin
      obtain rfl : i = 0 := by omega
      obtain rfl : j = 0 := by omega
      obtain rfl : k = 0 := by omega
      rw [v]
      rcases hc with rfl | rfl <;> decide
    · rw [d]
      simp only [List.map_cons, List.map_nil, List.sum_cons, List.sum_nil, v]
      rcases hc with rfl | rfl
      · rw [e0]; norm_num
      · rw [e1]; norm_num
  refine ⟨_, .add_layer _ (.mp exMP2) (.ok ()) _
    (.add_layer (Network.new .Inference) (.conv exConv2) (.ok ()) _ (.new _)
      ⟨by decide, by decide, by decide, rfl, ?_, rfl, ?_, fun h => by cases h⟩ rfl)
    ⟨by decide, by decide, rfl, by decide, by decide, fun h => by cases h⟩ rfl, rfl, rfl, rfl, _, _,
    .conv exConv2 _ 1 1 1 1 0 _ _ ?_ ?_ (by norm_num) (by norm_num) (by norm_num) (by norm_num)
      (.mp exMP2 _ _ _ _ _ (by decide) (by decide) (.nil _ _)), by norm_num, ?_⟩
  · intro k hm
    rcases List.mem_pair.mp hm with rfl | rfl <;>
      exact ⟨single_wf _, rfl, by change windowsTile ⟨1, 1, 1⟩ ⟨1, 1, 1⟩ 1 ⟨1, 1, 2⟩; decide⟩
  · intro k hm
    rcases List.mem_pair.mp hm with rfl | rfl <;> exact ⟨single_wf _, rfl⟩
  · intro k hm
    rcases List.mem_pair.mp hm with rfl | rfl
    · exact hk _ (.inl rfl)
    · exact hk _ (.inr rfl)
  · intro k hm
    have : k = single ⟨0x3f800000⟩ := by rcases List.mem_pair.mp hm with rfl | rfl <;> rfl
    rw [this, v, e0]
    exact ⟨by decide, by norm_num⟩
  · have x0 : ∀ k, k < 2 → exactNet [.conv exConv2, .mp exMP2] (fun _ _ _ => 1) 0 0 k =
        exactLayer (.conv exConv2) (fun _ _ _ => 1) 0 0 k := by
      intro k _
      change (⨆ p : Fin 1 × Fin 1, exactLayer (.conv exConv2) (fun _ _ _ => 1) (0 * 1 + p.1)
        (0 * 1 + p.2) k) = _
      have hc : ∀ p : Fin 1 × Fin 1, exactLayer (.conv exConv2) (fun _ _ _ => 1) (0 * 1 + p.1)
          (0 * 1 + p.2) k = exactLayer (.conv exConv2) (fun _ _ _ => 1) 0 0 k := by
        intro p
        rw [show (p.1 : Nat) = 0 by omega, show (p.2 : Nat) = 0 by omega]
      rw [funext hc]
      exact ciSup_const
    have y0 : exactLayer (.conv exConv2) (fun _ _ _ => 1) 0 0 0 = 2 := by
      change max 0 ([1 * (⟨0x3f800000⟩ : F32).toReal].sum + (⟨0x3f800000⟩ : F32).toReal) = 2
      rw [e0]; norm_num
    have y1 : exactLayer (.conv exConv2) (fun _ _ _ => 1) 0 0 1 = 1 := by
      change max 0 ([1 * (⟨0⟩ : F32).toReal].sum + (⟨0x3f800000⟩ : F32).toReal) = 1
      rw [e0, e1]; norm_num
    change exactNet [.conv exConv2, .mp exMP2] (fun _ _ _ => 1) 0 0 1 + 1 =
      exactNet [.conv exConv2, .mp exMP2] (fun _ _ _ => 1) 0 0 0
    rw [x0 0 (by decide), x0 1 (by decide), y0, y1]
    norm_num

/-- The assumptions of `C74_order` can be met. -/
example : ∃ n : Net F32, Built .debug n ∧ n.get_layers ≠ [] ∧
    ∃ M' e', Accuracy n.get_layers 1 0 M' e' ∧
      exactNet n.get_layers (fun _ _ _ => 1) 0 0 1 + 2 * e' <
        exactNet n.get_layers (fun _ _ _ => 1) 0 0 0 := by
  obtain ⟨n, h1, h2, _, _, M', e', h3, h4, h5⟩ := ex_order
  refine ⟨n, h1, by rw [h2]; simp, M', e', h3, ?_⟩
  rw [← h5]
  have : (1 : ℝ) / 2 ^ 16 < 1 / 2 := by norm_num
  linarith

end Rusty
