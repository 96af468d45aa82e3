import Verif.Lemmas.NaNInput
import Verif.Props.Network
import Verif.Props.Batch
import Verif.Lemmas.Classifier
import Verif.Props.ZeroGradient
import Verif.Props.NetworkRounding

/-! # C145: what NaN in the input does -/

namespace Rusty

open F32Ops Spec F32

variable [Libm]

/-- C145: a fully connected layer whose input contains NaN gives zero everywhere. -/
theorem C145_fully_connected (b : Build) (n : Net F32) (hn : Built b n) (x : Tensor F32) (hx : x.WF)
    (hxs : x.shape = n.get_input_shape) (c : Nat) (l : FullyConnectedLayer F32) (hc : n.get_layers[c]? = some (.fc l)) :
    ∃ n' s s', n.infer b x = .ok (.ok (), n') ∧ n'.get_intermediate_state c = .ok s ∧
      n'.get_intermediate_state (c + 1) = .ok s' ∧
      ∀ i, i < l.weights.shape.dj.toNat → (val s i 0 0).isNaN = true →
        ∀ o, o < l.weights.shape.di.toNat → s'.get_item b (ix o 0 0) = .ok ⟨0⟩ := by
  have hne : n.get_layers ≠ [] := List.ne_nil_of_mem (List.mem_of_getElem? hc)
  obtain ⟨n', h1, _, h3, _⟩ := C36_infer b n hn hne x hx hxs
  obtain ⟨s, s', e1, e2, e3⟩ := h3 c _ hc
  refine ⟨n', s, s', h1, e1, e2, fun i hi hnan o ho => ?_⟩
  have hl : l.Ok := (built_netOk hn).layers _ (List.mem_of_getElem? hc)
  rw [e3.2.2 o 0 0 (by
    change l.bias.shape.Inside o 0 0
    rw [hl.rows]
    exact ⟨ho, Nat.one_pos, Nat.one_pos⟩)]
  exact congrArg _ (act_nan _ (summed_preact _ _ _) (preact_nan l s o hi hnan))

/-- C145: an output of a convolutional layer is zero if its window contains NaN, in every channel. -/
theorem C145_convolutional (b : Build) (n : Net F32) (hn : Built b n) (x : Tensor F32) (hx : x.WF)
    (hxs : x.shape = n.get_input_shape) (c : Nat) (l : ConvolutionalLayer F32)
    (hc : n.get_layers[c]? = some (.conv l)) :
    ∃ n' s s', n.infer b x = .ok (.ok (), n') ∧ n'.get_intermediate_state c = .ok s ∧
      n'.get_intermediate_state (c + 1) = .ok s' ∧
      ∀ i j k kernel, l.output_shape.Inside i j k → l.kernels[k]? = some kernel →
        ∀ ki kj kk, kernel.shape.Inside ki kj kk →
        (val s (i * l.stride.toNat + ki) (j * l.stride.toNat + kj) kk).isNaN = true →
          s'.get_item b (ix i j k) = .ok ⟨0⟩ := by
  have hne : n.get_layers ≠ [] := List.ne_nil_of_mem (List.mem_of_getElem? hc)
  obtain ⟨n', h1, _, h3, _⟩ := C36_infer b n hn hne x hx hxs
  obtain ⟨s, s', e1, e2, e3⟩ := h3 c _ hc
  refine ⟨n', s, s', h1, e1, e2, fun i j k kernel hin hk ki kj kk hin' hnan => ?_⟩
  have hl : l.Ok := (built_netOk hn).layers _ (List.mem_of_getElem? hc)
  rw [e3.2.2 i j k hin]
  simp only [layerAt]
  refine congrArg _ ?_
  cases hb : l.biases[k]? with
  | none =>
    unfold convPre
    rw [hk, hb]
    cases l.run_state
    · exact (act_relu .Inference (.zero : Summed (F32Ops.zero : F32))).trans (by rfl)
    · rfl
  | some bias =>
    refine act_nan _ (summed_convPre _ _ _ _ _) ?_
    unfold convPre
    rw [hk, hb]
    refine void_nan_left _ (sum_nan ⟨_, List.mem_map.mpr ⟨(ki, kj, kk), mem_idx3.mpr hin', rfl⟩, ?_⟩)
    exact void_mul_nan _ hnan

/-- C145: max pooling takes NaN for minus infinity. -/
theorem C145_max_pool (b : Build) (n : Net F32) (hn : Built b n) (x : Tensor F32) (hx : x.WF)
    (hxs : x.shape = n.get_input_shape) (c : Nat) (l : MaxPoolLayer) (hc : n.get_layers[c]? = some (.mp l)) :
    ∃ n' s s', n.infer b x = .ok (.ok (), n') ∧ n'.get_intermediate_state c = .ok s ∧
      n'.get_intermediate_state (c + 1) = .ok s' ∧ ∀ i j k, l.output_shape.Inside i j k →
        s'.get_item b (ix i j k) = .ok (maxOf ((window s l.mask_shape l.stride.toNat i j k).map fun e =>
          if e.isNaN then ⟨0xff800000⟩ else e)) := by
  have hne : n.get_layers ≠ [] := List.ne_nil_of_mem (List.mem_of_getElem? hc)
  obtain ⟨n', h1, _, h3, _⟩ := C36_infer b n hn hne x hx hxs
  obtain ⟨s, s', e1, e2, e3⟩ := h3 c _ hc
  exact ⟨n', s, s', h1, e1, e2, fun i j k hin => (e3.2.2 i j k hin).trans (congrArg _ (maxOf_nan _))⟩

/-- C145: softmax of a tensor that contains NaN is NaN everywhere (if `exp` of NaN is NaN). -/
theorem C145_softmax (hexp : ∀ x : F32, x.isNaN = true → (Libm.exp x).isNaN = true) (b : Build) (n : Net F32)
    (hn : Built b n) (x : Tensor F32) (hx : x.WF) (hxs : x.shape = n.get_input_shape) (c : Nat)
    (l : SoftmaxLayer F32) (hc : n.get_layers[c]? = some (.sm l)) :
    ∃ n' s s', n.infer b x = .ok (.ok (), n') ∧ n'.get_intermediate_state c = .ok s ∧
      n'.get_intermediate_state (c + 1) = .ok s' ∧
      ∀ i j k, s.shape.Inside i j k → (val s i j k).isNaN = true → ∀ i' j' k', l.shape.Inside i' j' k' →
        ∃ v, s'.get_item b (ix i' j' k') = .ok v ∧ v.isNaN = true := by
  have hne : n.get_layers ≠ [] := List.ne_nil_of_mem (List.mem_of_getElem? hc)
  obtain ⟨n', h1, _, h3, _⟩ := C36_infer b n hn hne x hx hxs
  obtain ⟨s, s', e1, e2, e3⟩ := h3 c _ hc
  refine ⟨n', s, s', h1, e1, e2, fun i j k hin hnan i' j' k' hin' => ⟨_, e3.2.2 i' j' k' hin', ?_⟩⟩
  simp only [layerAt]
  unfold softmaxAt
  change (F32.div _ _).isNaN = true
  have : (Spec.sum (s.shape.indices.map fun p => F32Ops.exp (val s p.1 p.2.1 p.2.2))).isNaN = true :=
    sum_nan ⟨_, List.mem_map.mpr ⟨(i, j, k), mem_indices.mpr hin, rfl⟩, hexp _ hnan⟩
  unfold F32.div
  rw [this, Bool.or_true]
  exact nan_isNaN

/-- C145: a network that begins with a fully connected layer gives the same prediction, bit for bit, for all inputs
that contain NaN. -/
theorem C145_same (b : Build) (n : Net F32) (hn : Built b n) (l : FullyConnectedLayer F32)
    (hl : n.get_layers[0]? = some (.fc l)) (x x' : Tensor F32) (hx : x.WF) (hxs : x.shape = n.get_input_shape)
    (hx' : x'.WF) (hxs' : x'.shape = n.get_input_shape) (i i' : Nat) (hi : i < l.weights.shape.dj.toNat)
    (hi' : i' < l.weights.shape.dj.toNat) (h : (val x i 0 0).isNaN = true) (h' : (val x' i' 0 0).isNaN = true) :
    ∃ n1 n2 y, n.infer b x = .ok (.ok (), n1) ∧ n.infer b x' = .ok (.ok (), n2) ∧ n1.get_output = .ok y ∧
      n2.get_output = .ok y := by
  have hne : n.get_layers ≠ [] := List.ne_nil_of_mem (List.mem_of_getElem? hl)
  obtain ⟨n1, a1, a2, a3, a4⟩ := C36_infer b n hn hne x hx hxs
  obtain ⟨n2, c1, c2, c3, c4⟩ := C36_infer b n hn hne x' hx' hxs'
  have same : ∀ q, q < n.get_layers.length → ∃ s, n1.get_intermediate_state (q + 1) = .ok s ∧
      n2.get_intermediate_state (q + 1) = .ok s := by
    intro q
    induction q with
    | zero =>
      intro _
      obtain ⟨s, s', e1, e2, e3⟩ := a3 0 _ hl
      obtain ⟨t, t', f1, f2, f3⟩ := c3 0 _ hl
      rw [a2] at e1
      rw [c2] at f1
      obtain rfl := Except.ok.inj e1
      obtain rfl := Except.ok.inj f1
      refine ⟨s', e2, f2.trans (congrArg _ (tensor_ext f3.1 e3.1 (f3.2.1.trans e3.2.1.symm) fun a c d hin => ?_))⟩
      rw [f3.2.1] at hin
      rw [applies_val f3 hin, applies_val e3 hin]
      simp only [layerAt]
      rw [act_nan _ (summed_preact _ _ _) (preact_nan l x a hi h),
        act_nan _ (summed_preact _ _ _) (preact_nan l x' a hi' h')]
    | succ q ih =>
      intro hq
      obtain ⟨s, g1, g2⟩ := ih (by omega)
      have hm := List.getElem?_eq_getElem hq
      obtain ⟨u, u', e1, e2, e3⟩ := a3 (q + 1) _ hm
      obtain ⟨t, t', f1, f2, f3⟩ := c3 (q + 1) _ hm
      obtain rfl := Except.ok.inj (g1.symm.trans e1)
      obtain rfl := Except.ok.inj (g2.symm.trans f1)
      refine ⟨u', e2, f2.trans (congrArg _ (tensor_ext f3.1 e3.1 (f3.2.1.trans e3.2.1.symm) fun a c d hin => ?_))⟩
      rw [f3.2.1] at hin
      rw [applies_val f3 hin, applies_val e3 hin]
  have hpos : 0 < n.get_layers.length := List.length_pos_iff.mpr hne
  obtain ⟨y, y1, y2⟩ := same (n.get_layers.length - 1) (by omega)
  rw [show n.get_layers.length - 1 + 1 = n.get_layers.length by omega] at y1 y2
  exact ⟨n1, n2, y, a1, c1, a4.trans y1, c4.trans y2⟩

/-- C145: one example with NaN in entry `i` of its input makes the gradients of all weights that read this entry NaN, and
they stay NaN whatever examples follow. -/
theorem C145_poison (b : Build) (n : Net F32) (hn : Trains b n) (hbk : ∀ l ∈ n.get_layers, backable l)
    (l : FullyConnectedLayer F32) (hl : n.get_layers[0]? = some (.fc l)) (es fs : List (Example F32)) (e : Example F32)
    (hes : ∀ a ∈ es ++ e :: fs, a.Fits n) (i : Nat) (hi : i < l.weights.shape.dj.toNat)
    (hnan : (val e.x i 0 0).isNaN = true) :
    ∃ n' l', Batch b n (es ++ e :: fs) n' ∧ n'.get_layers[0]? = some (.fc l') ∧
      ∀ o, o < l.weights.shape.di.toNat → ∃ v, l'.weights_gradients.get_item b (ix o i 0) = .ok v ∧ v.isNaN = true := by
  have hne : n.get_layers ≠ [] := List.ne_nil_of_mem (List.mem_of_getElem? hl)
  obtain ⟨dW, dB, H⟩ := C91_batch b n hn hne hbk
  obtain ⟨m, a1, a2, a3, a4⟩ := H n es hn rfl fun a ha => hes a (List.mem_append_left _ ha)
  have hfit : e.Fits n := hes e (List.mem_append_right _ List.mem_cons_self)
  obtain ⟨l1, a5, _⟩ := a4 0 l hl
  have w1 := fc_weights a3 hl a5
  -- the round with NaN
  obtain ⟨hok, ht⟩ := trains_ready hn
  obtain ⟨hokm, htm⟩ := trains_ready a2
  have hsh := params_shapes hok.chain hokm.chain a3 hne
  have hnem : m.layers ≠ [] := List.ne_nil_of_mem (List.mem_of_getElem? a5)
  have hbm : ∀ l ∈ m.layers, backable l := by
    intro l hl
    obtain ⟨i, hi, rfl⟩ := List.mem_iff_getElem.mp hl
    obtain ⟨l0, h1, h2⟩ := map_get a3 (List.getElem?_eq_getElem hi)
    exact params_backable h2 (hbk l0 (List.mem_of_getElem? h1))
  obtain ⟨m1, m2, i1, i2, _, i4⟩ := net_round (b := b) hokm htm hnem hbm hfit.x.1 (by rw [hsh.1]; exact hfit.x.2)
    hfit.g.1 (by rw [hsh.2]; exact hfit.g.2)
  obtain ⟨_, j1, j2, _⟩ := infer_ok (b := b) hokm hnem hfit.x.1 (by rw [hsh.1]; exact hfit.x.2)
  obtain rfl := (Prod.mk.inj (Except.ok.inj (j1.symm.trans i1))).2
  obtain ⟨k2, s, s', gi, gi', p1, p2, p3, p4, p5, p6⟩ := i4 0 _ a5
  obtain rfl := Option.some.inj (j2.symm.trans p2)
  obtain ⟨_, _, _, l2, rfl, q⟩ := fc_round (hokm.layers _ (List.mem_of_getElem? a5))
    (htm.layers _ (List.mem_of_getElem? a5)) p6
  have hm2 : Trains b m2 := .backward _ _ _ _ (.infer _ _ _ _ a2 i1) hfit.g.1 i2
  have hp2 : m2.layers.map params = n.layers.map params := by
    rw [like_map_params (backward_effect _ _ _ i2).1, like_map_params (infer_effect _ _ _ i1).1]
    exact a3
  have w2 := fc_weights hp2 hl p1
  -- the rest
  obtain ⟨k, d1, d2, d3, d4⟩ := H m2 fs hm2 hp2 fun a ha => hes a
    (List.mem_append_right _ (List.mem_cons_of_mem _ ha))
  obtain ⟨l3, d5, d6⟩ := d4 0 l2 p1
  refine ⟨k, l3, batch_join a1 (.step _ _ _ _ _ _ i1 i2 d1), d5, fun o ho =>
    ⟨_, (d6 o (by rw [w2]; exact ho)).2 i (by rw [w2]; exact hi), foldl_nan_start _ _ ?_⟩⟩
  have q' := (q o (by rw [w1]; exact ho)).2 i (by rw [w1]; exact hi)
  have g := (fc_grad_inside hm2 hp2 hl p1).2 o i ho hi
  rw [get_item_ok g.1 g.2] at q'
  rw [Except.ok.inj q']
  exact void_nan_right _ (sum_nan ⟨_, List.mem_singleton.mpr rfl, mul_nan_right _ hnan⟩)

theorem nan_val : (val (single ⟨0x7fc00000⟩) 0 0 0).isNaN = true := by
  rw [show val (single ⟨0x7fc00000⟩) 0 0 0 = (⟨0x7fc00000⟩ : F32) from rfl]
  decide

/-- The hypotheses of `C145_poison` hold for the network `max(0, x + 1)` and the examples 1 and NaN, and those of
`C145_fully_connected` and `C145_same` for this network and NaN. -/
example (b : Build) : ∃ (n : Net F32) (l : FullyConnectedLayer F32), Trains b n ∧ Built b n ∧
    (∀ l ∈ n.get_layers, backable l) ∧ n.get_layers[0]? = some (.fc l) ∧
    (∀ a ∈ [⟨single ⟨0x3f800000⟩, single ⟨0x3f800000⟩⟩] ++ (⟨single ⟨0x7fc00000⟩, single ⟨0x3f800000⟩⟩ : Example F32) :: [],
      a.Fits n) ∧ 0 < l.weights.shape.dj.toNat ∧ (val (single ⟨0x7fc00000⟩) 0 0 0).isNaN = true := by
  obtain ⟨n, l, h1, h2, h3, h4, h5, _⟩ := exUnit_trains b
  refine ⟨n, l, h1, trains_built h1, fun l hl => ?_, by rw [h2]; rfl, fun a ha => ?_, by rw [h5]; decide, nan_val⟩
  · rw [h2] at hl
    obtain rfl := List.mem_singleton.mp hl
    trivial
  · rcases List.mem_pair.mp ha with rfl | rfl <;> exact ⟨⟨single_wf _, h3.symm⟩, ⟨single_wf _, h4.symm⟩⟩

/-- the hypotheses of `C145_convolutional` and `C145_max_pool` -/
example : ∃ n : Net F32, Built .debug n ∧ n.get_layers[0]? = some (.conv exConv2) ∧
    n.get_layers[1]? = some (.mp exMP2) ∧ (single ⟨0x7fc00000⟩).shape = n.get_input_shape ∧
    exConv2.output_shape.Inside 0 0 1 ∧ exConv2.kernels[1]? = some (single ⟨0⟩) ∧ (single ⟨0⟩).shape.Inside 0 0 0 ∧
    (val (single ⟨0x7fc00000⟩) (0 * exConv2.stride.toNat + 0) (0 * exConv2.stride.toNat + 0) 0).isNaN = true := by
  obtain ⟨n, h1, h2, h3, _⟩ := ex_order
  exact ⟨n, h1, by rw [h2]; rfl, by rw [h2]; rfl, h3.symm, by decide, rfl, by decide, nan_val⟩

/-- the hypotheses of `C145_softmax` -/
example (b : Build) : ∃ n : Net F32, Built b n ∧ n.get_layers[0]? = some (.sm exSM1) ∧
    (single ⟨0x7fc00000⟩).shape = n.get_input_shape ∧ (val (single ⟨0x7fc00000⟩) 0 0 0).isNaN = true :=
  ⟨_, .add_layer (Network.new .Inference) (.sm exSM1) (.ok ()) _ (.new _)
    ⟨by change TensorShape.Fits ⟨1, 1, 1⟩; decide, fun _ => ⟨⟨single_wf _, rfl⟩, ⟨single_wf _, rfl⟩⟩⟩
    (by cases b <;> rfl), rfl, rfl, nan_val⟩

end Rusty
