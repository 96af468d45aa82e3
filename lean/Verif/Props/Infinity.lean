import Verif.Spec.Infinity
import Verif.Lemmas.Infinity
import Verif.Props.NaNInput

/-! # C149: what an infinity in the input of a layer does -/

namespace Rusty

open F32Ops Spec F32

variable [Libm]

/-- C149: a fully connected layer whose input contains an infinity (or NaN) gives only zero and infinity. -/
theorem C149_binary (b : Build) (n : Net F32) (hn : Built b n) (x : Tensor F32) (hx : x.WF)
    (hxs : x.shape = n.get_input_shape) (c : Nat) (l : FullyConnectedLayer F32) (hc : n.get_layers[c]? = some (.fc l)) :
    ∃ n' s s', n.infer b x = .ok (.ok (), n') ∧ n'.get_intermediate_state c = .ok s ∧
      n'.get_intermediate_state (c + 1) = .ok s' ∧
      ∀ i, i < l.weights.shape.dj.toNat → (val s i 0 0).isFinite = false →
        ∀ o, o < l.weights.shape.di.toNat →
          s'.get_item b (ix o 0 0) = .ok ⟨0⟩ ∨ s'.get_item b (ix o 0 0) = .ok ⟨0x7f800000⟩ := by
  have hne : n.get_layers ≠ [] := List.ne_nil_of_mem (List.mem_of_getElem? hc)
  obtain ⟨n', h1, _, h3, _⟩ := C36_infer b n hn hne x hx hxs
  obtain ⟨s, s', e1, e2, e3⟩ := h3 c _ hc
  refine ⟨n', s, s', h1, e1, e2, fun i hi hbad o ho => ?_⟩
  have hl : l.Ok := (built_netOk hn).layers _ (List.mem_of_getElem? hc)
  rw [e3.2.2 o 0 0 (by
    change l.bias.shape.Inside o 0 0
    rw [hl.rows]
    exact ⟨ho, Nat.one_pos, Nat.one_pos⟩)]
  exact (act_bad _ (summed_preact _ _ _) (preact_bad l s o hi hbad)).imp (congrArg _) (congrArg _)

/-- C149: if all else that a unit reads is of moderate size, only the sign of one weight counts: for plus infinity in
entry `i` the output is infinite if the weight of entry `i` is positive, and zero otherwise; for minus infinity it is
infinite if the weight is negative, and zero otherwise. -/
theorem C149_sign (b : Build) (n : Net F32) (hn : Built b n) (x : Tensor F32) (hx : x.WF)
    (hxs : x.shape = n.get_input_shape) (c : Nat) (l : FullyConnectedLayer F32) (hc : n.get_layers[c]? = some (.fc l))
    (hd : l.weights.shape.dj.toNat < 2 ^ 22) :
    ∃ n' s s', n.infer b x = .ok (.ok (), n') ∧ n'.get_intermediate_state c = .ok s ∧
      n'.get_intermediate_state (c + 1) = .ok s' ∧
      ∀ i, i < l.weights.shape.dj.toNat → ∀ o, o < l.weights.shape.di.toNat → TameBut l s o i →
        (val s i 0 0 = ⟨0x7f800000⟩ → s'.get_item b (ix o 0 0) =
          .ok (if F32.gt (val l.weights o i 0) ⟨0⟩ then ⟨0x7f800000⟩ else ⟨0⟩)) ∧
        (val s i 0 0 = ⟨0xff800000⟩ → s'.get_item b (ix o 0 0) =
          .ok (if F32.gt ⟨0⟩ (val l.weights o i 0) then ⟨0x7f800000⟩ else ⟨0⟩)) := by
  have hne : n.get_layers ≠ [] := List.ne_nil_of_mem (List.mem_of_getElem? hc)
  obtain ⟨n', h1, _, h3, _⟩ := C36_infer b n hn hne x hx hxs
  obtain ⟨s, s', e1, e2, e3⟩ := h3 c _ hc
  refine ⟨n', s, s', h1, e1, e2, fun i hi o ho ⟨t1, t2, t3⟩ => ?_⟩
  have hl : l.Ok := (built_netOk hn).layers _ (List.mem_of_getElem? hc)
  rw [e3.2.2 o 0 0 (by
    change l.bias.shape.Inside o 0 0
    rw [hl.rows]
    exact ⟨ho, Nat.one_pos, Nat.one_pos⟩)]
  simp only [layerAt]
  refine ⟨fun hv => ?_, fun hv => ?_⟩
  · rw [act_infinite _ l s o hd hi (by rw [hv]; decide) t1 t2 t3, hv, gt_zero_iff,
      show (⟨0x7f800000⟩ : F32).sign = false by decide]
    simp
  · rw [act_infinite _ l s o hd hi (by rw [hv]; decide) t1 t2 t3, hv, zero_gt_iff,
      show (⟨0xff800000⟩ : F32).sign = true by decide]
    simp

/-- C149: a network that begins with a fully connected layer gives the same prediction, bit for bit, for all inputs with
the same infinity in entry `i` and moderate entries elsewhere. -/
theorem C149_same (b : Build) (n : Net F32) (hn : Built b n) (l : FullyConnectedLayer F32)
    (hl : n.get_layers[0]? = some (.fc l)) (hd : l.weights.shape.dj.toNat < 2 ^ 22) (x x' : Tensor F32) (hx : x.WF)
    (hxs : x.shape = n.get_input_shape) (hx' : x'.WF) (hxs' : x'.shape = n.get_input_shape) (i : Nat)
    (hi : i < l.weights.shape.dj.toNat) (h : (val x i 0 0).isInf = true) (h' : val x' i 0 0 = val x i 0 0)
    (ht : ∀ o, o < l.weights.shape.di.toNat → TameBut l x o i)
    (ht' : ∀ o, o < l.weights.shape.di.toNat → TameBut l x' o i) :
    ∃ n1 n2 y, n.infer b x = .ok (.ok (), n1) ∧ n.infer b x' = .ok (.ok (), n2) ∧ n1.get_output = .ok y ∧
      n2.get_output = .ok y := by
  have hne : n.get_layers ≠ [] := List.ne_nil_of_mem (List.mem_of_getElem? hl)
  have hlo : l.Ok := (built_netOk hn).layers _ (List.mem_of_getElem? hl)
  obtain ⟨n1, a1, a2, a3, a4⟩ := C36_infer b n hn hne x hx hxs
  obtain ⟨n2, c1, c2, c3, c4⟩ := C36_infer b n hn hne x' hx' hxs'
  have same : ∀ q, q < n.get_layers.length → ∃ s, n1.get_intermediate_state (q + 1) = .ok s ∧
      n2.get_intermediate_state (q + 1) = .ok s := by
    intro q
    induction q with
    | zero =>
      intro _
      obtain ⟨s, s', e1, e2, e3⟩ := a3 0 _ hl
      obtain ⟨t, t', f1, f2, f3⟩ := c3 0 _ hl
      rw [a2] at e1
      rw [c2] at f1
      obtain rfl := Except.ok.inj e1
      obtain rfl := Except.ok.inj f1
      refine ⟨s', e2, f2.trans (congrArg _ (tensor_ext f3.1 e3.1 (f3.2.1.trans e3.2.1.symm) fun a c d hin => ?_))⟩
      rw [f3.2.1] at hin
      rw [applies_val f3 hin, applies_val e3 hin]
      have ha : a < l.weights.shape.di.toNat := by
        change l.bias.shape.Inside a c d at hin
        rw [hlo.rows] at hin
        exact hin.1
      obtain ⟨t1, t2, t3⟩ := ht a ha
      obtain ⟨u1, u2, u3⟩ := ht' a ha
      simp only [layerAt]
      rw [act_infinite _ l x a hd hi h t1 t2 t3, act_infinite _ l x' a hd hi (by rw [h']; exact h) u1 u2 u3, h']
    | succ q ih =>
      intro hq
      obtain ⟨s, g1, g2⟩ := ih (by omega)
      have hm := List.getElem?_eq_getElem hq
      obtain ⟨u, u', e1, e2, e3⟩ := a3 (q + 1) _ hm
      obtain ⟨t, t', f1, f2, f3⟩ := c3 (q + 1) _ hm
      obtain rfl := Except.ok.inj (g1.symm.trans e1)
      obtain rfl := Except.ok.inj (g2.symm.trans f1)
      refine ⟨u', e2, f2.trans (congrArg _ (tensor_ext f3.1 e3.1 (f3.2.1.trans e3.2.1.symm) fun a c d hin => ?_))⟩
      rw [f3.2.1] at hin
      rw [applies_val f3 hin, applies_val e3 hin]
  have hpos : 0 < n.get_layers.length := List.length_pos_iff.mpr hne
  obtain ⟨y, y1, y2⟩ := same (n.get_layers.length - 1) (by omega)
  rw [show n.get_layers.length - 1 + 1 = n.get_layers.length by omega] at y1 y2
  exact ⟨n1, n2, y, a1, c1, a4.trans y1, c4.trans y2⟩

/-- C149: an output of a convolutional layer is zero or infinity if its window contains an infinity (or NaN), in every
channel. -/
theorem C149_convolutional (b : Build) (n : Net F32) (hn : Built b n) (x : Tensor F32) (hx : x.WF)
    (hxs : x.shape = n.get_input_shape) (c : Nat) (l : ConvolutionalLayer F32)
    (hc : n.get_layers[c]? = some (.conv l)) :
    ∃ n' s s', n.infer b x = .ok (.ok (), n') ∧ n'.get_intermediate_state c = .ok s ∧
      n'.get_intermediate_state (c + 1) = .ok s' ∧
      ∀ i j k kernel, l.output_shape.Inside i j k → l.kernels[k]? = some kernel →
        ∀ ki kj kk, kernel.shape.Inside ki kj kk →
        (val s (i * l.stride.toNat + ki) (j * l.stride.toNat + kj) kk).isFinite = false →
          s'.get_item b (ix i j k) = .ok ⟨0⟩ ∨ s'.get_item b (ix i j k) = .ok ⟨0x7f800000⟩ := by
  have hne : n.get_layers ≠ [] := List.ne_nil_of_mem (List.mem_of_getElem? hc)
  obtain ⟨n', h1, _, h3, _⟩ := C36_infer b n hn hne x hx hxs
  obtain ⟨s, s', e1, e2, e3⟩ := h3 c _ hc
  refine ⟨n', s, s', h1, e1, e2, fun i j k kernel hin hk ki kj kk hin' hbad => ?_⟩
  rw [e3.2.2 i j k hin]
  simp only [layerAt]
  cases hb : l.biases[k]? with
  | none =>
    left
    refine congrArg _ ?_
    unfold convPre
    rw [hk, hb]
    cases l.run_state
    · exact (act_relu .Inference (.zero : Summed (F32Ops.zero : F32))).trans (by rfl)
    · rfl
  | some bias =>
    refine (act_bad _ (summed_convPre _ _ _ _ _) ?_).imp (congrArg _) (congrArg _)
    unfold convPre
    rw [hk, hb]
    refine bad_add_left _ (sum_bad ⟨_, List.mem_map.mpr ⟨(ki, kj, kk), mem_idx3.mpr hin', rfl⟩, ?_⟩)
    exact (congrArg _ (mul_comm' _ _)).trans (bad_mul_right _ hbad)

/-- C149: softmax turns every infinite entry into NaN. -/
theorem C149_softmax (hexp : Libm.exp ⟨0x7f800000⟩ = ⟨0x7f800000⟩) (b : Build) (n : Net F32)
    (hn : Built b n) (x : Tensor F32) (hx : x.WF) (hxs : x.shape = n.get_input_shape) (c : Nat)
    (l : SoftmaxLayer F32) (hc : n.get_layers[c]? = some (.sm l)) :
    ∃ n' s s', n.infer b x = .ok (.ok (), n') ∧ n'.get_intermediate_state c = .ok s ∧
      n'.get_intermediate_state (c + 1) = .ok s' ∧
      ∀ i j k, l.shape.Inside i j k → val s i j k = ⟨0x7f800000⟩ →
        ∃ v, s'.get_item b (ix i j k) = .ok v ∧ v.isNaN = true := by
  have hne : n.get_layers ≠ [] := List.ne_nil_of_mem (List.mem_of_getElem? hc)
  obtain ⟨n', h1, _, h3⟩ := infer_ok (b := b) (built_netOk hn) hne hx hxs
  obtain ⟨s, s', e1, e2, e3, _, _, _, _, hsh, _⟩ := h3 c _ hc
  refine ⟨n', s, s', h1, by unfold Network.get_intermediate_state; rw [e1],
    by unfold Network.get_intermediate_state; rw [e2], fun i j k hin hv => ⟨_, e3.2.2 i j k hin, ?_⟩⟩
  simp only [layerAt]
  unfold softmaxAt
  rw [hv]
  change (F32.div (Libm.exp _) _).isNaN = true
  rw [hexp]
  have hs : (Spec.sum (s.shape.indices.map fun p => F32Ops.exp (val s p.1 p.2.1 p.2.2))).isFinite = false :=
    sum_bad ⟨_, List.mem_map.mpr ⟨(i, j, k), mem_indices.mpr (by rw [hsh]; exact hin), rfl⟩, by
      change (Libm.exp (val s i j k)).isFinite = false
      rw [hv, hexp]
      decide⟩
  unfold F32.div
  generalize (Spec.sum (_ : List F32)) = u at hs ⊢
  rw [show (⟨0x7f800000⟩ : F32).isNaN = false by decide, show (⟨0x7f800000⟩ : F32).isInf = true by decide]
  cases hu : u.isNaN
  · have : u.isInf = true := by
      cases hi : u.isInf
      · rw [isFinite_iff.mpr ⟨hu, hi⟩] at hs
        cases hs
      · rfl
    rw [this]
    exact nan_isNaN
  · exact nan_isNaN

/-! ## Non-vacuity -/

/-- one weight: there is nothing else to be tame but the bias -/
theorem exFc_tame (w c v : F32) (hc : c.isFinite = true) : TameBut (exFc w c) (single v) 0 0 := by
  refine ⟨fun n hn h => absurd (Nat.lt_one_iff.mp hn) h, hc, ?_⟩
  rw [show ((List.range (exFc w c).weights.shape.dj.toNat).filter fun n => n ≠ 0) = [] from rfl]
  simp

/-- the hypotheses of `C149_binary`, `C149_sign` and `C149_same`, and what follows -/
example (b : Build) : ∃ n : Net F32, Built b n ∧ n.get_layers[0]? = some (.fc (exFc ⟨0x3f800000⟩ ⟨0⟩)) ∧
    (single ⟨0x7f800000⟩).shape = n.get_input_shape ∧ (val (single ⟨0x7f800000⟩) 0 0 0).isInf = true ∧
    (∀ o, o < (exFc ⟨0x3f800000⟩ ⟨0⟩).weights.shape.di.toNat →
      TameBut (exFc ⟨0x3f800000⟩ ⟨0⟩) (single ⟨0x7f800000⟩) o 0) ∧
    F32.gt (val (exFc ⟨0x3f800000⟩ ⟨0⟩).weights 0 0 0) ⟨0⟩ = true := by
  obtain ⟨n, h1, h2, h3⟩ := exFc2_built b ⟨0x3f800000⟩ ⟨0⟩ ⟨0x3f800000⟩ ⟨0⟩
  refine ⟨n, h1, by rw [h2]; rfl, h3.symm, (by decide : (⟨0x7f800000⟩ : F32).isInf = true), fun o ho => ?_,
    (by decide : F32.gt ⟨0x3f800000⟩ ⟨0⟩ = true)⟩
  obtain rfl : o = 0 := Nat.lt_one_iff.mp ho
  exact exFc_tame _ _ _ (by decide)

/-- the hypotheses of `C149_convolutional` -/
example : ∃ n : Net F32, Built .debug n ∧ n.get_layers[0]? = some (.conv exConv2) ∧
    (single ⟨0xff800000⟩).shape = n.get_input_shape ∧
    exConv2.output_shape.Inside 0 0 1 ∧ exConv2.kernels[1]? = some (single ⟨0⟩) ∧ (single ⟨0⟩).shape.Inside 0 0 0 ∧
    (val (single ⟨0xff800000⟩) (0 * exConv2.stride.toNat + 0) (0 * exConv2.stride.toNat + 0) 0).isFinite = false := by
  obtain ⟨n, h1, h2, h3, _⟩ := ex_order
  exact ⟨n, h1, by rw [h2]; rfl, h3.symm, by decide, rfl, by decide,
    (by decide : (⟨0xff800000⟩ : F32).isFinite = false)⟩

/-- the hypotheses of `C149_softmax` -/
example (b : Build) : ∃ n : Net F32, Built b n ∧ n.get_layers[0]? = some (.sm exSM1) ∧
    (single ⟨0x7f800000⟩).shape = n.get_input_shape ∧ exSM1.shape.Inside 0 0 0 ∧
    val (single ⟨0x7f800000⟩) 0 0 0 = ⟨0x7f800000⟩ :=
  ⟨_, .add_layer (Network.new .Inference) (.sm exSM1) (.ok ()) _ (.new _)
    ⟨by change TensorShape.Fits ⟨1, 1, 1⟩; decide, fun _ => ⟨⟨single_wf _, rfl⟩, ⟨single_wf _, rfl⟩⟩⟩
    (by cases b <;> rfl), rfl, rfl, by decide, rfl⟩

end Rusty
