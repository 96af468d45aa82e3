import Verif.Lemmas.UnwindNet
import Verif.Lemmas.UnwindNet
import Verif.Lemmas.Batch

/-! # The old contents of the tensors that `forward` and `backward` write to -/

namespace Rusty

open F32Ops Spec

variable {F : Type} [F32Ops F] {b : Build}

omit [F32Ops F] in
/-- a column has no other entries than those in its first column and channel -/
theorem fc_column {l : FullyConnectedLayer F} {i j k : Nat} (hl : l.Ok) (h : l.bias.shape.Inside i j k) :
    i < l.weights.shape.di.toNat ∧ j = 0 ∧ k = 0 := by
  rw [hl.rows] at h
  obtain ⟨h1, h2, h3⟩ := h
  have h2 : j < 1 := h2
  have h3 : k < 1 := h3
  exact ⟨h1, by omega, by omega⟩

/-- `forward` gives the same, whatever the tensor contains that it writes to -/
theorem forward_overwrites {l : AnyLayer F} (hl : l.Ok) {x o o' : Tensor F} (hx : x.WF)
    (hxs : x.shape = l.get_input_shape) (ho : o.WF) (hos : o.shape = l.get_output_shape) (ho' : o'.WF)
    (hos' : o'.shape = l.get_output_shape) : l.forward b x o = l.forward b x o' := by
  obtain ⟨l1, y, q1, q2, q3, q4⟩ := forward_ok (b := b) hl hx hxs ho hos
  obtain ⟨l2, z, r1, r2, r3, r4⟩ := forward_ok (b := b) hl hx hxs ho' hos'
  obtain rfl : y = z := tensor_ext q2 r2 (q3.trans r3.symm) fun i j k hin => by
    rw [q3] at hin
    rw [q4 i j k hin, r4 i j k hin]
  suffices l1 = l2 by rw [q1, r1, this]
  cases l with
  | conv l =>
    cases hm : l.run_state with
    | Inference =>
      obtain ⟨u, a1, _⟩ := conv_forward_inference (b := b) hl hm hx hxs ho hos
      obtain ⟨v, c1, _⟩ := conv_forward_inference (b := b) hl hm hx hxs ho' hos'
      simp only [AnyLayer.forward, AnyLayer.rewrap] at q1 r1
      rw [a1] at q1
      rw [c1] at r1
      cases q1
      cases r1
      rfl
    | Training =>
      obtain ⟨m, u, a1, _, _, a4, a5, a6⟩ := conv_forward_training (b := b) hl hm hx hxs ho hos
      obtain ⟨m', v, c1, _, _, c4, c5, c6⟩ := conv_forward_training (b := b) hl hm hx hxs ho' hos'
      obtain rfl : m = m' := tensor_ext a4 c4 (a5.trans c5.symm) fun i j k hin => by
        rw [a5] at hin
        rw [(a6 i j k hin).2, (c6 i j k hin).2]
      simp only [AnyLayer.forward, AnyLayer.rewrap] at q1 r1
      rw [a1] at q1
      rw [c1] at r1
      cases q1
      cases r1
      rfl
  | fc l =>
    cases hm : l.run_state with
    | Inference =>
      obtain ⟨u, a1, _⟩ := fc_forward_inference (b := b) hl hm hx hxs ho hos
      obtain ⟨v, c1, _⟩ := fc_forward_inference (b := b) hl hm hx hxs ho' hos'
      simp only [AnyLayer.forward, AnyLayer.rewrap] at q1 r1
      rw [a1] at q1
      rw [c1] at r1
      cases q1
      cases r1
      rfl
    | Training =>
      obtain ⟨m, u, a1, _, _, a4, a5, a6⟩ := fc_forward_training (b := b) hl hm hx hxs ho hos
      obtain ⟨m', v, c1, _, _, c4, c5, c6⟩ := fc_forward_training (b := b) hl hm hx hxs ho' hos'
      obtain rfl : m = m' := tensor_ext a4 c4 (a5.trans c5.symm) fun i j k hin => by
        rw [a5] at hin
        obtain ⟨hi, rfl, rfl⟩ := fc_column hl hin
        rw [(a6 i hi).2, (c6 i hi).2]
      simp only [AnyLayer.forward, AnyLayer.rewrap] at q1 r1
      rw [a1] at q1
      rw [c1] at r1
      cases q1
      cases r1
      rfl
  | mp l =>
    cases hm : l.run_state with
    | Inference =>
      simp only [AnyLayer.forward, AnyLayer.rewrap] at q1 r1
      unfold MaxPoolLayer.forward at q1 r1
      rw [hm] at q1 r1
      simp only at q1 r1
      cases h1 : Tensor.max_pool b x l.mask_shape l.stride o with
      | error e => rw [h1] at q1; cases q1
      | ok u =>
        cases h2 : Tensor.max_pool b x l.mask_shape l.stride o' with
        | error e => rw [h2] at r1; cases r1
        | ok v =>
          rw [h1] at q1
          rw [h2] at r1
          cases q1
          cases r1
          rfl
    | Training =>
      obtain ⟨p, a1, a2, u, a3⟩ := mp_forward_record (b := b) hl hm hx hxs ho hos
      obtain ⟨p', c1, c2, v, c3⟩ := mp_forward_record (b := b) hl hm hx hxs ho' hos'
      obtain rfl : p = p' := by
        refine List.ext_getElem? fun q => ?_
        by_cases hq : q < l.output_shape.count
        · obtain ⟨i, j, k, hi, hj, hk, e⟩ := lin_surj (c := l.output_shape.dk.toNat) hq
          have e : q = pos l.output_shape i j k := e
          rw [e, a2 i j k ⟨hi, hj, hk⟩, c2 i j k ⟨hi, hj, hk⟩]
        · rw [List.getElem?_eq_none (by omega), List.getElem?_eq_none (by omega)]
      rw [a3] at q1
      rw [c3] at r1
      cases q1
      cases r1
      rfl
  | sm l =>
    simp only [AnyLayer.forward, AnyLayer.rewrap] at q1 r1
    unfold SoftmaxLayer.forward at q1 r1
    cases h1 : Tensor.softmax x o with
    | error e => rw [h1] at q1; cases q1
    | ok u =>
      cases h2 : Tensor.softmax x o' with
      | error e => rw [h2] at r1; cases r1
      | ok v =>
        rw [h1] at q1
        rw [h2] at r1
        cases q1
        cases r1
        rfl

/-- networks that differ at most in the contents of their states are the same network after the next `infer` -/
theorem infer_equal {n m : Net F} (hn : NetOk n) (hm : NetOk m)
    (h : m = { n with intermediate_states := m.intermediate_states }) (hne : n.layers ≠ []) {x : Tensor F}
    (hx : x.WF) (hxs : x.shape = n.input_shape) :
    ∃ k, n.infer b x = .ok (.ok (), k) ∧ m.infer b x = .ok (.ok (), k) := by
  have el : m.layers = n.layers := by rw [h]
  have eg : m.intermediate_gradients = n.intermediate_gradients := by rw [h]
  have ei : m.input_shape = n.input_shape := by rw [h]
  have eo : m.output_shape = n.output_shape := by rw [h]
  have er : m.run_state = n.run_state := by rw [h]
  obtain ⟨n1, a1, _, a3⟩ := infer_ok (b := b) hn hne hx hxs
  obtain ⟨m1, c1, _, c3⟩ := infer_ok (b := b) hm (by rw [el]; exact hne) hx (hxs.trans ei.symm)
  obtain ⟨n2, m2, d1, d2, hs⟩ := infer_same (b := b) hn hm (by rw [el])
    (fun i l l' e1 e2 s a c d => by rw [el, e1] at e2; cases e2; rfl) hne hx hxs
  obtain rfl : n1 = n2 := (Prod.mk.inj (Except.ok.inj (a1.symm.trans d1))).2
  obtain rfl : m1 = m2 := (Prod.mk.inj (Except.ok.inj (c1.symm.trans d2))).2
  obtain ⟨e1, _, e3, e4, e5, e6⟩ := infer_effect n x _ a1
  obtain ⟨f1, _, f3, f4, f5, f6⟩ := infer_effect m x _ c1
  simp only at e1 e3 e4 e5 e6 f1 f3 f4 f5 f6
  have hl1 := forall₂_length e1
  have hl2 := forall₂_length f1
  have hl : m1.layers = n1.layers := by
    refine List.ext_getElem? fun i => ?_
    by_cases hi : i < n.layers.length
    · have hg : n.layers[i]? = some n.layers[i] := List.getElem?_eq_getElem hi
      obtain ⟨s, s', g1, g2, _, o, l', g4, g5, g6, g7, g8, g9⟩ := a3 i _ hg
      obtain ⟨t, t', k1, k2, _, o', l'', k4, k5, k6, k7, k8, k9⟩ := c3 i _ (by rw [el]; exact hg)
      obtain rfl : t = s := by
        rw [← hs, g1] at k1
        exact (Option.some.inj k1).symm
      rw [forward_overwrites (hn.layers _ (List.getElem_mem hi)) g5 g6 g7 g8 k7 k8, k9] at g9
      rw [g4, k4]
      exact congrArg some (Prod.mk.inj (Prod.mk.inj (Except.ok.inj g9)).2).1
    · rw [List.getElem?_eq_none (by rw [hl2, el]; omega), List.getElem?_eq_none (by rw [hl1]; omega)]
  refine ⟨n1, a1, ?_⟩
  suffices m1 = n1 by rw [c1, this]
  obtain ⟨q1, q2, q3, q4, q5, q6⟩ := n1
  obtain ⟨r1, r2, r3, r4, r5, r6⟩ := m1
  simp only at hl hs e3 e4 e5 e6 f3 f4 f5 f6
  rw [hl, hs, f3, f4, f5, f6, e3, e4, e5, e6, eg, ei, eo, er]

/-- the shapes of a chain of layers are given by the parameters -/
theorem chain_shapes {n m : Net F} (hn : NetOk n) (hm : NetOk m) (hp : m.layers.map params = n.layers.map params)
    (hne : n.layers ≠ []) : m.input_shape = n.input_shape ∧ m.output_shape = n.output_shape ∧
      m.intermediate_states.map (·.shape) = n.intermediate_states.map (·.shape) := by
  have hlen : m.layers.length = n.layers.length := by
    have := congrArg List.length hp
    simpa using this
  have hpos : 0 < n.layers.length := List.length_pos_iff.mpr hne
  have ends : ∀ i, i < n.layers.length → ∃ l l', n.layers[i]? = some l ∧ m.layers[i]? = some l' ∧
      l'.get_input_shape = l.get_input_shape ∧ l'.get_output_shape = l.get_output_shape := by
    intro i hi
    have hm' : m.layers[i]? = some (m.layers[i]'(by omega)) := List.getElem?_eq_getElem (by omega)
    obtain ⟨l, h1, h2⟩ := map_get hp hm'
    exact ⟨l, _, h1, hm', params_input h2, params_output h2⟩
  refine ⟨?_, ?_, ?_⟩
  · obtain ⟨l, l', h1, h2, h3, _⟩ := ends 0 hpos
    have a : n.input_shape = _ := hn.chain.first l (by rw [List.head?_eq_getElem?]; exact h1)
    have c : m.input_shape = _ := hm.chain.first l' (by rw [List.head?_eq_getElem?]; exact h2)
    rw [a, c, h3]
  · obtain ⟨l, l', h1, h2, _, h4⟩ := ends (n.layers.length - 1) (by omega)
    have a : n.output_shape = _ := hn.chain.last l (by rw [List.getLast?_eq_getElem?]; exact h1)
    have c : m.output_shape = _ := hm.chain.last l' (by rw [List.getLast?_eq_getElem?, hlen]; exact h2)
    rw [a, c, h4]
  · rw [hm.chain.states, hn.chain.states]
    have o : m.layers.map AnyLayer.get_output_shape = n.layers.map AnyLayer.get_output_shape := by
      refine List.ext_getElem? fun i => ?_
      by_cases hi : i < n.layers.length
      · obtain ⟨l, l', h1, h2, _, h4⟩ := ends i hi
        rw [List.getElem?_map, List.getElem?_map, h1, h2, Option.map_some, Option.map_some, h4]
      · rw [List.getElem?_eq_none (by rw [List.length_map]; omega),
          List.getElem?_eq_none (by rw [List.length_map]; omega)]
    obtain ⟨l, l', h1, h2, h3, _⟩ := ends 0 hpos
    cases e1 : n.layers with
    | nil => exact absurd e1 hne
    | cons a as =>
      cases e2 : m.layers with
      | nil => rw [e2] at h2; cases h2
      | cons c cs =>
        rw [e1] at h1 o
        rw [e2] at h2 o
        cases h1
        cases h2
        simp only [stateShapes]
        rw [h3, o]

/-- a switch of mode makes networks with the same parameters equal, up to the contents of the states -/
theorem switch_equal {n m : Net F} (hn : NetOk n) (hm : NetOk m) (hp : m.layers.map params = n.layers.map params)
    (hne : n.layers ≠ []) :
    (∀ n' m', n.switch_to_training b = .ok n' → m.switch_to_training b = .ok m' →
      m' = { n' with intermediate_states := m'.intermediate_states }) ∧
    ∀ n' m', n.switch_to_inference b = .ok n' → m.switch_to_inference b = .ok m' →
      m' = { n' with intermediate_states := m'.intermediate_states } := by
  obtain ⟨s1, s2, s3⟩ := chain_shapes hn hm hp hne
  have key : ∀ {as cs : List (AnyLayer F)}, cs.map params = as.map params →
      cs.mapM (AnyLayer.switch_to_training b) = as.mapM (AnyLayer.switch_to_training b) ∧
      cs.mapM (AnyLayer.switch_to_inference b) = as.mapM (AnyLayer.switch_to_inference b) := by
    intro as
    induction as with
    | nil =>
      intro cs h
      rw [List.map_nil, List.map_eq_nil_iff] at h
      rw [h]
      exact ⟨rfl, rfl⟩
    | cons a as ih =>
      intro cs h
      cases cs with
      | nil => cases h
      | cons c cs =>
        rw [List.map_cons, List.map_cons] at h
        obtain ⟨h1, h2⟩ := List.cons.inj h
        obtain ⟨e1, e2⟩ := switch_of_params b h1
        simp only [List.mapM_cons, e1, e2, (ih h2).1, (ih h2).2]
        exact ⟨trivial, trivial⟩
  have news : ∀ {as cs : List (Tensor F)}, cs.map (·.shape) = as.map (·.shape) →
      cs.mapM (fun t => (Tensor.new b t.shape : Exec (Tensor F))) = as.mapM (fun t => Tensor.new b t.shape) := by
    intro as
    induction as with
    | nil =>
      intro cs h
      rw [List.map_nil, List.map_eq_nil_iff] at h
      rw [h]
    | cons a as ih =>
      intro cs h
      cases cs with
      | nil => cases h
      | cons c cs =>
        rw [List.map_cons, List.map_cons] at h
        obtain ⟨h1, h2⟩ := List.cons.inj h
        simp only [List.mapM_cons, h1, ih h2]
  have k1 : m.layers.mapM (LayerOps.switch_to_training b) = n.layers.mapM (LayerOps.switch_to_training b) := (key hp).1
  have k2 : m.layers.mapM (LayerOps.switch_to_inference b) = n.layers.mapM (LayerOps.switch_to_inference b) :=
    (key hp).2
  unfold Network.switch_to_training Network.switch_to_inference
  rw [k1, k2, news s3]
  constructor
  · intro n' m' h1 h2
    cases e1 : n.layers.mapM (LayerOps.switch_to_training b) with
    | error e => rw [e1] at h1; cases h1
    | ok ls =>
      cases e2 : n.intermediate_states.mapM (fun t => (Tensor.new b t.shape : Exec (Tensor F))) with
      | error e => rw [e1, e2] at h1; cases h1
      | ok gs =>
        rw [e1, e2] at h1 h2
        cases h1
        cases h2
        simp only [s1, s2]
  · intro n' m' h1 h2
    cases e1 : n.layers.mapM (LayerOps.switch_to_inference b) with
    | error e => rw [e1] at h1; cases h1
    | ok ls =>
      rw [e1] at h1 h2
      cases h1
      cases h2
      simp only [s1, s2]

theorem fresh_start {n m : Net F} (hn : NetOk n) (hm : NetOk m) (hp : m.layers.map params = n.layers.map params)
    (hne : n.layers ≠ []) :
    (∃ n1 m1, n.switch_to_training b = .ok n1 ∧ m.switch_to_training b = .ok m1 ∧
      ∀ x : Tensor F, x.WF → x.shape = n.input_shape →
        ∃ k, n1.infer b x = .ok (.ok (), k) ∧ m1.infer b x = .ok (.ok (), k)) ∧
    ∃ n1 m1, n.switch_to_inference b = .ok n1 ∧ m.switch_to_inference b = .ok m1 ∧
      ∀ x : Tensor F, x.WF → x.shape = n.input_shape →
        ∃ k, n1.infer b x = .ok (.ok (), k) ∧ m1.infer b x = .ok (.ok (), k) := by
  obtain ⟨⟨n1, a1⟩, n2, a2⟩ := switches_return hn b
  obtain ⟨⟨m1, c1⟩, m2, c2⟩ := switches_return hm b
  obtain ⟨e1, e2⟩ := switch_equal (b := b) hn hm hp hne
  refine ⟨⟨n1, m1, a1, c1, fun x hx hxs => ?_⟩, n2, m2, a2, c2, fun x hx hxs => ?_⟩
  · obtain ⟨_, f2, _, f4, _⟩ := net_switch_training_effect n _ a1
    exact infer_equal (uses_netOk hn (.switch_to_training _ _ a1)) (uses_netOk hm (.switch_to_training _ _ c1))
      (e1 _ _ a1 c1) (fun e => hne (List.length_eq_zero_iff.mp
        ((forall₂_length f2).symm.trans (by rw [e]; rfl)))) hx (hxs.trans f4.symm)
  · obtain ⟨_, f2, _, f4, _⟩ := net_switch_inference_effect n _ a2
    exact infer_equal (uses_netOk hn (.switch_to_inference _ _ a2)) (uses_netOk hm (.switch_to_inference _ _ c2))
      (e2 _ _ a2 c2) (fun e => hne (List.length_eq_zero_iff.mp
        ((forall₂_length f2).symm.trans (by rw [e]; rfl)))) hx (hxs.trans f4.symm)

end Rusty
