import Verif.Lemmas.Fitting
import Verif.Lemmas.IEEELaws
import Verif.Props.Network

/-! # C142: what networks can fit -/

namespace Rusty

open F32Ops Spec Exact

/-- C142: for every list of examples with targets that are not negative, and not in contradiction to each other,
there is a network of two fully connected layers, with at most one hidden unit per example, that gives in exact
arithmetic the target of every example. -/
theorem C142_fits (b : Build) (mode : NetworkRunState) (n m : UInt32) (ex : List (Tensor ℝ × Tensor ℝ))
    (h0 : ex.length < 2 ^ 32) (h1 : ex.length * n.toNat < 2 ^ 32) (h2 : m.toNat * ex.length < 2 ^ 32)
    (hx : ∀ e ∈ ex, e.1.WF ∧ e.1.shape = ⟨n, 1, 1⟩) (hy : ∀ e ∈ ex, e.2.WF ∧ e.2.shape = ⟨m, 1, 1⟩ ∧ ∀ v ∈ e.2.data, 0 ≤ v)
    (hc : ∀ e ∈ ex, ∀ e' ∈ ex, e.1 = e'.1 → e.2 = e'.2) :
    ∃ (net : Net ℝ) (l1 l2 : FullyConnectedLayer ℝ), Built b net ∧ net.run_state = mode ∧
      net.get_layers = [.fc l1, .fc l2] ∧ l1.get_output_shape.di.toNat ≤ ex.length ∧
      net.get_input_shape = ⟨n, 1, 1⟩ ∧ net.get_output_shape = ⟨m, 1, 1⟩ ∧
      ∀ e ∈ ex, ∃ net', net.infer b e.1 = .ok (.ok (), net') ∧ net'.get_output = .ok e.2 := by
  classical
  have := realMaxZero
  obtain ⟨v, hv⟩ := separates n.toNat (ex.map fun e => fun i => val e.1 i 0 0).toFinset
  let p : Tensor ℝ × Tensor ℝ → ℝ := fun e => ∑ i ∈ Finset.range n.toNat, v i * val e.1 i 0 0
  have hp : ∀ e ∈ ex, ∀ e' ∈ ex, p e = p e' → e.2 = e'.2 := by
    intro e he e' he' h
    refine hc e he e' he' (tensor_ext (hx e he).1 (hx e' he').1 ((hx e he).2.trans (hx e' he').2.symm) fun i j k hin => ?_)
    rw [(hx e he).2] at hin
    obtain rfl : j = 0 := Nat.lt_one_iff.mp hin.2.1
    obtain rfl : k = 0 := Nat.lt_one_iff.mp hin.2.2
    exact hv _ (List.mem_toFinset.mpr (List.mem_map_of_mem he)) _ (List.mem_toFinset.mpr (List.mem_map_of_mem he'))
      h i hin.1
  let S : Finset ℝ := (ex.map p).toFinset
  let f : ℝ → Nat → ℝ := fun s o => if h : ∃ e ∈ ex, p e = s then val h.choose.2 o 0 0 else 0
  have hf : ∀ e ∈ ex, ∀ o, f (p e) o = val e.2 o 0 0 := by
    intro e he o
    have h : ∃ e' ∈ ex, p e' = p e := ⟨e, he, rfl⟩
    change (if h : ∃ e' ∈ ex, p e' = p e then val h.choose.2 o 0 0 else 0) = _
    rw [dif_pos h, hp _ h.choose_spec.1 e he h.choose_spec.2]
  obtain ⟨q, w, hw⟩ := ramps S f
  have hS : S.card ≤ ex.length := by
    have := (ex.map p).toFinset_card_le
    rwa [List.length_map] at this
  let H : UInt32 := UInt32.ofNat S.card
  have hH : H.toNat = S.card := toNat_ofNat_lt (lt_of_le_of_lt hS h0)
  let k1 := fcOf H n (fun _ i => v i) fun h => - q h
  let k2 := fcOf m H w fun _ => 0
  have ok1 : k1.Ok := fcOf_ok (by rw [hH]; exact lt_of_le_of_lt (Nat.mul_le_mul_right _ hS) h1) _ _
  have ok2 : k2.Ok := fcOf_ok (by rw [hH]; exact lt_of_le_of_lt (Nat.mul_le_mul_left _ hS) h2) _ _
  obtain ⟨net, hb, hl, hm⟩ := assemble b mode [.fc k1, .fc k2]
    (fun l hl => by
      rcases List.mem_cons.mp hl with rfl | hl
      · exact ok1
      · rw [List.mem_singleton.mp hl]; exact ok2)
    (fun i l l' e e' => by
      cases i with
      | zero =>
        obtain rfl : AnyLayer.fc k1 = l := Option.some.inj e
        obtain rfl : AnyLayer.fc k2 = l' := Option.some.inj e'
        rfl
      | succ i => cases e')
  obtain ⟨l1, l2, hnl, e1, e2⟩ := two_layers hl
  have hok := built_netOk hb
  have i1 : net.input_shape = ⟨n, 1, 1⟩ :=
    (hok.chain.first (.fc l1) (by rw [hnl]; rfl)).trans (params_input e1)
  have i2 : net.output_shape = ⟨m, 1, 1⟩ :=
    (hok.chain.last (.fc l2) (by rw [hnl]; rfl)).trans (params_output e2)
  have o1 : (AnyLayer.fc l1).get_output_shape = ⟨H, 1, 1⟩ := params_output e1
  have o2 : (AnyLayer.fc l2).get_output_shape = ⟨m, 1, 1⟩ := params_output e2
  refine ⟨net, l1, l2, hb, hm, hnl, ?_, i1, i2, fun e he => ?_⟩
  · have : l1.get_output_shape = ⟨H, 1, 1⟩ := o1
    rw [this]
    exact hH.trans_le hS
  · obtain ⟨net', g1, g2, g3, g4⟩ := C36_infer b net hb (by change net.layers ≠ []; rw [hnl]; exact List.cons_ne_nil _ _)
      e.1 (hx e he).1 ((hx e he).2.trans i1.symm)
    obtain ⟨s, s1, a1, a2, a3⟩ := g3 0 (.fc l1) (by change net.layers[0]? = _; rw [hnl]; rfl)
    obtain ⟨s', s2, b1, b2, b3⟩ := g3 1 (.fc l2) (by change net.layers[1]? = _; rw [hnl]; rfl)
    obtain rfl : e.1 = s := by rw [g2] at a1; exact Except.ok.inj a1
    obtain rfl : s1 = s' := by
      have a2 : net'.get_intermediate_state 1 = .ok s1 := a2
      rw [b1] at a2; exact (Except.ok.inj a2).symm
    refine ⟨net', g1, ?_⟩
    rw [g4, show net.get_layers.length = 1 + 1 by change net.layers.length = _; rw [hnl]; rfl, b2]
    congr 1
    refine tensor_ext b3.1 (hy e he).1 (b3.2.1.trans (o2.trans (hy e he).2.1.symm)) fun o j k hin => ?_
    rw [b3.2.1, o2] at hin
    obtain rfl : j = 0 := Nat.lt_one_iff.mp hin.2.1
    obtain rfl : k = 0 := Nat.lt_one_iff.mp hin.2.2
    have hs1 : ∀ h < S.card, val s1 h 0 0 = max (p e - q h) 0 := by
      intro h hh
      rw [applies_val a3 (by rw [o1]; exact ⟨hH ▸ hh, Nat.one_pos, Nat.one_pos⟩), layerAt_mode e1,
        fcOf_value _ _ _ _ _ (hH ▸ hh), sub_eq_add_neg]
    rw [applies_val b3 (by rw [o2]; exact hin), layerAt_mode e2, fcOf_value _ _ _ _ _ hin.1, add_zero, hH,
      Finset.sum_congr rfl fun h hh => by rw [hs1 h (Finset.mem_range.mp hh)],
      hw (p e) (List.mem_toFinset.mpr (List.mem_map_of_mem he)) o, hf e he o]
    refine max_eq_left ((hy e he).2.2 _ ?_)
    rw [data_indices (hy e he).1]
    exact List.mem_map.mpr ⟨(o, 0, 0), mem_indices.mpr (by rw [(hy e he).2.1]; exact hin), rfl⟩

/-- C142: targets below zero cannot be fitted: after a fully connected or convolutional layer at the end, no entry
of the output is below zero, whatever the parameters and the input, in any arithmetic with the usual order. -/
theorem C142_not_negative {F : Type} [F32Ops F] [F32Order F] [MaxZero F] (b : Build) (net : Net F) (hn : Built b net)
    (l : AnyLayer F) (hl : net.get_layers.getLast? = some l)
    (hk : (∃ f, l = .fc f) ∨ ∃ c, l = .conv c) (x : Tensor F) (hx : x.WF) (hxs : x.shape = net.get_input_shape) :
    ∃ net' y, net.infer b x = .ok (.ok (), net') ∧ net'.get_output = .ok y ∧ ∀ v ∈ y.data, gt zero v = false := by
  have hl : net.layers.getLast? = some l := hl
  have hne : net.layers ≠ [] := fun h => by rw [h] at hl; cases hl
  obtain ⟨net', g1, g2, g3, g4⟩ := C36_infer b net hn hne x hx hxs
  rw [List.getLast?_eq_getElem?] at hl
  have hlen := (List.getElem?_eq_some_iff.mp hl).1
  obtain ⟨s, y, a1, a2, a3⟩ := g3 _ l hl
  rw [show net.layers.length - 1 + 1 = net.layers.length by omega] at a2
  refine ⟨net', y, g1, g4.trans a2, fun v hv => ?_⟩
  rw [data_indices a3.1] at hv
  obtain ⟨p, hp, rfl⟩ := List.mem_map.mp hv
  have hin := mem_indices.mp hp
  rw [applies_val a3 (by rw [← a3.2.1]; exact hin)]
  rcases hk with ⟨f, rfl⟩ | ⟨c, rfl⟩
  · exact act_not_negative _ _ (summed_preact _ _ _)
  · refine act_not_negative _ _ ?_
    unfold convPre
    split
    · exact .add _ _ (summed_sum _)
    · exact .zero

/-- C142: with a softmax layer behind them, two fully connected layers fit every list of examples whose targets are
distributions without zeros. -/
theorem C142_softmax (b : Build) (mode : NetworkRunState) (n m : UInt32) (ex : List (Tensor ℝ × Tensor ℝ))
    (h0 : ex.length < 2 ^ 32) (h1 : ex.length * n.toNat < 2 ^ 32) (h2 : m.toNat * ex.length < 2 ^ 32)
    (hx : ∀ e ∈ ex, e.1.WF ∧ e.1.shape = ⟨n, 1, 1⟩)
    (hy : ∀ e ∈ ex, e.2.WF ∧ e.2.shape = ⟨m, 1, 1⟩ ∧ (∀ v ∈ e.2.data, 0 < v) ∧ e.2.data.sum = 1)
    (hc : ∀ e ∈ ex, ∀ e' ∈ ex, e.1 = e'.1 → e.2 = e'.2) :
    ∃ (net : Net ℝ) (l1 l2 : FullyConnectedLayer ℝ) (l3 : SoftmaxLayer ℝ), Built b net ∧ net.run_state = mode ∧
      net.get_layers = [.fc l1, .fc l2, .sm l3] ∧ l1.get_output_shape.di.toNat ≤ ex.length ∧
      net.get_input_shape = ⟨n, 1, 1⟩ ∧ net.get_output_shape = ⟨m, 1, 1⟩ ∧
      ∀ e ∈ ex, ∃ net', net.infer b e.1 = .ok (.ok (), net') ∧ net'.get_output = .ok e.2 := by
  have := realMaxZero
  obtain ⟨net2, l1, l2, hb, hm, hl, hh, i1, i2, hf⟩ := C142_fits b mode n m (ex.map fun e => (e.1, logits e.2))
    (by rw [List.length_map]; exact h0) (by rw [List.length_map]; exact h1) (by rw [List.length_map]; exact h2)
    (fun e' he' => by
      obtain ⟨e, he, rfl⟩ := List.mem_map.mp he'
      exact hx e he)
    (fun e' he' => by
      obtain ⟨e, he, rfl⟩ := List.mem_map.mp he'
      exact ⟨logits_wf (hy e he).1, (hy e he).2.1, logits_nonneg (hy e he).1⟩)
    (fun a ha a' ha' h => by
      obtain ⟨e, he, rfl⟩ := List.mem_map.mp ha
      obtain ⟨e', he', rfl⟩ := List.mem_map.mp ha'
      exact congrArg logits (hc e he e' he' h))
  rw [List.length_map] at hh
  have hl : net2.layers = [.fc l1, .fc l2] := hl
  have hok2 := built_netOk hb
  have fm : (⟨m, 1, 1⟩ : TensorShape).Fits := by
    have := m.toNat_lt
    refine ⟨?_, ?_⟩
    · change m.toNat * 1 < 2 ^ 32; omega
    · change m.toNat * 1 * 1 < 2 ^ 32; omega
  let k3 : SoftmaxLayer ℝ := ⟨⟨m, 1, 1⟩, "softmax", zeros ⟨1, 1, 1⟩, zeros ⟨1, 1, 1⟩, .Inference⟩
  have ok3 : (AnyLayer.sm k3).Ok := (⟨fm, fun h => by cases h⟩ : k3.Ok)
  have out2 : (AnyLayer.fc l2).get_output_shape = ⟨m, 1, 1⟩ :=
    (hok2.chain.last (.fc l2) (by rw [hl]; rfl)).symm.trans i2
  obtain ⟨net, L3, q1, q2, q3, q4, _⟩ := add_layer_fits (b := b) net2 ok3 fun last hlast => by
    rw [hl] at hlast
    rw [← Option.some.inj hlast]
    exact out2
  obtain ⟨l3, rfl⟩ : ∃ l3, L3 = .sm l3 := by
    cases L3 with
    | sm l3 => exact ⟨l3, rfl⟩
    | fc f => cases q3
    | conv f => cases q3
    | mp f => cases q3
  rw [hl] at q2
  have hbn : Built b net := .add_layer _ _ _ _ hb ok3 q1
  have hokn := built_netOk hbn
  have out3 : (AnyLayer.sm l3).get_output_shape = ⟨m, 1, 1⟩ := params_output q3
  have j1 : net.input_shape = ⟨n, 1, 1⟩ :=
    (hokn.chain.first (.fc l1) (by rw [q2]; rfl)).trans ((hok2.chain.first (.fc l1) (by rw [hl]; rfl)).symm.trans i1)
  have j2 : net.output_shape = ⟨m, 1, 1⟩ := (hokn.chain.last (.sm l3) (by rw [q2]; rfl)).trans out3
  refine ⟨net, l1, l2, l3, hbn, q4.trans hm, q2, hh, j1, j2, fun e he => ?_⟩
  have hne : net.layers ≠ [] := by rw [q2]; exact List.cons_ne_nil _ _
  have hne2 : net2.layers ≠ [] := by rw [hl]; exact List.cons_ne_nil _ _
  obtain ⟨n1, c1, c2, c3⟩ := infer_ok (b := b) hokn hne (hx e he).1 ((hx e he).2.trans j1.symm)
  obtain ⟨n2, d1, d2, d3⟩ := infer_ok (b := b) hok2 hne2 (hx e he).1 ((hx e he).2.trans i1.symm)
  obtain ⟨n2', f1, f2⟩ := hf _ (List.mem_map_of_mem he)
  obtain rfl : n2 = n2' := by
    have f1 : net2.infer b e.1 = _ := f1
    rw [d1] at f1; cases f1; rfl
  obtain ⟨z, z1, z2⟩ := infer_last_state hok2 hne2 d1
  obtain rfl : logits e.2 = z := Except.ok.inj (f2.symm.trans z1)
  have k := states_follow (b := b) (ls := net.layers) (ls' := net2.layers) (ss := n1.intermediate_states)
    (ss' := n2.intermediate_states) 0
    (fun i l' h => by
      rw [Nat.zero_add]
      refine ⟨l', ?_, rfl, fun _ _ _ _ => rfl⟩
      rw [hl] at h
      rw [q2]
      rw [List.getElem?_append_left (l₁ := [AnyLayer.fc l1, AnyLayer.fc l2]) (List.getElem?_eq_some_iff.mp h).1]
      exact h)
    (c2.trans d2.symm)
    (fun i l h => by obtain ⟨s, s', h1, h2, h3, _⟩ := c3 i l h; exact ⟨s, s', h1, h2, h3⟩)
    (fun i l h => by obtain ⟨s, s', h1, h2, h3, _⟩ := d3 i l h; exact ⟨s, s', h1, h2, h3⟩)
    net2.layers.length (Nat.le_refl _)
  rw [Nat.zero_add, z2, hl] at k
  obtain ⟨s, y, a1, a2, a3, _⟩ := c3 2 (.sm l3) (by rw [q2]; rfl)
  obtain rfl : logits e.2 = s := Option.some.inj (k.symm.trans a1)
  obtain ⟨y', u1, u2⟩ := infer_last_state hokn hne c1
  rw [q2] at u2
  obtain rfl : y = y' := Option.some.inj (a2.symm.trans u2)
  refine ⟨n1, c1, u1.trans ?_⟩
  congr 1
  refine tensor_ext a3.1 (hy e he).1 (a3.2.1.trans (out3.trans (hy e he).2.1.symm)) fun o j k hin => ?_
  rw [a3.2.1, out3] at hin
  rw [applies_val a3 (by rw [out3]; exact hin)]
  exact softmax_logits (hy e he).1 (hy e he).2.2.1 (hy e he).2.2.2 (by rw [(hy e he).2.1]; exact hin)

/-- C142: a target of exactly zero cannot be fitted behind softmax: in exact arithmetic all entries are positive. -/
theorem C142_positive (b : Build) (net : Net ℝ) (hn : Built b net)
    (l : SoftmaxLayer ℝ) (hl : net.get_layers.getLast? = some (.sm l)) (x : Tensor ℝ) (hx : x.WF)
    (hxs : x.shape = net.get_input_shape) :
    ∃ net' y, net.infer b x = .ok (.ok (), net') ∧ net'.get_output = .ok y ∧ ∀ v ∈ y.data, 0 < v := by
  have hl : net.layers.getLast? = some (.sm l) := hl
  have hne : net.layers ≠ [] := fun h => by rw [h] at hl; cases hl
  have hok := built_netOk hn
  obtain ⟨net', g1, g2, g3⟩ := infer_ok (b := b) hok hne hx hxs
  obtain ⟨y, u1, u2⟩ := infer_last_state hok hne g1
  rw [List.getLast?_eq_getElem?] at hl
  have hlen := (List.getElem?_eq_some_iff.mp hl).1
  obtain ⟨s, y', a1, a2, a3, _, _, _, w1, w2, _⟩ := g3 _ _ hl
  rw [show net.layers.length - 1 + 1 = net.layers.length by omega] at a2
  obtain rfl : y = y' := Option.some.inj (u2.symm.trans a2)
  refine ⟨net', y, g1, u1, fun v hv => ?_⟩
  rw [data_indices a3.1] at hv
  obtain ⟨p, hp, rfl⟩ := List.mem_map.mp hv
  have hin := mem_indices.mp hp
  rw [a3.2.1] at hin
  rw [applies_val a3 hin]
  exact softmaxAt_pos (by rw [w2]; exact hin)

/-- the four examples of exclusive or -/
noncomputable def exXor : List (Tensor ℝ × Tensor ℝ) :=
  [(0, 0, 0), (0, 1, 1), (1, 0, 1), (1, 1, 0)].map fun p =>
    (⟨⟨1, 2, 2⟩, ⟨2, 1, 1⟩, [p.1, p.2.1]⟩, ⟨⟨1, 1, 1⟩, ⟨1, 1, 1⟩, [p.2.2]⟩)

/-- C142: one layer is not enough: no network of one fully connected layer fits the examples of exclusive or. -/
theorem C142_one_layer (b : Build) (net : Net ℝ) (hn : Built b net) (l : FullyConnectedLayer ℝ)
    (hl : net.get_layers = [.fc l]) (hin : net.get_input_shape = ⟨2, 1, 1⟩) :
    ¬ ∀ e ∈ exXor, ∃ net', net.infer b e.1 = .ok (.ok (), net') ∧ net'.get_output = .ok e.2 := by
  intro h
  have hne : net.get_layers ≠ [] := by rw [hl]; exact List.cons_ne_nil _ _
  have hcols : l.weights.shape.dj = 2 := by
    have h1 : net.input_shape = l.get_input_shape := (built_netOk hn).chain.first (.fc l) (by
      have : net.layers = [.fc l] := hl
      rw [this]; rfl)
    have h2 : net.input_shape = ⟨2, 1, 1⟩ := hin
    rw [h2] at h1
    exact (congrArg TensorShape.di h1).symm
  have key : ∀ x1 x2 y : ℝ, ((⟨⟨1, 2, 2⟩, ⟨2, 1, 1⟩, [x1, x2]⟩, ⟨⟨1, 1, 1⟩, ⟨1, 1, 1⟩, [y]⟩) : Tensor ℝ × Tensor ℝ) ∈ exXor →
      max (val l.weights 0 0 0 * x1 + val l.weights 0 1 0 * x2 + val l.bias 0 0 0) 0 = y := by
    intro x1 x2 y hm
    obtain ⟨net', h1, h2⟩ := h _ hm
    obtain ⟨net'', g1, g2, g3, g4⟩ := C36_infer b net hn hne ⟨⟨1, 2, 2⟩, ⟨2, 1, 1⟩, [x1, x2]⟩
      (wf_data (zeros_wf (s := ⟨2, 1, 1⟩) (by decide)) _ rfl) hin.symm
    obtain rfl : net' = net'' := by rw [g1] at h1; cases h1; rfl
    obtain ⟨s, s', a1, a2, a3⟩ := g3 0 (.fc l) (by rw [hl]; rfl)
    obtain rfl := Except.ok.inj (g2.symm.trans a1)
    rw [hl] at g4
    have e := Except.ok.inj (a2.symm.trans (g4.symm.trans h2))
    have hs : (AnyLayer.fc l).get_output_shape = ⟨1, 1, 1⟩ := by rw [← a3.2.1, e]
    have hv := applies_val a3 (i := 0) (j := 0) (k := 0) (by rw [hs]; exact ⟨Nat.one_pos, Nat.one_pos, Nat.one_pos⟩)
    rw [e] at hv
    have hv : y = act l.run_state (preact l ⟨⟨1, 2, 2⟩, ⟨2, 1, 1⟩, [x1, x2]⟩ 0) := hv
    rw [act_real] at hv
    rw [hv]
    congr 1
    unfold preact
    rw [hcols, sum_range_real]
    change _ = (∑ i ∈ Finset.range 2, _) + _
    rw [Finset.sum_range_succ, Finset.sum_range_one]
    rfl
  have k1 := key 0 0 0 (by simp [exXor])
  have k2 := key 0 1 1 (by simp [exXor])
  have k3 := key 1 0 1 (by simp [exXor])
  have k4 := key 1 1 0 (by simp [exXor])
  have b1 := max_eq_right_iff.mp k1
  have b4 := max_eq_right_iff.mp k4
  have b2 : val l.weights 0 0 0 * 0 + val l.weights 0 1 0 * 1 + val l.bias 0 0 0 = 1 := by
    rcases max_choice (val l.weights 0 0 0 * 0 + val l.weights 0 1 0 * 1 + val l.bias 0 0 0) 0 with h | h
    · rw [← h]; exact k2
    · rw [k2] at h; norm_num at h
  have b3 : val l.weights 0 0 0 * 1 + val l.weights 0 1 0 * 0 + val l.bias 0 0 0 = 1 := by
    rcases max_choice (val l.weights 0 0 0 * 1 + val l.weights 0 1 0 * 0 + val l.bias 0 0 0) 0 with h | h
    · rw [← h]; exact k3
    · rw [k3] at h; norm_num at h
  linarith

/-! ## Examples -/

/-- exclusive or meets the conditions of `C142_fits`: two layers fit it -/
example (b : Build) : ∃ (net : Net ℝ) (l1 l2 : FullyConnectedLayer ℝ), Built b net ∧
    net.get_layers = [.fc l1, .fc l2] ∧
    ∀ e ∈ exXor, ∃ net', net.infer b e.1 = .ok (.ok (), net') ∧ net'.get_output = .ok e.2 := by
  obtain ⟨net, l1, l2, h1, _, h2, _, _, _, h3⟩ := C142_fits b .Training 2 1 exXor (by decide) (by decide) (by decide)
    (fun e he => by
      obtain ⟨p, _, rfl⟩ := List.mem_map.mp he
      exact ⟨wf_data (zeros_wf (s := ⟨2, 1, 1⟩) (by decide)) _ rfl, rfl⟩)
    (fun e he => by
      obtain ⟨p, hp, rfl⟩ := List.mem_map.mp he
      refine ⟨wf_data (zeros_wf (s := ⟨1, 1, 1⟩) (by decide)) _ rfl, rfl, fun v hv => ?_⟩
      obtain rfl := List.mem_singleton.mp hv
      simp only [List.mem_cons, List.not_mem_nil, or_false] at hp
      rcases hp with rfl | rfl | rfl | rfl <;> norm_num)
    (fun e he e' he' h => by
      obtain ⟨p, hp, rfl⟩ := List.mem_map.mp he
      obtain ⟨p', hp', rfl⟩ := List.mem_map.mp he'
      simp only [Tensor.mk.injEq, List.cons.injEq, and_true, true_and] at h
      simp only [List.mem_cons, List.not_mem_nil, or_false] at hp hp'
      rcases hp with rfl | rfl | rfl | rfl <;> rcases hp' with rfl | rfl | rfl | rfl <;> simp_all)
  exact ⟨net, l1, l2, h1, h2, h3⟩

/-- a distribution over two classes meets the conditions of `C142_softmax` -/
example (b : Build) : ∃ (net net' : Net ℝ) (l : SoftmaxLayer ℝ), Built b net ∧ net.get_layers.getLast? = some (.sm l) ∧
    net.infer b ⟨⟨1, 1, 1⟩, ⟨1, 1, 1⟩, [5]⟩ = .ok (.ok (), net') ∧
    net'.get_output = .ok ⟨⟨1, 2, 2⟩, ⟨2, 1, 1⟩, [1 / 4, 3 / 4]⟩ := by
  obtain ⟨net, l1, l2, l3, h1, _, h2, _, _, _, h3⟩ := C142_softmax b .Inference 1 2
    [(⟨⟨1, 1, 1⟩, ⟨1, 1, 1⟩, [5]⟩, ⟨⟨1, 2, 2⟩, ⟨2, 1, 1⟩, [1 / 4, 3 / 4]⟩)] (by decide) (by decide) (by decide)
    (fun e he => by
      rw [List.mem_singleton.mp he]
      exact ⟨wf_data (zeros_wf (s := ⟨1, 1, 1⟩) (by decide)) _ rfl, rfl⟩)
    (fun e he => by
      rw [List.mem_singleton.mp he]
      refine ⟨wf_data (zeros_wf (s := ⟨2, 1, 1⟩) (by decide)) _ rfl, rfl, fun v hv => ?_, ?_⟩
      · simp only [List.mem_cons, List.not_mem_nil, or_false] at hv
        rcases hv with rfl | rfl <;> norm_num
      · norm_num)
    (fun e he e' he' _ => by rw [List.mem_singleton.mp he, List.mem_singleton.mp he'])
  obtain ⟨net', h4, h5⟩ := h3 _ (List.mem_singleton.mpr rfl)
  exact ⟨net, net', l3, h1, by rw [h2]; rfl, h4, h5⟩

/-- networks of one layer for the inputs of exclusive or exist, also such that end with a negative weight and bias -/
example (b : Build) : ∃ (net : Net ℝ) (l : FullyConnectedLayer ℝ), Built b net ∧ net.get_layers = [.fc l] ∧
    net.get_input_shape = ⟨2, 1, 1⟩ ∧ net.get_layers.getLast? = some (.fc l) ∧ val l.bias 0 0 0 = -1 := by
  have hok : (fcOf 1 2 (fun _ _ => -1) fun _ => -1).Ok := fcOf_ok (by decide) _ _
  cases b <;> exact ⟨_, fcOf 1 2 (fun _ _ => -1) fun _ => -1, .add_layer (Network.new .Inference)
    (.fc (fcOf 1 2 (fun _ _ => -1) fun _ => -1)) (.ok ()) _ (.new _) hok rfl, rfl, rfl, rfl, rfl⟩

open F32 in
/-- f32 meets the conditions of `C142_not_negative`, whatever the system's `exp` -/
example [Libm] (b : Build) (net : Net F32) (hn : Built b net) (l : FullyConnectedLayer F32)
    (hl : net.get_layers.getLast? = some (.fc l)) (x : Tensor F32) (hx : x.WF) (hxs : x.shape = net.get_input_shape) :
    ∃ net' y, net.infer b x = .ok (.ok (), net') ∧ net'.get_output = .ok y ∧
      ∀ v ∈ y.data, F32.gt ⟨0⟩ v = false :=
  C142_not_negative b net hn _ hl (.inl ⟨l, rfl⟩) x hx hxs

end Rusty
