import Verif.Lemmas.IEEEIdentity
import Verif.Props.PowerOfTwo

/-! # C106: layers that do nothing can be left out -/

namespace Rusty

open F32Ops Spec F32

variable [Libm]

/-- C106: let the network `m` have the layers of the network `n` except the one at `q`, which is an identity
layer.  If, in the run of `m`, the state at this place has only entries that such a layer keeps, then both
networks have the same output, bit for bit, and the same states before and after the layer. -/
theorem C106_infer (b : Build) (n m : Net F32) (hn : Built b n) (hm : Built b m) (q : Nat) (l : AnyLayer F32)
    (hl : n.get_layers[q]? = some l) (hid : Identity l)
    (hp : m.get_layers.map params = (n.get_layers.eraseIdx q).map params) (hne : m.get_layers ≠ [])
    (x : Tensor F32) (hx : x.WF) (hxs : x.shape = n.get_input_shape) :
    ∃ m1, m.infer b x = .ok (.ok (), m1) ∧
      ((∀ s, m1.get_intermediate_state q = .ok s → ∀ i j k, s.shape.Inside i j k → Keeps l (val s i j k)) →
      ∃ n1, n.infer b x = .ok (.ok (), n1) ∧ n1.get_output = m1.get_output ∧
        (∀ i, i ≤ q → n1.get_intermediate_state i = m1.get_intermediate_state i) ∧
        ∀ i, q ≤ i → i ≤ m.get_layers.length →
          n1.get_intermediate_state (i + 1) = m1.get_intermediate_state i) := by
  have hokn := built_netOk hn
  have hokm := built_netOk hm
  have hl : n.layers[q]? = some l := hl
  have hne : m.layers ≠ [] := hne
  have hp : m.layers.map params = (n.layers.eraseIdx q).map params := hp
  have hq : q < n.layers.length := (List.getElem?_eq_some_iff.mp hl).1
  have hlok := hokn.layers _ (List.mem_of_getElem? hl)
  have hlen : m.layers.length + 1 = n.layers.length := by
    have := congrArg List.length hp
    rw [List.length_map, List.length_map, List.length_eraseIdx_of_lt hq] at this
    omega
  have hpos : 0 < m.layers.length := List.length_pos_iff.mpr hne
  have before : ∀ i l', i < q → m.layers[i]? = some l' → ∃ l, n.layers[i]? = some l ∧ params l = params l' := by
    intro i l' hi h
    have := congrArg (fun z => z[i]?) hp
    simp only [List.getElem?_map, List.getElem?_eraseIdx_of_lt hi, h, Option.map_some] at this
    exact Option.map_eq_some_iff.mp this.symm
  have after : ∀ i l', q ≤ i → m.layers[i]? = some l' →
      ∃ l, n.layers[i + 1]? = some l ∧ params l = params l' := by
    intro i l' hi h
    have := congrArg (fun z => z[i]?) hp
    simp only [List.getElem?_map, List.getElem?_eraseIdx_of_ge hi, h, Option.map_some] at this
    exact Option.map_eq_some_iff.mp this.symm
  have hxm : x.shape = m.input_shape := by
    have q1 : m.layers[0]? = some m.layers[0] := List.getElem?_eq_getElem hpos
    have q2 : m.input_shape = _ := hokm.chain.first _ (by rw [List.head?_eq_getElem?]; exact q1)
    rw [hxs, q2]
    rcases Nat.eq_zero_or_pos q with h0 | h0
    · subst h0
      obtain ⟨l', e1, e2⟩ := after 0 _ (Nat.le_refl _) q1
      rw [← params_input e2, ← hokn.chain.links 0 l l' hl e1, identity_shape hlok hid]
      exact hokn.chain.first _ (by rw [List.head?_eq_getElem?]; exact hl)
    · obtain ⟨l', e1, e2⟩ := before 0 _ h0 q1
      rw [← params_input e2]
      exact hokn.chain.first _ (by rw [List.head?_eq_getElem?]; exact e1)
  have hnen : n.layers ≠ [] := fun h => by rw [h] at hq; exact absurd hq (Nat.not_lt_zero _)
  obtain ⟨m1, a1, a2, a3⟩ := infer_ok (b := b) hokm hne hx hxm
  obtain ⟨n1, c1, c2, c3⟩ := infer_ok (b := b) hokn hnen hx hxs
  refine ⟨m1, a1, fun hk => ⟨n1, c1, ?_⟩⟩
  have am : ∀ (i : Nat) l, m.layers[i]? = some l → ∃ s s', m1.intermediate_states[i]? = some s ∧
      m1.intermediate_states[i + 1]? = some s' ∧ applies b l s s' := fun i l hi => by
    obtain ⟨s, s', h1, h2, h3, _⟩ := a3 i l hi; exact ⟨s, s', h1, h2, h3⟩
  have an : ∀ (i : Nat) l, n.layers[i]? = some l → ∃ s s', n1.intermediate_states[i]? = some s ∧
      n1.intermediate_states[i + 1]? = some s' ∧ applies b l s s' := fun i l hi => by
    obtain ⟨s, s', h1, h2, h3, _⟩ := c3 i l hi; exact ⟨s, s', h1, h2, h3⟩
  have take : ∀ (i : Nat) l', (m.layers.take q)[i]? = some l' → i < q ∧ m.layers[i]? = some l' := by
    intro i l' h
    rw [List.getElem?_take] at h
    split at h
    · next hi => exact ⟨hi, h⟩
    · cases h
  have k1 : ∀ i, i ≤ q → n1.intermediate_states[i]? = m1.intermediate_states[i]? := by
    intro i hi
    have := states_follow (b := b) (ls := n.layers) (ls' := m.layers.take q) (ss' := m1.intermediate_states) 0
      (fun i l' h => by
        obtain ⟨h1, h2⟩ := take i l' h
        obtain ⟨l, q1, q2⟩ := before i l' h1 h2
        rw [Nat.zero_add]
        exact ⟨l, q1, params_output q2, layerAt_mode q2⟩)
      (c2.trans a2.symm) an
      (fun i l' h => by
        obtain ⟨h1, h2⟩ := take i l' h
        exact am i l' h2) i (by rw [List.length_take]; omega)
    rwa [Nat.zero_add] at this
  have k2 : n1.intermediate_states[q + 1]? = m1.intermediate_states[q]? := by
    obtain ⟨s, s', h1, h2, h3, _, _, _, h4, h5, _⟩ := c3 q l hl
    have hsm : m1.intermediate_states[q]? = some s := (k1 q (Nat.le_refl _)).symm.trans h1
    have hks := hk s (by unfold Network.get_intermediate_state; rw [hsm])
    have hsh : l.get_output_shape = s.shape := (identity_shape hlok hid).trans h5.symm
    rw [h2, hsm, tensor_ext h3.1 h4 (h3.2.1.trans hsh) fun i j k hin => ?_]
    rw [h3.2.1] at hin
    rw [applies_val h3 hin, layer_identity hlok hid h5 hks hin]
  have k3 : ∀ i, q ≤ i → i ≤ m.layers.length →
      n1.intermediate_states[i + 1]? = m1.intermediate_states[i]? := by
    intro i hi hi2
    have := states_follow (b := b) (ls := n.layers) (ls' := m.layers.drop q)
      (ss' := m1.intermediate_states.drop q) (ss := n1.intermediate_states) (q + 1)
      (fun i l' h => by
        rw [List.getElem?_drop] at h
        obtain ⟨l, q1, q2⟩ := after (q + i) l' (by omega) h
        rw [show q + 1 + i = q + i + 1 by omega]
        exact ⟨l, q1, params_output q2, layerAt_mode q2⟩)
      (by rw [List.getElem?_drop]; exact k2) an
      (fun i l' h => by
        rw [List.getElem?_drop] at h
        obtain ⟨s, s', h1, h2, h3⟩ := am _ l' h
        exact ⟨s, s', by rw [List.getElem?_drop]; exact h1, by rw [List.getElem?_drop]; exact h2, h3⟩)
      (i - q) (by rw [List.length_drop]; omega)
    rw [List.getElem?_drop, show q + 1 + (i - q) = i + 1 by omega, show q + (i - q) = i by omega] at this
    exact this
  refine ⟨?_, fun i hi => ?_, fun i hi hi2 => ?_⟩
  · obtain ⟨u, u1, u2⟩ := infer_last_state hokn hnen c1
    obtain ⟨v, v1, v2⟩ := infer_last_state hokm hne a1
    rw [← hlen, k3 _ (by omega) (Nat.le_refl _), v2] at u2
    rw [u1, v1, Option.some.inj u2]
  · unfold Network.get_intermediate_state; rw [k1 i hi]
  · unfold Network.get_intermediate_state
    rw [k3 i hi hi2]

theorem exFc_identity : Identity (.fc (exFc ⟨0x3f800000⟩ ⟨0⟩)) := by
  refine ⟨rfl, fun o i ho hi => ?_, fun o ho => ?_⟩
  · have ho : o < 1 := ho
    have hi : i < 1 := hi
    obtain rfl : o = 0 := by omega
    obtain rfl : i = 0 := by omega
    exact ⟨show (⟨0x3f800000⟩ : F32).isFinite = true by decide, one_grid.2⟩
  · have ho : o < 1 := ho
    obtain rfl : o = 0 := by omega
    exact ⟨show (⟨0⟩ : F32).isFinite = true by decide, zero_real⟩

/-- C106: the condition on the signs is needed.  In front of `max(0, -x)`, the identity layer turns the output
for -1 from 1 to 0. -/
theorem C106_negative (b : Build) : ∃ (n m n1 m1 : Net F32) (y z : Tensor F32), Built b n ∧ Built b m ∧
    n.get_layers = [.fc (exFc ⟨0x3f800000⟩ ⟨0⟩), .fc (exFc ⟨0xbf800000⟩ ⟨0⟩)] ∧
    m.get_layers = [.fc (exFc ⟨0xbf800000⟩ ⟨0⟩)] ∧ Identity (.fc (exFc ⟨0x3f800000⟩ ⟨0⟩)) ∧
    n.infer b (single ⟨0xbf800000⟩) = .ok (.ok (), n1) ∧ n1.get_output = .ok y ∧
    y.get_item b (ix 0 0 0) = .ok ⟨0⟩ ∧ m.infer b (single ⟨0xbf800000⟩) = .ok (.ok (), m1) ∧
    m1.get_output = .ok z ∧ z.get_item b (ix 0 0 0) = .ok ⟨0x3f800000⟩ := by
  obtain ⟨n, h1, h2, h3⟩ := exFc2_built b ⟨0x3f800000⟩ ⟨0⟩ ⟨0xbf800000⟩ ⟨0⟩
  obtain ⟨m, g1, g2, g3⟩ : ∃ m : Net F32, Built b m ∧ m.get_layers = [.fc (exFc ⟨0xbf800000⟩ ⟨0⟩)] ∧
      m.get_input_shape = ⟨1, 1, 1⟩ :=
    ⟨_, .add_layer (Network.new .Inference) (.fc (exFc ⟨0xbf800000⟩ ⟨0⟩)) (.ok ()) _ (.new _) (exFc_ok _ _)
      (by cases b <;> rfl), rfl, rfl⟩
  have relu : ∀ x : F32, Spec.relu x = if F32.gt x (mk' false 0) then x else mk' false 0 := fun _ => rfl
  obtain ⟨n1, y, q1, q2, q3⟩ := exFc2_run b _ _ _ _ ⟨0xbf800000⟩ ⟨0⟩ ⟨0⟩
    (by rw [relu]; decide +kernel) (by rw [relu]; decide +kernel) n h1 h2 h3
  obtain ⟨m1, t, r1, r2, r3, r4, r5, r6⟩ := run_states b g1 (by rw [g2]; exact List.cons_ne_nil _ _)
    (single_wf ⟨0xbf800000⟩) g3.symm
  rw [g2] at r3 r4 r5
  obtain ⟨_, _, a1⟩ := r6 0 _ (by rw [g2]; rfl)
  refine ⟨n, m, n1, m1, y, _, h1, g1, h2, g2, exFc_identity, q1, q2, q3, r1, r3, ?_⟩
  have hin : (⟨1, 1, 1⟩ : TensorShape).Inside 0 0 0 := ⟨Nat.one_pos, Nat.one_pos, Nat.one_pos⟩
  change (t 1).get_item b (ix 0 0 0) = _
  rw [a1.2.2 0 0 0 hin, exFc_at, r2]
  congr 1
  change Spec.relu (F32.add (F32.add (mk' false 0) (F32.mul ⟨0xbf800000⟩ ⟨0xbf800000⟩)) ⟨0⟩) = _
  rw [relu]
  decide +kernel

/-- The assumptions of `C106_infer` can be met: a 1 -> 1 layer after another one, and the input 1. -/
example (b : Build) : ∃ (n m : Net F32), Built b n ∧ Built b m ∧
    n.get_layers = [.fc (exFc ⟨0x40000000⟩ ⟨0⟩), .fc (exFc ⟨0x3f800000⟩ ⟨0⟩)] ∧
    Identity (.fc (exFc ⟨0x3f800000⟩ ⟨0⟩)) ∧ m.get_layers.map params = (n.get_layers.eraseIdx 1).map params ∧
    m.get_layers ≠ [] ∧ (single (⟨0x3f800000⟩ : F32)).shape = n.get_input_shape ∧
    ∃ m1 s, m.infer b (single ⟨0x3f800000⟩) = .ok (.ok (), m1) ∧ m1.get_intermediate_state 1 = .ok s ∧
      ∀ i j k, s.shape.Inside i j k → Keeps (.fc (exFc ⟨0x3f800000⟩ ⟨0⟩)) (val s i j k) := by
  obtain ⟨n, h1, h2, h3⟩ := exFc2_built b ⟨0x40000000⟩ ⟨0⟩ ⟨0x3f800000⟩ ⟨0⟩
  obtain ⟨m, g1, g2, g3⟩ : ∃ m : Net F32, Built b m ∧ m.get_layers = [.fc (exFc ⟨0x40000000⟩ ⟨0⟩)] ∧
      m.get_input_shape = ⟨1, 1, 1⟩ :=
    ⟨_, .add_layer (Network.new .Inference) (.fc (exFc ⟨0x40000000⟩ ⟨0⟩)) (.ok ()) _ (.new _) (exFc_ok _ _)
      (by cases b <;> rfl), rfl, rfl⟩
  have hne : m.get_layers ≠ [] := by rw [g2]; exact List.cons_ne_nil _ _
  obtain ⟨m1, r1, r2, r3⟩ := infer_ok (b := b) (built_netOk g1) hne (single_wf ⟨0x3f800000⟩) g3.symm
  obtain ⟨s0, s, r4, r5, a1, _⟩ := r3 0 (.fc (exFc ⟨0x40000000⟩ ⟨0⟩)) (by
    change m.get_layers[0]? = _
    rw [g2]; rfl)
  obtain rfl : single ⟨0x3f800000⟩ = s0 := by rw [r2] at r4; exact Option.some.inj r4
  refine ⟨n, m, h1, g1, h2, exFc_identity, by rw [h2, g2]; rfl, hne, h3.symm, m1, s,
    r1, by unfold Network.get_intermediate_state; rw [r5], fun i j k hin => ?_⟩
  · rw [a1.2.1] at hin
    rw [applies_val a1 hin]
    obtain ⟨rfl, rfl, rfl⟩ := single_inside hin
    rw [exFc_at]
    obtain ⟨_, q1, q2⟩ := relu_spec (F32.add (F32.add (mk' false 0) (F32.mul ⟨0x40000000⟩ ⟨0x3f800000⟩)) ⟨0⟩)
    exact ⟨(q2 (by decide)).1, q1⟩

end Rusty
