import Verif.Lemmas.Folding
import Verif.Props.Network

/-! # C141: an affine preparation of the input can be folded into the first layer -/

namespace Rusty

open F32Ops Spec Exact

/-- C141: for every network that starts with a fully connected layer (or a convolutional one, if the preparation
is the same for all pixels of a channel) there is a network, in the same mode and equal in all other layers, whose
first layer takes over the preparation. -/
theorem C141_exists (b : Build) (n : Net ℝ) (hn : Built b n) (l : AnyLayer ℝ) (C : List (AnyLayer ℝ))
    (hnl : n.get_layers = l :: C) (a c : Nat → Nat → Nat → ℝ) (h : CanTakeOver a c l) :
    ∃ (m : Net ℝ) (l' : AnyLayer ℝ) (C' : List (AnyLayer ℝ)), Built b m ∧ m.get_layers = l' :: C' ∧
      TakesOver a c l l' ∧ C'.map params = C.map params ∧ m.run_state = n.run_state := by
  have hok := built_netOk hn
  have hnl : n.layers = l :: C := hnl
  have hl := hok.layers l (by rw [hnl]; exact List.mem_cons_self)
  obtain ⟨l1, q1, q2⟩ := takesOver_exists h hl
  obtain ⟨m, r1, r2, r3⟩ := assemble b n.run_state (l1 :: C)
    (fun k hk => by
      rcases List.mem_cons.mp hk with rfl | hk
      · exact q1
      · exact hok.layers k (by rw [hnl]; exact List.mem_cons_of_mem _ hk))
    (fun i k k' e e' => by
      cases i with
      | zero =>
        obtain rfl : l1 = k := Option.some.inj e
        rw [(takesOver_shape q2 hl q1).2]
        refine hok.chain.links 0 _ _ ?_ ?_ <;> rw [hnl]
        · rfl
        · exact e'
      | succ i =>
        refine hok.chain.links (i + 1) _ _ ?_ ?_ <;> rw [hnl]
        · exact e
        · exact e')
  cases hml : m.layers with
  | nil => rw [hml] at r2; cases r2
  | cons l' C' =>
    rw [hml, List.map_cons, List.map_cons] at r2
    obtain ⟨r4, r5⟩ := List.cons.inj r2
    exact ⟨m, l', C', r1, hml, takesOver_params q2 r4, r5, r3⟩

/-- C141: in exact arithmetic the network that takes over gives for every input the output, and all states after
the first layer, that the network gives for the prepared input. -/
theorem C141_infer (b : Build) (n m : Net ℝ) (hn : Built b n) (hm : Built b m) (l l' : AnyLayer ℝ)
    (C C' : List (AnyLayer ℝ)) (hnl : n.get_layers = l :: C) (hml : m.get_layers = l' :: C')
    (a c : Nat → Nat → Nat → ℝ) (h : TakesOver a c l l') (hC : C'.map params = C.map params)
    (x y : Tensor ℝ) (hx : x.WF) (hxs : x.shape = n.get_input_shape) (hy : y.WF) (hp : Prepared a c x y) :
    m.get_input_shape = n.get_input_shape ∧
    ∃ n1 m1, n.infer b y = .ok (.ok (), n1) ∧ m.infer b x = .ok (.ok (), m1) ∧ n1.get_output = m1.get_output ∧
      ∀ i, 0 < i → i ≤ n.get_layers.length → n1.get_intermediate_state i = m1.get_intermediate_state i := by
  have := realMaxZero
  have hokn := built_netOk hn
  have hokm := built_netOk hm
  have hnl : n.layers = l :: C := hnl
  have hml : m.layers = l' :: C' := hml
  have hCl : C'.length = C.length := by simpa using congrArg List.length hC
  have nlen : n.layers.length = C.length + 1 := by rw [hnl]; simp
  have mlen : m.layers.length = C.length + 1 := by rw [hml]; simp [hCl]
  have atl : n.layers[0]? = some l := by rw [hnl]; rfl
  have atl' : m.layers[0]? = some l' := by rw [hml]; rfl
  have hl := hokn.layers _ (List.mem_of_getElem? atl)
  have hl' := hokm.layers _ (List.mem_of_getElem? atl')
  obtain ⟨ts1, ts2⟩ := takesOver_shape h hl hl'
  have in1 : n.input_shape = l.get_input_shape := hokn.chain.first _ (by rw [List.head?_eq_getElem?]; exact atl)
  have in2 : m.input_shape = l'.get_input_shape := hokm.chain.first _ (by rw [List.head?_eq_getElem?]; exact atl')
  have hsh : m.input_shape = n.input_shape := by rw [in1, in2, ts1]
  have hnen : n.layers ≠ [] := fun h => by rw [h] at nlen; simp at nlen
  have hnem : m.layers ≠ [] := fun h => by rw [h] at mlen; simp at mlen
  have hxs : x.shape = n.input_shape := hxs
  obtain ⟨n1, c1, c2, c3⟩ := infer_ok (b := b) hokn hnen hy (hp.1.trans hxs)
  obtain ⟨m1, a1, a2, a3⟩ := infer_ok (b := b) hokm hnem hx (hxs.trans hsh.symm)
  refine ⟨hsh, n1, m1, c1, a1, ?_⟩
  have am : ∀ (i : Nat) l, m.layers[i]? = some l → ∃ s s', m1.intermediate_states[i]? = some s ∧
      m1.intermediate_states[i + 1]? = some s' ∧ applies b l s s' := fun i l hi => by
    obtain ⟨s, s', h1, h2, h3, _⟩ := a3 i l hi; exact ⟨s, s', h1, h2, h3⟩
  have an : ∀ (i : Nat) l, n.layers[i]? = some l → ∃ s s', n1.intermediate_states[i]? = some s ∧
      n1.intermediate_states[i + 1]? = some s' ∧ applies b l s s' := fun i l hi => by
    obtain ⟨s, s', h1, h2, h3, _⟩ := c3 i l hi; exact ⟨s, s', h1, h2, h3⟩
  have k2 : n1.intermediate_states[1]? = m1.intermediate_states[1]? := by
    obtain ⟨s, z, h1, h2, h3⟩ := an _ _ atl
    obtain ⟨s', z', g1, g2, g3⟩ := am _ _ atl'
    obtain rfl : y = s := by rw [c2] at h1; exact Option.some.inj h1
    obtain rfl : x = s' := by rw [a2] at g1; exact Option.some.inj g1
    rw [Nat.zero_add] at h2 g2
    rw [h2, g2, tensor_ext h3.1 g3.1 (h3.2.1.trans (ts2.symm.trans g3.2.1.symm)) fun i j k hin => ?_]
    rw [h3.2.1] at hin
    rw [applies_val h3 hin, applies_val g3 (by rw [ts2]; exact hin),
      takesOver_value h hl hl' (hxs.trans in1) hp hin]
  have k3 : ∀ i, i ≤ C.length → n1.intermediate_states[1 + i]? = m1.intermediate_states[1 + i]? := by
    intro i hi
    have := states_follow (b := b) (ls := n.layers) (ls' := C')
      (ss' := m1.intermediate_states.drop 1) (ss := n1.intermediate_states) 1
      (fun i l' h => by
        have := congrArg (fun z => z[i]?) hC
        simp only [List.getElem?_map, h, Option.map_some] at this
        obtain ⟨l, q1, q2⟩ := Option.map_eq_some_iff.mp this.symm
        refine ⟨l, ?_, params_output q2, layerAt_mode q2⟩
        rw [hnl, Nat.add_comm, List.getElem?_cons_succ]
        exact q1)
      (by rw [List.getElem?_drop]; exact k2) an
      (fun i l' h => by
        obtain ⟨s, s', h1, h2, h3⟩ := am (1 + i) l' (by rw [hml, Nat.add_comm, List.getElem?_cons_succ]; exact h)
        exact ⟨s, s', by rw [List.getElem?_drop]; exact h1, by rw [List.getElem?_drop]; exact h2, h3⟩)
      i (by omega)
    rwa [List.getElem?_drop] at this
  refine ⟨?_, fun i hi hi2 => ?_⟩
  · obtain ⟨u, u1, u2⟩ := infer_last_state hokn hnen c1
    obtain ⟨v, v1, v2⟩ := infer_last_state hokm hnem a1
    rw [show n.layers.length = 1 + C.length by omega, k3 _ (Nat.le_refl _),
      show 1 + C.length = m.layers.length by omega, v2] at u2
    rw [u1, v1, Option.some.inj u2]
  · have hi2 : i ≤ n.layers.length := hi2
    have := k3 (i - 1) (by omega)
    rw [show 1 + (i - 1) = i by omega] at this
    unfold Network.get_intermediate_state
    rw [this]

/-! ## Examples -/

/-- a 1x1 fully connected layer with weight `w` and bias `v` -/
noncomputable def exScalar (w v : ℝ) : FullyConnectedLayer ℝ :=
  ⟨⟨⟨1, 1, 1⟩, ⟨1, 1, 1⟩, [w]⟩, ⟨⟨1, 1, 1⟩, ⟨1, 1, 1⟩, [0]⟩, ⟨⟨1, 1, 1⟩, ⟨1, 1, 1⟩, [0]⟩,
    ⟨⟨1, 1, 1⟩, ⟨1, 1, 1⟩, [v]⟩, ⟨⟨1, 1, 1⟩, ⟨1, 1, 1⟩, [0]⟩, ⟨⟨1, 1, 1⟩, ⟨1, 1, 1⟩, [0]⟩, "f", .Inference⟩

theorem exScalar_ok (w v : ℝ) : (exScalar w v).Ok :=
  ⟨wf_data (zeros_wf (s := ⟨1, 1, 1⟩) (by decide)) _ rfl, wf_data (zeros_wf (s := ⟨1, 1, 1⟩) (by decide)) _ rfl, rfl,
    rfl, fun h => by cases h⟩

/-- grey values 0..255 moved to -1..1 (`x / 127.5 - 1`): the layer with weight 51 and bias 60 becomes one with
weight 0.4 and bias 9, and there are networks of both -/
example (b : Build) : TakesOver (fun _ _ _ => 1 / 127.5) (fun _ _ _ => -1) (.fc (exScalar 51 60))
      (.fc (exScalar 0.4 9)) ∧
    ∃ n m : Net ℝ, Built b n ∧ Built b m ∧ n.get_layers = [.fc (exScalar 51 60)] ∧
      m.get_layers = [.fc (exScalar 0.4 9)] ∧ n.get_input_shape = ⟨1, 1, 1⟩ := by
  refine ⟨⟨rfl, fun o ho => ?_⟩, ?_⟩
  · obtain rfl : o = 0 := Nat.lt_one_iff.mp ho
    refine ⟨?_, fun i hi => ?_⟩
    · change (9 : ℝ) = 60 + ∑ i ∈ Finset.range 1, _
      rw [Finset.sum_range_one]
      change (9 : ℝ) = 60 + 51 * (-1)
      norm_num
    · obtain rfl : i = 0 := Nat.lt_one_iff.mp hi
      change (0.4 : ℝ) = 51 * (1 / 127.5)
      norm_num
  · cases b <;> exact ⟨_, _, .add_layer (Network.new .Inference) (.fc (exScalar 51 60)) (.ok ()) _ (.new _)
      (exScalar_ok _ _) rfl, .add_layer (Network.new .Inference) (.fc (exScalar 0.4 9)) (.ok ()) _ (.new _)
      (exScalar_ok _ _) rfl, rfl, rfl, rfl⟩

/-- a prepared input: 255 becomes 1 -/
example : Prepared (fun _ _ _ => 1 / 127.5) (fun _ _ _ => -1) ⟨⟨1, 1, 1⟩, ⟨1, 1, 1⟩, [255]⟩
    ⟨⟨1, 1, 1⟩, ⟨1, 1, 1⟩, [1]⟩ := by
  refine ⟨rfl, fun i j k h => ?_⟩
  obtain rfl : i = 0 := Nat.lt_one_iff.mp h.1
  obtain rfl : j = 0 := Nat.lt_one_iff.mp h.2.1
  obtain rfl : k = 0 := Nat.lt_one_iff.mp h.2.2
  change (1 : ℝ) = 1 / 127.5 * 255 + -1
  norm_num

end Rusty
