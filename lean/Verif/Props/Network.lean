import Verif.Spec.Toy
import Verif.Lemmas.Backward
import Verif.Props.FullyConnected
import Verif.Props.Pooling

/-! # C34-C43, C51, C55, C56: networks -/

namespace Rusty

open F32Ops Spec

variable {F : Type} [F32Ops F]

/-! ## C34 -/

/-- C34: at any point of any history of calls, the layers form a chain, the network's shapes are
those of its ends, and there is one state more than layers, each of the shape required. -/
theorem C34_chain [F32Bits F] (b : Build) (n : Net F) (h : Reach b n) :
    (∀ i l l', n.get_layers[i]? = some l → n.get_layers[i + 1]? = some l' →
      l.get_output_shape = l'.get_input_shape) ∧
    (∀ l, n.get_layers.head? = some l → n.get_input_shape = l.get_input_shape) ∧
    (∀ l, n.get_layers.getLast? = some l → n.get_output_shape = l.get_output_shape) ∧
    n.intermediate_states.length = (if n.get_layers = [] then 0 else n.get_layers.length + 1) ∧
    ∀ i l, n.get_layers[i]? = some l → ∃ s s', n.get_intermediate_state i = .ok s ∧
      n.get_intermediate_state (i + 1) = .ok s' ∧ s.shape = l.get_input_shape ∧
      s'.shape = l.get_output_shape := by
  have hc := reach_chain h
  refine ⟨hc.links, hc.first, hc.last, chain_length hc, fun i l hi => ?_⟩
  obtain ⟨s, s', h1, h2, h3, h4⟩ := chain_state hc hi
  refine ⟨s, s', ?_, ?_, h3, h4⟩
  · unfold Network.get_intermediate_state; rw [h1]
  · unfold Network.get_intermediate_state; rw [h2]

/-- the training-mode network of `exFC`, 2 -> 3 -/
def exNet : Net Int :=
  { layers := [.fc exFC], intermediate_states := [⟨⟨1, 2, 2⟩, ⟨2, 1, 1⟩, [0, 0]⟩,
      ⟨⟨1, 3, 3⟩, ⟨3, 1, 1⟩, [0, 0, 0]⟩],
    intermediate_gradients := [⟨⟨1, 2, 2⟩, ⟨2, 1, 1⟩, [0, 0]⟩, ⟨⟨1, 3, 3⟩, ⟨3, 1, 1⟩, [0, 0, 0]⟩],
    input_shape := ⟨2, 1, 1⟩, output_shape := ⟨3, 1, 1⟩, run_state := .Training }

/-- a softmax layer on columns of three -/
def exSM : SoftmaxLayer Int :=
  { shape := ⟨3, 1, 1⟩, name := "s", run_state := .Training,
    intermediate1 := ⟨⟨1, 1, 1⟩, ⟨1, 1, 1⟩, [0]⟩,
    intermediate2 := ⟨⟨1, 3, 3⟩, ⟨3, 1, 1⟩, [0, 0, 0]⟩ }

theorem exSM_ok : exSM.Ok :=
  ⟨by decide, fun _ => ⟨⟨⟨by decide, rfl, rfl, rfl, rfl⟩, rfl⟩, ⟨by decide, rfl, rfl, rfl, rfl⟩, rfl⟩⟩

open Toy in
theorem exNet_add (b : Build) : (Network.new .Training : Net Int).add_layer b (.fc exFC) =
    .ok (.ok (), exNet) := by cases b <;> rfl

open Toy in
theorem exNet_trains (b : Build) : Trains b exNet :=
  .add_layer _ (.fc exFC) _ _ .new exFC_ok (exNet_add b)

open Toy in
theorem exNet_built (b : Build) : Built b exNet :=
  .add_layer _ (.fc exFC) _ _ (.new _) exFC_ok (exNet_add b)

open Toy in
/-- two layers in a chain; a third that does not fit is refused -/
example : ∃ n n', exNet.add_layer .debug (.sm exSM) = .ok (.ok (), n) ∧ n.layers.length = 2 ∧
    n.add_layer .debug (.fc exFC) = .ok (.error "Last output and new input shapes don't match", n') ∧
    n'.layers.length = 2 := ⟨_, _, rfl, rfl, rfl, rfl⟩

open Toy in
example : ∃ n : Net UInt32, Reach .debug n ∧ n.get_layers.length = 1 :=
  ⟨_, .add_layer _ (.mp exMP) _ _ (.new .Inference) rfl, rfl⟩

/-! ## C35 -/

/-- C35: `add_layer` on a network of any history accepts the layer exactly when the network is empty
or the layer's input shape is the network's output shape; then the layer is appended, in the mode of
the network and with its parameters; otherwise nothing has changed. -/
theorem C35_add_layer [F32Bits F] (b : Build) (n : Net F) (hn : Reach b n) (l : AnyLayer F) (r : Res)
    (n' : Net F) (h : n.add_layer b l = .ok (r, n')) :
    (r = .ok () ↔ n.get_layers = [] ∨ l.get_input_shape = n.get_output_shape) ∧
    (r ≠ .ok () → n' = n) ∧
    (r = .ok () → ∃ l', n'.get_layers = n.get_layers ++ [l'] ∧ params l' = params l ∧
      l'.get_run_mode = n.get_run_state ∧ n'.get_run_state = n.get_run_state ∧
      n'.get_output_shape = l.get_output_shape ∧
      n'.get_input_shape =
        if n.get_layers = [] then l.get_input_shape else n.get_input_shape) := by
  have hc := reach_chain hn
  have hfit : (∀ last, n.layers.getLast? = some last → last.get_output_shape = l.get_input_shape) ↔
      (n.layers = [] ∨ l.get_input_shape = n.get_output_shape) := by
    cases e : n.layers.getLast? with
    | none =>
      have := List.getLast?_eq_none_iff.mp e
      exact ⟨fun _ => .inl this, fun _ _ h => by cases h⟩
    | some last =>
      have h2 := hc.last last e
      constructor
      · intro h
        exact .inr (by rw [h2, h last rfl])
      · rintro (h | h) l0 hl0
        · rw [h] at e; cases e
        · cases hl0; rw [h, h2]
  rcases add_layer_effect n l _ h with ⟨⟨last, h1, h2⟩, ⟨e, h3⟩, h4⟩ |
    ⟨h1, h2, l', ts, gs, h3, h4, h5, h6⟩
  · simp only at h3 h4
    subst h3
    refine ⟨⟨(fun h => by cases h), fun h => ?_⟩, fun _ => h4, fun h => by cases h⟩
    exact absurd (hfit.mpr h last h1) h2
  · simp only at h2 h6
    subst h2 h6
    obtain ⟨s1, s2, _, _⟩ := switchTo_effect _ _ _ h3
    exact ⟨⟨fun _ => hfit.mp h1, fun _ => rfl⟩, fun h => absurd rfl h,
      fun _ => ⟨l', rfl, s2, s1, rfl, rfl, rfl⟩⟩

/-- C35: and it does return, for every well formed layer -/
theorem C35_returns (b : Build) (n : Net F) (l : AnyLayer F) (hl : l.Ok) :
    ∃ r n', n.add_layer b l = .ok (r, n') := add_layer_returns n hl

/-- C35, why it is stated for calls that return: softmax layers of shapes too large for `u32` can be
made, and adding one to a new network panics in debug builds. -/
theorem C35_panic_negation (m : NetworkRunState) (s : TensorShape) (name : String)
    (h : 2 ^ 32 ≤ s.di.toNat * s.dj.toNat) : ∃ l : SoftmaxLayer F,
    SoftmaxLayer.new .debug s name = .ok (.ok l) ∧ l.shape = s ∧
    (Network.new m : Net F).add_layer .debug (.sm l) = .error .overflow := by
  have hn : (Tensor.new .debug s : Exec (Tensor F)) = .error .overflow := by
    unfold Tensor.new TensorShape.total_size mulU
    rw [if_neg (by omega)]
    rfl
  refine ⟨⟨s, name, zeros ⟨1, 1, 1⟩, zeros ⟨1, 1, 1⟩, .Inference⟩, ?_, rfl, ?_⟩
  · unfold SoftmaxLayer.new SoftmaxLayer.fill_from_state SoftmaxLayer.empty
    simp only [SoftmaxLayer.update_tensors, empty_ok, ok_bind, pure_bind]
    rfl
  · have h1 : (Tensor.new .debug (TensorShape.new_1d 1) : Exec (Tensor F)) = .ok (zeros ⟨1, 1, 1⟩) :=
      empty_ok .debug
    cases m
    · have he : Network.enter_mode .debug (Network.new .Inference : Net F).run_state
          (AnyLayer.sm ⟨s, name, zeros ⟨1, 1, 1⟩, zeros ⟨1, 1, 1⟩, .Inference⟩ : AnyLayer F) =
          .ok (.sm ⟨s, name, zeros ⟨1, 1, 1⟩, zeros ⟨1, 1, 1⟩, .Inference⟩) := by
        change (AnyLayer.sm _ : AnyLayer F).switch_to_inference .debug = _
        simp only [AnyLayer.switch_to_inference, SoftmaxLayer.switch_to_inference,
          SoftmaxLayer.update_tensors, empty_ok, ok_bind]
        rfl
      unfold Network.add_layer
      rw [he]
      simp only [ok_bind, Network.new, List.getLast?_nil]
      change (do let t1 ← (Tensor.new .debug s : Exec (Tensor F)); _) = _
      rw [hn]
      rfl
    · have he : Network.enter_mode .debug (Network.new .Training : Net F).run_state
          (AnyLayer.sm ⟨s, name, zeros ⟨1, 1, 1⟩, zeros ⟨1, 1, 1⟩, .Inference⟩ : AnyLayer F) =
          .error .overflow := by
        change (AnyLayer.sm _ : AnyLayer F).switch_to_training .debug = _
        simp only [AnyLayer.switch_to_training, SoftmaxLayer.switch_to_training,
          SoftmaxLayer.update_tensors, h1, hn, ok_bind]
        rfl
      unfold Network.add_layer
      rw [he]
      rfl

example : (2 : Nat) ^ 32 ≤ (65536 : UInt32).toNat * (65536 : UInt32).toNat := by decide

open Toy in
example : ∃ n e, exNet.add_layer .debug (.sm exSM) = .ok (.ok (), n) ∧
    exNet.add_layer .debug (.mp exMP) = .ok (.error e, exNet) := ⟨_, _, rfl, rfl⟩

/-! ## C36 -/

/-- C36: `infer` computes the composition of the layers and leaves every intermediate result. -/
theorem C36_infer (b : Build) (n : Net F) (hn : Built b n) (hne : n.get_layers ≠ []) (x : Tensor F)
    (hx : x.WF) (hxs : x.shape = n.get_input_shape) :
    ∃ n', n.infer b x = .ok (.ok (), n') ∧ n'.get_intermediate_state 0 = .ok x ∧
      (∀ i l, n.get_layers[i]? = some l → ∃ s s', n'.get_intermediate_state i = .ok s ∧
        n'.get_intermediate_state (i + 1) = .ok s' ∧ applies b l s s') ∧
      n'.get_output = n'.get_intermediate_state n.get_layers.length := by
  have hok := built_netOk hn
  obtain ⟨n', h1, h2, h3⟩ := infer_ok (b := b) hok hne hx hxs
  refine ⟨n', h1, ?_, fun i l hi => ?_, ?_⟩
  · unfold Network.get_intermediate_state; rw [h2]
  · obtain ⟨s, s', e1, e2, e3, _⟩ := h3 i l hi
    refine ⟨s, s', ?_, ?_, e3⟩
    · unfold Network.get_intermediate_state; rw [e1]
    · unfold Network.get_intermediate_state; rw [e2]
  · have hc' := uses_chain hok.chain (.infer _ _ _ _ h1)
    have hl : n'.layers.length = n.layers.length := forall₂_length (infer_effect n x _ h1).1
    have hpos : n.layers.length ≠ 0 := fun e => hne (List.length_eq_zero_iff.mp e)
    have hlen := chain_length hc'
    rw [if_neg (fun h => hpos (by rw [← hl, h]; rfl)), hl] at hlen
    unfold Network.get_output Network.get_intermediate_state Network.get_layers
    rw [if_neg (by omega), List.getLast?_eq_getElem?, hlen, show n.layers.length + 1 - 1 =
      n.layers.length by omega, List.getElem?_eq_getElem (by omega)]

open Toy in
example : ∃ n' y, exNet.infer .debug ⟨⟨1, 2, 2⟩, ⟨2, 1, 1⟩, [10, 1]⟩ = .ok (.ok (), n') ∧
    n'.get_output = .ok y ∧ y.data = [9, 0, 0] := ⟨_, _, rfl, rfl, rfl⟩

/-! ## C37 -/

/-- C37: a tensor of another shape is refused and nothing changes. -/
theorem C37_shape (b : Build) (n : Net F) (x : Tensor F) (h : x.shape ≠ n.get_input_shape) :
    ∃ e, n.infer b x = .ok (.error e, n) := by
  have h : x.shape ≠ n.input_shape := h
  unfold Network.infer
  rw [if_pos h]
  exact ⟨_, rfl⟩

/-- C37: a network without layers refuses every input and nothing changes. -/
theorem C37_empty [F32Bits F] (b : Build) (n : Net F) (hn : Reach b n) (h : n.get_layers = [])
    (x : Tensor F) : ∃ e, n.infer b x = .ok (.error e, n) := by
  have h : n.layers = [] := h
  have hlen := chain_length (reach_chain hn)
  rw [if_pos h] at hlen
  unfold Network.infer
  split
  · exact ⟨_, rfl⟩
  · rw [if_pos (by omega)]
    exact ⟨_, rfl⟩

open Toy in
example : ∃ e, exNet.infer .debug (zeros ⟨3, 1, 1⟩) = .ok (.error e, exNet) := ⟨_, rfl⟩

open Toy in
example : ∃ e, (Network.new .Training : Net Int).infer .debug (zeros ⟨0, 0, 0⟩) =
    .ok (.error e, Network.new .Training) := ⟨_, rfl⟩

/-! ## C38, C39 -/

/-- C38, for any float semantics: after two histories that leave the layers in the same modes, the
same input gives the same states and output. -/
theorem C38_same_modes (b : Build) (n n1 n2 : Net F) (hn : Built b n) (h1 : UsesMany b n n1)
    (h2 : UsesMany b n n2)
    (hm : n1.get_layers.map AnyLayer.get_run_mode = n2.get_layers.map AnyLayer.get_run_mode)
    (hne : n.get_layers ≠ []) (x : Tensor F) (hx : x.WF) (hxs : x.shape = n1.get_input_shape) :
    ∃ m1 m2, n1.infer b x = .ok (.ok (), m1) ∧ n2.infer b x = .ok (.ok (), m2) ∧
      m1.intermediate_states = m2.intermediate_states ∧ m1.get_output = m2.get_output := by
  have hok := built_netOk hn
  have p1 := usesMany_params h1
  have p2 := usesMany_params h2
  have hne1 : n1.layers ≠ [] := by
    intro e
    rw [e] at p1
    exact hne (List.map_eq_nil_iff.mp p1.symm)
  obtain ⟨m1, m2, a1, a2, a3⟩ := infer_same (b := b) (usesMany_netOk hok h1) (usesMany_netOk hok h2)
    (p1.trans p2.symm) (fun i l l' e1 e2 s a c d => by
      obtain ⟨l0, e3, e4⟩ := map_get (p1.trans p2.symm) e1
      rw [e2] at e3; cases e3
      obtain ⟨l0, e3, e5⟩ := map_get hm e1
      have e3 : n2.layers[i]? = some l0 := e3
      rw [e2] at e3; cases e3
      exact layerAt_congr e4 e5 s a c d) hne1 hx hxs
  exact ⟨m1, m2, a1, a2, a3, get_output_congr a3⟩

/-- C38 and C39, where `max(v, 0)` is `v` if `v > 0` and `0` otherwise: whatever calls of `infer`,
`backward` and mode switches preceded, the same input gives the same states and output. -/
theorem C38_history [MaxZero F] (b : Build) (n n1 n2 : Net F) (hn : Built b n)
    (h1 : UsesMany b n n1) (h2 : UsesMany b n n2) (hne : n.get_layers ≠ []) (x : Tensor F)
    (hx : x.WF) (hxs : x.shape = n1.get_input_shape) :
    ∃ m1 m2, n1.infer b x = .ok (.ok (), m1) ∧ n2.infer b x = .ok (.ok (), m2) ∧
      m1.intermediate_states = m2.intermediate_states ∧ m1.get_output = m2.get_output := by
  have hok := built_netOk hn
  have p1 := usesMany_params h1
  have p2 := usesMany_params h2
  have hne1 : n1.layers ≠ [] := by
    intro e
    rw [e] at p1
    exact hne (List.map_eq_nil_iff.mp p1.symm)
  obtain ⟨m1, m2, a1, a2, a3⟩ := infer_same (b := b) (usesMany_netOk hok h1) (usesMany_netOk hok h2)
    (p1.trans p2.symm) (fun i l l' e1 e2 s a c d => by
      obtain ⟨l0, e3, e4⟩ := map_get (p1.trans p2.symm) e1
      rw [e2] at e3; cases e3
      exact layerAt_mode e4 s a c d) hne1 hx hxs
  exact ⟨m1, m2, a1, a2, a3, get_output_congr a3⟩

/-- C39: the same network switched to training and switched to inference predicts the same. -/
theorem C39_modes [MaxZero F] (b : Build) (n : Net F) (hn : Built b n) (hne : n.get_layers ≠ [])
    (x : Tensor F) (hx : x.WF) (hxs : x.shape = n.get_input_shape) :
    ∃ nt ni m1 m2, n.switch_to_training b = .ok nt ∧ n.switch_to_inference b = .ok ni ∧
      (∀ l ∈ nt.get_layers, l.get_run_mode = .Training) ∧
      (∀ l ∈ ni.get_layers, l.get_run_mode = .Inference) ∧
      nt.infer b x = .ok (.ok (), m1) ∧ ni.infer b x = .ok (.ok (), m2) ∧
      m1.intermediate_states = m2.intermediate_states ∧ m1.get_output = m2.get_output := by
  have hok := built_netOk hn
  obtain ⟨nt, ht⟩ : ∃ nt, n.switch_to_training b = .ok nt := by
    obtain ⟨ls, h1⟩ := mapM_ok (LayerOps.switch_to_training b) n.layers
      (fun l hl => switch_training_ok (b := b) (ok_shapesFit (hok.layers l hl)))
    obtain ⟨gs, h2⟩ := mapM_ok (fun t : Tensor F => (Tensor.new b t.shape : Exec (Tensor F)))
      n.intermediate_states (fun t ht => ⟨_, new_ok (states_fit hok t ht)⟩)
    exact ⟨_, by unfold Network.switch_to_training; rw [h1, ok_bind, h2]; rfl⟩
  obtain ⟨ni, hi⟩ : ∃ ni, n.switch_to_inference b = .ok ni := by
    obtain ⟨ls, h1⟩ := mapM_ok (LayerOps.switch_to_inference b) n.layers
      (fun l _ => by
        obtain ⟨l', h, _⟩ := switch_inference_ok (b := b) l
        exact ⟨l', h⟩)
    exact ⟨_, by unfold Network.switch_to_inference; rw [h1]; rfl⟩
  have et := net_switch_training_effect n _ ht
  have ei := net_switch_inference_effect n _ hi
  obtain ⟨m1, m2, h⟩ := C38_history b n nt ni hn (.more _ _ _ (.none _) (.switch_to_training _ _ ht))
    (.more _ _ _ (.none _) (.switch_to_inference _ _ hi)) hne x hx
    (by rw [hxs]; exact et.2.2.2.1.symm)
  refine ⟨nt, ni, m1, m2, ht, hi, ?_, ?_, h⟩
  · intro l hl
    obtain ⟨l0, _, h2⟩ := forall₂_mem et.2.1 hl
    exact (switch_training_effect l0 l h2).1
  · intro l hl
    obtain ⟨l0, _, h2⟩ := forall₂_mem ei.2.1 hl
    exact (switch_inference_effect l0 l h2).1

open Toy in
/-- the hypotheses hold of `exNet`, and a history of training and switching does not show -/
example : ∃ n1 n2 n3 n4 n5 y, exNet.infer .debug ⟨⟨1, 2, 2⟩, ⟨2, 1, 1⟩, [1, 5]⟩ = .ok (.ok (), n1) ∧
    n1.backward .debug ⟨⟨1, 3, 3⟩, ⟨3, 1, 1⟩, [1, 1, 1]⟩ = .ok (.ok (), n2) ∧
    n2.switch_to_inference .debug = .ok n3 ∧
    n3.infer .debug ⟨⟨1, 2, 2⟩, ⟨2, 1, 1⟩, [10, 1]⟩ = .ok (.ok (), n4) ∧
    exNet.infer .debug ⟨⟨1, 2, 2⟩, ⟨2, 1, 1⟩, [10, 1]⟩ = .ok (.ok (), n5) ∧
    n4.get_output = .ok y ∧ n5.get_output = .ok y ∧ y.data = [9, 0, 0] ∧
    n3.get_layers.map AnyLayer.get_run_mode ≠ exNet.get_layers.map AnyLayer.get_run_mode :=
  ⟨_, _, _, _, _, _, rfl, rfl, rfl, rfl, rfl, rfl, rfl, rfl, by decide⟩

/-! ## C40 -/

/-- C40: what the getters of a network of any history answer. -/
theorem C40_getters [F32Bits F] (b : Build) (n : Net F) (hn : Reach b n) :
    ((∃ e, n.get_output = .error e) ↔ n.get_layers = []) ∧
    (n.get_layers ≠ [] → ∃ y, n.get_output = .ok y ∧ y.shape = n.get_output_shape ∧
      n.get_intermediate_state n.get_layers.length = .ok y) ∧
    ∀ id, (∃ s, n.get_intermediate_state id = .ok s) ↔
      n.get_layers ≠ [] ∧ id ≤ n.get_layers.length := by
  have hc := reach_chain hn
  have hlen := chain_length hc
  have hst : ∀ id, (∃ s, n.get_intermediate_state id = .ok s) ↔
      id < n.intermediate_states.length := by
    intro id
    unfold Network.get_intermediate_state
    constructor
    · rintro ⟨s, h⟩
      cases e : n.intermediate_states[id]? with
      | none => rw [e] at h; cases h
      | some t =>
        rcases Nat.lt_or_ge id n.intermediate_states.length with h | h
        · exact h
        · rw [List.getElem?_eq_none h] at e; cases e
    · intro h
      rw [List.getElem?_eq_getElem h]
      exact ⟨_, rfl⟩
  by_cases hne : n.layers = []
  · rw [if_pos hne] at hlen
    refine ⟨⟨fun _ => hne, fun _ => ?_⟩, fun h => absurd hne h, fun id => ?_⟩
    · unfold Network.get_output
      rw [if_pos (by omega)]
      exact ⟨_, rfl⟩
    · rw [hst]
      exact ⟨fun h => by omega, fun h => absurd hne h.1⟩
  · rw [if_neg hne] at hlen
    have hpos : n.layers.length ≠ 0 := fun e => hne (List.length_eq_zero_iff.mp e)
    have hl : n.layers[n.layers.length - 1]? = some n.layers[n.layers.length - 1] :=
      List.getElem?_eq_getElem (by omega)
    obtain ⟨_, y, _, e2, _, e4⟩ := chain_state hc hl
    rw [show n.layers.length - 1 + 1 = n.layers.length by omega] at e2
    have hout : n.get_output = .ok y := by
      unfold Network.get_output
      rw [if_neg (by omega), List.getLast?_eq_getElem?, hlen, show n.layers.length + 1 - 1 =
        n.layers.length by omega, e2]
    refine ⟨⟨(fun ⟨e, h⟩ => by rw [hout] at h; cases h), fun h => absurd h hne⟩, fun _ =>
      ⟨y, hout, ?_, ?_⟩, fun id => ?_⟩
    · rw [e4]
      exact (hc.last _ (by rw [List.getLast?_eq_getElem?]; exact hl)).symm
    · unfold Network.get_intermediate_state Network.get_layers
      rw [e2]
    · rw [hst, hlen]
      exact ⟨fun h => ⟨hne, by unfold Network.get_layers; omega⟩, fun h => by
        have := h.2
        unfold Network.get_layers at this
        omega⟩

open Toy in
example : (∃ y, exNet.get_output = .ok y) ∧ (∃ e, exNet.get_intermediate_state 2 = .error e) ∧
    ∃ e, (Network.new .Inference : Net Int).get_output = .error e := ⟨⟨_, rfl⟩, ⟨_, rfl⟩, ⟨_, rfl⟩⟩

/-! ## C41 -/

/-- C40: `new` gives a network in the mode asked for, without layers; as long as there are no layers, both shapes are
0x0x0, so that `infer` accepts no tensor with entries. -/
theorem C40_empty [F32Bits F] (b : Build) :
    (∀ m, (Network.new m : Net F).get_layers = [] ∧ (Network.new m : Net F).get_run_state = m) ∧
    ∀ n : Net F, Reach b n → n.get_layers = [] →
      n.get_input_shape = ⟨0, 0, 0⟩ ∧ n.get_output_shape = ⟨0, 0, 0⟩ := by
  refine ⟨fun m => ⟨rfl, rfl⟩, fun n hn => ?_⟩
  have add : ∀ (n : Net F) l r n', (n.layers = [] → n.input_shape = ⟨0, 0, 0⟩ ∧ n.output_shape = ⟨0, 0, 0⟩) →
      n.add_layer b l = .ok (r, n') → (n'.layers = [] → n'.input_shape = ⟨0, 0, 0⟩ ∧ n'.output_shape = ⟨0, 0, 0⟩) := by
    intro n l r n' ih h
    rcases add_layer_effect n l _ h with ⟨_, _, rfl⟩ | ⟨_, _, l', _, _, _, _, _, rfl⟩
    · exact ih
    · intro h
      simp at h
  change n.layers = [] → n.input_shape = ⟨0, 0, 0⟩ ∧ n.output_shape = ⟨0, 0, 0⟩
  induction hn with
  | new m => exact fun _ => ⟨rfl, rfl⟩
  | add_layer n l r n' _ h ih => exact add n l r n' ih h
  | uses n n' _ h ih =>
    have hp := uses_params h
    intro he
    rw [he] at hp
    have ih := ih (List.map_eq_nil_iff.mp hp.symm)
    cases h with
    | infer x r _ h =>
      obtain ⟨_, _, _, e4, e5, _⟩ := infer_effect n x _ h
      exact ⟨e4.trans ih.1, e5.trans ih.2⟩
    | backward g r _ h =>
      obtain ⟨_, _, _, e4, e5, _⟩ := backward_effect n g _ h
      exact ⟨e4.trans ih.1, e5.trans ih.2⟩
    | switch_to_training _ h =>
      obtain ⟨_, _, _, e4, e5, _⟩ := net_switch_training_effect n _ h
      exact ⟨e4.trans ih.1, e5.trans ih.2⟩
    | switch_to_inference _ h =>
      obtain ⟨_, _, _, e4, e5, _⟩ := net_switch_inference_effect n _ h
      exact ⟨e4.trans ih.1, e5.trans ih.2⟩
  | load_from_file n fs name r n' _ h ih =>
    exact load_inv (fun n => n.layers = [] → n.input_shape = ⟨0, 0, 0⟩ ∧ n.output_shape = ⟨0, 0, 0⟩) add n fs name ih _ h

/-- C41 for histories without `switch_to_inference`: the layers are in the mode the network reports.

Partial: `switch_to_inference` breaks it, see `C41_negation`. -/
theorem C41_modes_agree_partial [F32Bits F] (b : Build) (n : Net F) (hn : ReachNoInf b n) :
    ∀ l ∈ n.get_layers, l.get_run_mode = n.get_run_state := by
  have hadd : ∀ (n : Net F) (l : AnyLayer F) (r : Res) (n' : Net F),
      (∀ l ∈ n.layers, l.get_run_mode = n.run_state) → n.add_layer b l = .ok (r, n') →
      ∀ l ∈ n'.layers, l.get_run_mode = n'.run_state := by
    intro n l r n' ih h
    rcases add_layer_effect n l _ h with ⟨_, _, rfl⟩ | ⟨_, _, l', ts, gs, h3, _, _, rfl⟩
    · exact ih
    · intro a ha
      rcases List.mem_append.mp ha with ha | ha
      · exact ih a ha
      · rw [List.mem_singleton.mp ha]
        exact (switchTo_effect _ _ _ h3).1
  have hlike : ∀ {n n' : Net F}, (∀ l ∈ n.layers, l.get_run_mode = n.run_state) →
      List.Forall₂ Like n'.layers n.layers → n'.run_state = n.run_state →
      ∀ l ∈ n'.layers, l.get_run_mode = n'.run_state := by
    intro n n' ih h1 h2 l hl
    obtain ⟨l0, h3, h4⟩ := forall₂_mem h1 hl
    rw [like_mode h4, h2]
    exact ih l0 h3
  change ∀ l ∈ n.layers, l.get_run_mode = n.run_state
  induction hn with
  | new m => intro l h; cases h
  | add_layer n l r n' _ h ih => exact hadd n l r n' ih h
  | infer n x r n' _ h ih =>
    have := infer_effect n x _ h
    exact hlike ih this.1 this.2.2.2.2.2
  | backward n g r n' _ h ih =>
    have := backward_effect n g _ h
    exact hlike ih this.1 this.2.2.2.2.2
  | switch_to_training n n' _ h ih =>
    obtain ⟨e1, e2, _⟩ := net_switch_training_effect n _ h
    intro l hl
    obtain ⟨l0, _, h2⟩ := forall₂_mem e2 hl
    rw [e1]
    exact (switch_training_effect l0 l h2).1
  | load_from_file n fs name r n' _ h ih =>
    exact load_inv (fun n => ∀ l ∈ n.layers, l.get_run_mode = n.run_state) hadd n fs name ih _ h

/-- C41: what each call does to the reported mode: `new` sets it, `switch_to_training` makes it
`Training`, `add_layer`, `infer` and `backward` keep it.

Partial: the same is false of `switch_to_inference`, see `C41_negation`. -/
theorem C41_run_state_partial (b : Build) (n n' : Net F) (r : Res) :
    (∀ m, (Network.new m : Net F).get_run_state = m) ∧
    (n.switch_to_training b = .ok n' → n'.get_run_state = .Training) ∧
    (∀ l, n.add_layer b l = .ok (r, n') → n'.get_run_state = n.get_run_state) ∧
    (∀ x, n.infer b x = .ok (r, n') → n'.get_run_state = n.get_run_state) ∧
    ∀ g, n.backward b g = .ok (r, n') → n'.get_run_state = n.get_run_state := by
  refine ⟨fun _ => rfl, fun h => (net_switch_training_effect n _ h).1, fun l h => ?_,
    fun x h => (infer_effect n x _ h).2.2.2.2.2, fun g h => (backward_effect n g _ h).2.2.2.2.2⟩
  rcases add_layer_effect n l _ h with ⟨_, _, h⟩ | ⟨_, _, l', ts, gs, _, _, _, h⟩
  · simp only at h; rw [h]
  · simp only at h; rw [h]; rfl

/-- C41 is false of the code, for every network: after `switch_to_inference` the network reports
`Training` although every layer is in inference mode. -/
theorem C41_negation (b : Build) (n n' : Net F) (h : n.switch_to_inference b = .ok n') :
    n'.get_run_state = .Training ∧ ∀ l ∈ n'.get_layers, l.get_run_mode = .Inference := by
  obtain ⟨e1, e2, _⟩ := net_switch_inference_effect n _ h
  refine ⟨e1, fun l hl => ?_⟩
  obtain ⟨l0, _, h2⟩ := forall₂_mem e2 hl
  exact (switch_inference_effect l0 l h2).1

/-- C41 is false of the code, a consequence: a layer added after `switch_to_inference` is put in
training mode, next to layers in inference mode. -/
theorem C41_add_layer_negation (b : Build) (n n1 n2 : Net F) (l : AnyLayer F)
    (h : n.switch_to_inference b = .ok n1) (h2 : n1.add_layer b l = .ok (.ok (), n2)) :
    ∃ l', n2.get_layers = n1.get_layers ++ [l'] ∧ l'.get_run_mode = .Training ∧
      ∀ l ∈ n1.get_layers, l.get_run_mode = .Inference := by
  obtain ⟨e1, e2⟩ := C41_negation b n n1 h
  rcases add_layer_effect n1 l _ h2 with ⟨_, ⟨e, he⟩, _⟩ | ⟨_, _, l', ts, gs, h3, _, _, h4⟩
  · cases he
  · simp only at h4
    refine ⟨l', by rw [h4]; rfl, ?_, e2⟩
    rw [(switchTo_effect _ _ _ h3).1]
    exact e1

open Toy in
example : ∃ n1 n2, exNet.switch_to_inference .debug = .ok n1 ∧
    n1.add_layer .debug (.sm exSM) = .ok (.ok (), n2) ∧
    n2.get_layers.map AnyLayer.get_run_mode = [.Inference, .Training] := ⟨_, _, rfl, rfl, rfl⟩

open Toy in
example : ∃ n', exNet.switch_to_inference .debug = .ok n' ∧ n'.get_layers.length = 1 :=
  ⟨_, rfl, rfl⟩

open Toy in
example : ∃ n n' : Net UInt32, ReachNoInf .debug n ∧ n.switch_to_training .debug = .ok n' ∧
    n.get_run_state = .Inference ∧ n'.get_layers.map AnyLayer.get_run_mode = [.Training] :=
  ⟨_, _, .add_layer _ (.mp exMP) _ _ (.new .Inference) rfl, rfl, rfl, rfl⟩

/-! ## C42 -/

/-- C42: a gradient of another shape, a network without layers and a network that reports another
mode than `Training` are refused without any change.

Partial: a network last put in inference mode by `switch_to_inference` reports `Training`, so it is
not refused: it panics, see `C42_negation`. -/
theorem C42_refused_partial (b : Build) (n : Net F) (g : Tensor F)
    (h : g.shape ≠ n.get_output_shape ∨ n.get_layers = [] ∨ n.get_run_state ≠ .Training) :
    ∃ e, n.backward b g = .ok (.error e, n) := by
  unfold Network.backward
  split
  · exact ⟨_, rfl⟩
  · rename_i h1
    split
    · exact ⟨_, rfl⟩
    · rename_i h2
      rcases h with h | h | h
      · exact absurd h h1
      · have h : n.layers = [] := h
        rw [h] at h2; exact absurd Nat.zero_lt_one h2
      · have h : n.run_state ≠ .Training := h
        rw [if_pos h]
        exact ⟨_, rfl⟩

/-- C42: in inference mode, as set at construction and never switched away from, `backward` is
refused without any change.

Partial: as above. -/
theorem C42_inference_partial (b : Build) (n : Net F) (g : Tensor F)
    (h : n.get_run_state = .Inference) : ∃ e, n.backward b g = .ok (.error e, n) :=
  C42_refused_partial b n g (.inr (.inr (by rw [h]; exact (fun h => by cases h))))

/-- C42 is false of the code, for every network with layers: after `switch_to_inference`, `backward`
with a gradient of the output shape panics instead of being refused. -/
theorem C42_negation (b : Build) (n n' : Net F) (hne : n.get_layers ≠ [])
    (h : n.switch_to_inference b = .ok n') (g : Tensor F) (hg : g.shape = n.get_output_shape) :
    n'.backward b g = .error .oob := by
  obtain ⟨e1, e2, _, _, e5, e6⟩ := net_switch_inference_effect n _ h
  have hpos : n.layers.length ≠ 0 := fun e => hne (List.length_eq_zero_iff.mp e)
  have hl := forall₂_length e2
  unfold Network.backward
  rw [if_neg (by rw [e5]; exact fun h => h hg), if_neg (by omega), if_neg (fun h => h e1), e6]
  rfl

open Toy in
example : ∃ n', exNet.switch_to_inference .debug = .ok n' ∧
    n'.backward .debug (zeros ⟨3, 1, 1⟩) = .error .oob := ⟨_, rfl, rfl⟩

open Toy in
example : ∃ e, exNet.backward .debug (zeros ⟨2, 1, 1⟩) = .ok (.error e, exNet) := ⟨_, rfl⟩

/-! ## C43 -/

/-- C43, the chain: after a `backward(g)` that returned `Ok`, the last stored gradient is `g`, and
for every layer the stored gradient before it is the outgoing gradient its `backward` gave for the
states around it and the stored gradient after it; the layer stored is the one that call left. -/
theorem C43_chain (b : Build) (n n' : Net F) (g : Tensor F)
    (h : n.backward b g = .ok (.ok (), n')) :
    n'.intermediate_gradients[n.get_layers.length]? = some g ∧
    (∀ (i : Nat) l, n.get_layers[i]? = some l → ∃ x y gi og og' l',
      n.get_intermediate_state i = .ok x ∧ n.get_intermediate_state (i + 1) = .ok y ∧
      n'.intermediate_gradients[i + 1]? = some gi ∧ n.intermediate_gradients[i]? = some og ∧
      n'.intermediate_gradients[i]? = some og' ∧ n'.get_layers[i]? = some l' ∧
      l.backward b x y gi og = .ok (.ok (), l', og')) ∧
    n'.intermediate_states = n.intermediate_states := by
  obtain ⟨h1, h2⟩ := backward_after h
  refine ⟨h1, fun i l hi => ?_, (backward_effect n g _ h).2.2.1⟩
  obtain ⟨x, y, gi, og, og', l', a1, a2, a3, a4, a5, a6, a7⟩ := h2 i l (Nat.zero_le _) hi
  refine ⟨x, y, gi, og, og', l', ?_, ?_, a3, a4, a5, a6, a7⟩
  · unfold Network.get_intermediate_state; rw [a1]
  · unfold Network.get_intermediate_state; rw [a2]

open Toy in
example : ∃ n1 n2, exNet.infer .debug ⟨⟨1, 2, 2⟩, ⟨2, 1, 1⟩, [10, 1]⟩ = .ok (.ok (), n1) ∧
    n1.backward .debug ⟨⟨1, 3, 3⟩, ⟨3, 1, 1⟩, [2, 7, 1]⟩ = .ok (.ok (), n2) ∧
    n2.intermediate_gradients.map (·.data) = [[2, -4], [2, 7, 1]] := ⟨_, _, rfl, rfl, rfl⟩

/-! ## C51 -/

/-- C51 for networks: no history of `infer`, `backward` and mode switches changes the parameters of
any layer, the number or order of the layers or the network's shapes. -/
theorem C51_network (b : Build) (n n' : Net F) (h : UsesMany b n n') :
    n'.get_layers.map params = n.get_layers.map params ∧
    n'.get_input_shape = n.get_input_shape ∧ n'.get_output_shape = n.get_output_shape := by
  refine ⟨usesMany_params h, ?_⟩
  induction h with
  | none => exact ⟨rfl, rfl⟩
  | more n1 n2 _ h ih =>
    have : n2.input_shape = n1.input_shape ∧ n2.output_shape = n1.output_shape := by
      cases h with
      | infer x r _ h => exact ⟨(infer_effect n1 x _ h).2.2.2.1, (infer_effect n1 x _ h).2.2.2.2.1⟩
      | backward g r _ h =>
        exact ⟨(backward_effect n1 g _ h).2.2.2.1, (backward_effect n1 g _ h).2.2.2.2.1⟩
      | switch_to_training _ h =>
        have := net_switch_training_effect n1 _ h
        exact ⟨this.2.2.2.1, this.2.2.2.2.1⟩
      | switch_to_inference _ h =>
        have := net_switch_inference_effect n1 _ h
        exact ⟨this.2.2.2.1, this.2.2.2.2.1⟩
    exact ⟨this.1.trans ih.1, this.2.trans ih.2⟩

/-! ## C55 -/

/-- C55: at any point of any history of a network built from well formed layers, `add_layer` of a
well formed layer, `infer` of a well formed tensor of any shape, and the mode switches return.  (The
getters return by their types: in the model they cannot panic.) -/
theorem C55_no_panic (b : Build) (n : Net F) (hn : Built b n) :
    (∀ l : AnyLayer F, l.Ok → ∃ r n', n.add_layer b l = .ok (r, n')) ∧
    (∀ x : Tensor F, x.WF → ∃ r n', n.infer b x = .ok (r, n')) ∧
    (∃ n', n.switch_to_training b = .ok n') ∧ ∃ n', n.switch_to_inference b = .ok n' := by
  have hok := built_netOk hn
  refine ⟨fun l hl => add_layer_returns n hl, fun x hx => ?_, ?_, ?_⟩
  · by_cases hs : x.shape = n.input_shape
    · by_cases hne : n.layers = []
      · have hlen := chain_length hok.chain
        rw [if_pos hne] at hlen
        unfold Network.infer
        rw [if_neg (fun h => h hs), if_pos (by omega)]
        exact ⟨_, _, rfl⟩
      · obtain ⟨n', h, _⟩ := infer_ok (b := b) hok hne hx hs
        exact ⟨_, n', h⟩
    · obtain ⟨e, h⟩ := C37_shape b n x hs
      exact ⟨_, _, h⟩
  · obtain ⟨ls, h1⟩ := mapM_ok (LayerOps.switch_to_training b) n.layers
      (fun l hl => switch_training_ok (b := b) (ok_shapesFit (hok.layers l hl)))
    obtain ⟨gs, h2⟩ := mapM_ok (fun t : Tensor F => (Tensor.new b t.shape : Exec (Tensor F)))
      n.intermediate_states (fun t ht => ⟨_, new_ok (states_fit hok t ht)⟩)
    exact ⟨_, by unfold Network.switch_to_training; rw [h1, ok_bind, h2]; rfl⟩
  · obtain ⟨ls, h1⟩ := mapM_ok (LayerOps.switch_to_inference b) n.layers
      (fun l _ => by
        obtain ⟨l', h, _⟩ := switch_inference_ok (b := b) l
        exact ⟨l', h⟩)
    exact ⟨_, by unfold Network.switch_to_inference; rw [h1]; rfl⟩

open Toy in
example : Built .debug exNet ∧ Built .release exNet := ⟨exNet_built _, exNet_built _⟩

/-! ## C56 -/

/-- C56: at any point of a history in training mode of a network without convolutional layers,
`infer` of a well formed tensor of the input shape succeeds and `backward` of a well formed gradient
of the output shape then returns; it succeeds if all softmax layers work on columns (and no max-pool
layer has outputs but an empty input). -/
theorem C56_backward_returns (b : Build) (n : Net F) (hn : Trains b n) (hne : n.get_layers ≠ [])
    (hc : ∀ l ∈ n.get_layers, notConv l) (x g : Tensor F) (hx : x.WF)
    (hxs : x.shape = n.get_input_shape) (hg : g.WF) (hgs : g.shape = n.get_output_shape) :
    ∃ n1 r n2, n.infer b x = .ok (.ok (), n1) ∧ n1.backward b g = .ok (r, n2) ∧
      ((∀ l ∈ n.get_layers, backable l) → r = .ok ()) := by
  obtain ⟨hok, ht⟩ := trains_ready hn
  exact infer_backward_ok hok ht hne hc hx hxs hg hgs

/-- C56, and when a softmax layer works on something else than a column, its `backward` is refused:
`Err`, and neither the layer nor the outgoing gradient has changed. -/
theorem C56_softmax_refused (b : Build) (l : SoftmaxLayer F) (hl : l.Ok) (hm : l.run_state = .Training)
    (h : ¬ (l.shape.dj = 1 ∧ l.shape.dk = 1)) (x y g og : Tensor F)
    (hys : y.shape = l.shape) (hgs : g.shape = l.shape) :
    ∃ e, l.backward b x y g og = .ok (.error e, l, og) := by
  obtain ⟨⟨i1, i2⟩, _⟩ := hl.buffers hm
  have hc : ¬ Tensor.check_matrix_multiply_dimensions y.shape.transpose_ij g.shape
      l.intermediate1.shape = true := by
    rw [check_mm_iff, hys, hgs, i2]
    unfold TensorShape.transpose_ij
    rintro ⟨_, h2, _, h4, _⟩
    exact h ⟨h4, h2⟩
  refine ⟨"Shapes do not match for matrix multiply transpose", ?_⟩
  unfold SoftmaxLayer.backward Tensor.matrix_multiply_transpose_first
  rw [if_neg (by rw [hm]; exact fun h => by cases h)]
  simp only
  rw [if_pos hc]
  rfl

open Toy in
example : Trains .debug exNet ∧ (∀ l ∈ exNet.get_layers, notConv l ∧ backable l) := by
  refine ⟨exNet_trains _, fun l hl => ?_⟩
  rw [List.mem_singleton.mp hl]
  exact ⟨trivial, trivial⟩

end Rusty
