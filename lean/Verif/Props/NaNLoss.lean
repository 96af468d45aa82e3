import Verif.Lemmas.NaNLoss
import Verif.Props.FreshStart
import Verif.Props.NaNParameter

/-! # C148: NaN in a loss gradient -/

namespace Rusty

open F32Ops Spec F32

variable [Libm]

/-- C148: one example whose loss gradient has NaN in entry `k` makes the gradients of all fully connected layers NaN
(in the last layer of the network those of unit `k`), whatever examples come before and after it. -/
theorem C148_batch (b : Build) (N : Nat) (n : Net F32) (hn : Trains b n) (hd : Dense N n) (es es' : List (Example F32))
    (e : Example F32) (hes : ∀ a ∈ es ++ e :: es', a.Fits n) (k : Nat) (hk : k < n.get_output_shape.di.toNat)
    (hnan : (val e.g k 0 0).isNaN = true) :
    ∃ n', Batch b n (es ++ e :: es') n' ∧ Trains b n' ∧ ∀ (c : Nat) l, n.get_layers[c]? = some (.fc l) →
      ∃ l', n'.get_layers[c]? = some (.fc l') ∧ ∀ o, o < l.weights.shape.di.toNat →
        (c + 1 < n.get_layers.length ∨ o = k) → NaNGradients b l' o := by
  have hbk := dense_backable hd
  have hne : n.layers ≠ [] := fun h => by
    obtain ⟨l, p, _⟩ := hd.fc 0 hd.pos
    have p : n.layers[0]? = _ := p
    rw [h] at p
    cases p
  obtain ⟨dW, dB, H⟩ := C91_batch b n hn hne hbk
  obtain ⟨m, a1, a2, a3, a4⟩ := H n es hn rfl fun a ha => hes a (List.mem_append_left _ ha)
  have hfit : e.Fits n := hes e (List.mem_append_right _ List.mem_cons_self)
  obtain ⟨hok, ht⟩ := trains_ready hn
  obtain ⟨hokm, htm⟩ := trains_ready a2
  have a3 : m.layers.map params = n.layers.map params := a3
  have hsh := params_shapes hok.chain hokm.chain a3 hne
  have hlen : m.layers.length = n.layers.length := by simpa using congrArg List.length a3
  obtain ⟨m1, m2, i1, i2, i3⟩ := nan_loss_round a2 (dense_params hd a3) hfit.x.1 (by
    rw [hfit.x.2]; exact hsh.1.symm) hfit.g.1 (by rw [hfit.g.2]; exact hsh.2.symm) (k := k)
    (by rw [hfit.g.2]; exact hk) hnan
  have hm2 : Trains b m2 := .backward _ _ _ _ (.infer _ _ _ _ a2 i1) hfit.g.1 i2
  have hp2 : m2.layers.map params = n.layers.map params := by
    rw [like_map_params (backward_effect _ _ _ i2).1, like_map_params (infer_effect _ _ _ i1).1]
    exact a3
  obtain ⟨q, d1, d2, d3, d4⟩ := H m2 es' hm2 hp2 fun a ha => hes a
    (List.mem_append_right _ (List.mem_cons_of_mem _ ha))
  refine ⟨q, batch_join a1 (.step _ _ _ _ _ _ i1 i2 d1), d2, fun c l hc => ?_⟩
  obtain ⟨l1, a5, _⟩ := a4 c l hc
  obtain ⟨l2, p1, p2⟩ := i3 c l1 a5
  obtain ⟨l3, d5, d6⟩ := d4 c l2 p1
  have w1 := fc_weights a3 hc a5
  have w2 := fc_weights hp2 hc p1
  have w3 := fc_weights (n := n) d3 hc d5
  rw [w1] at p2
  rw [w2] at d6
  refine ⟨l3, d5, fun o ho h => ?_⟩
  obtain ⟨⟨v, v1, v2⟩, u⟩ := p2 o ho (by rw [hlen]; exact h)
  obtain ⟨g1, g2⟩ := fc_grad_inside hm2 hp2 hc p1
  rw [get_item_ok (g1 o ho).1 (g1 o ho).2] at v1
  refine ⟨⟨_, (d6 o ho).1, foldl_nan_start _ _ (by rw [Except.ok.inj v1]; exact v2)⟩, fun i hi => ?_⟩
  rw [w3] at hi
  obtain ⟨v, v1, v2⟩ := u i hi
  rw [get_item_ok (g2 o i ho hi).1 (g2 o i ho hi).2] at v1
  exact ⟨_, (d6 o ho).2 i hi, foldl_nan_start _ _ (by rw [Except.ok.inj v1]; exact v2)⟩

/-- C148: `switch_to_training` removes the NaN: all gradients are zero, and from the next `infer` on the network is the
one that was never trained. -/
theorem C148_repair (b : Build) (n n' : Net F32) (hn : Trains b n) (hne : n.get_layers ≠ []) (es : List (Example F32))
    (h : Batch b n es n') (hes : ∀ e ∈ es, e.Fits n) :
    ∃ n1 n2, n.switch_to_training b = .ok n1 ∧ n'.switch_to_training b = .ok n2 ∧ (∀ l ∈ n2.get_layers, cleared l) ∧
      ∀ x : Tensor F32, x.WF → x.shape = n.get_input_shape →
        ∃ k, n1.infer b x = .ok (.ok (), k) ∧ n2.infer b x = .ok (.ok (), k) := by
  have hb : ∀ {n n' : Net F32} {es : List (Example F32)}, Batch b n es n' → Trains b n → (∀ e ∈ es, e.g.WF) →
      Trains b n' ∧ n'.layers.map params = n.layers.map params := by
    intro n n' es h
    induction h with
    | done n => exact fun h _ => ⟨h, rfl⟩
    | step n n1 n2 n' e es h1 h2 _ ih =>
      intro ht hg
      obtain ⟨r1, r2⟩ := ih (.backward _ _ _ _ (.infer _ _ _ _ ht h1) (hg e List.mem_cons_self) h2)
        fun a ha => hg a (List.mem_cons_of_mem _ ha)
      refine ⟨r1, ?_⟩
      rw [r2, like_map_params (backward_effect _ _ _ h2).1, like_map_params (infer_effect _ _ _ h1).1]
  obtain ⟨t1, t2⟩ := hb h hn fun e he => (hes e he).g.1
  obtain ⟨⟨n1, n2, e1, e2, e3⟩, _⟩ := C111_network b n n' (trains_built hn) (trains_built t1) t2 hne
  refine ⟨n1, n2, e1, e2, fun l hl => ?_, e3⟩
  obtain ⟨l0, _, p⟩ := forall₂_mem (net_switch_training_effect n' _ e2).2.1 hl
  exact (switch_training_effect l0 l p).2.2

/-- The hypotheses of C148 hold for the network `max(0, max(0, x))` and the loss gradient NaN, between two examples with
the loss gradient 1. -/
example (b : Build) : ∃ (n : Net F32) (es es' : List (Example F32)) (e : Example F32), Trains b n ∧ Dense 2 n ∧
    (∀ a ∈ es ++ e :: es', a.Fits n) ∧ es ≠ [] ∧ es' ≠ [] ∧ 0 < n.get_output_shape.di.toNat ∧
    (val e.g 0 0 0).isNaN = true := by
  let A : FullyConnectedLayer F32 := { exFc ⟨0x3f800000⟩ ⟨0⟩ with run_state := .Training }
  have oA : (AnyLayer.fc A).Ok :=
    ⟨single_wf _, single_wf _, rfl, rfl, fun _ => ⟨⟨single_wf _, rfl⟩, ⟨single_wf _, rfl⟩, ⟨single_wf _, rfl⟩,
    ⟨single_wf _, rfl⟩⟩⟩
  obtain ⟨n, h1, h2, h3, h4⟩ : ∃ n : Net F32, Trains b n ∧ n.get_layers = [.fc A, .fc A] ∧
      n.get_input_shape = ⟨1, 1, 1⟩ ∧ n.get_output_shape = ⟨1, 1, 1⟩ := by
    cases b <;> exact ⟨_, .add_layer _ (.fc A) _ _ (.add_layer _ (.fc A) _ _ .new oA rfl) oA rfl, rfl, rfl, rfl⟩
  refine ⟨n, [⟨single ⟨0⟩, single ⟨0x3f800000⟩⟩], [⟨single ⟨0⟩, single ⟨0x3f800000⟩⟩], ⟨single ⟨0⟩, single ⟨0x7fc00000⟩⟩, h1,
    ⟨by omega, fun c hc => ⟨A, ?_, Nat.one_pos⟩, .inl (by rw [h2]; rfl)⟩, fun a ha => ?_, by simp, by simp,
    by rw [h4]; decide, nan_val⟩
  · rw [h2]
    match c, hc with
    | 0, _ => rfl
    | 1, _ => rfl
  · simp only [List.cons_append, List.nil_append, List.mem_cons, List.not_mem_nil, or_false] at ha
    rcases ha with rfl | rfl | rfl <;> exact ⟨⟨single_wf _, h3.symm⟩, ⟨single_wf _, h4.symm⟩⟩

end Rusty
