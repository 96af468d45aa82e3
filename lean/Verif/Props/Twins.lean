import Verif.Lemmas.Twins
import Verif.Props.Pruning

/-! # C114: units with equal parameters stay equal -/

namespace Rusty

open F32Ops Spec

section
variable {F : Type} [F32Ops F]

/-- C114: two units with the same weights and bias give the same value, in all modes. -/
theorem C114_predict (b : Build) (n : Net F) (hn : Built b n) (q : Nat) (l : FullyConnectedLayer F)
    (hl : n.get_layers[q]? = some (.fc l)) (u v : Nat) (hu : u < l.weights.shape.di.toNat)
    (hv : v < l.weights.shape.di.toNat) (hb : val l.bias u 0 0 = val l.bias v 0 0)
    (hr : ∀ i, i < l.weights.shape.dj.toNat → val l.weights u i 0 = val l.weights v i 0) (x : Tensor F) (hx : x.WF) (hxs : x.shape = n.get_input_shape) :
    ∃ n' t w, n.infer b x = .ok (.ok (), n') ∧ n'.get_intermediate_state (q + 1) = .ok t ∧
      t.get_item b (ix u 0 0) = .ok w ∧ t.get_item b (ix v 0 0) = .ok w := by
  have hok := built_netOk hn
  have hne : n.layers ≠ [] := fun e => by
    have hl : n.layers[q]? = _ := hl
    rw [e] at hl; cases hl
  obtain ⟨n', i1, _, i3⟩ := infer_ok (b := b) hok hne hx hxs
  obtain ⟨s, s', _, b2, b3, _⟩ := i3 q _ hl
  have hlo : l.Ok := hok.layers _ (List.mem_of_getElem? hl)
  have hin : ∀ o, o < l.weights.shape.di.toNat → (AnyLayer.fc l).get_output_shape.Inside o 0 0 := fun o ho => by
    change l.bias.shape.Inside o 0 0
    rw [hlo.rows]
    exact col_inside ho
  refine ⟨n', s', _, i1, by unfold Network.get_intermediate_state; rw [b2], b3.2.2 u 0 0 (hin u hu), ?_⟩
  rw [b3.2.2 v 0 0 (hin v hv), twin_layerAt hb hr]

/-- C114: as long as the same gradients are recorded for two units with the same parameters, training on any list of
examples records the same gradients for them, bit for bit in `f32`. -/
theorem C114_twins (b : Build) (n : Net F) (hn : Trains b n) (hbk : ∀ l ∈ n.get_layers, backable l)
    (q : Nat) (l m : FullyConnectedLayer F) (hl : n.get_layers[q]? = some (.fc l))
    (hm : n.get_layers[q + 1]? = some (.fc m)) (u v : Nat) (h : Twins l m u v) (hd : TwinGradients l m u v)
    (es : List (Example F)) (hes : ∀ e ∈ es, e.Fits n) :
    ∃ n' l' m', Batch b n es n' ∧ n'.get_layers[q]? = some (.fc l') ∧ n'.get_layers[q + 1]? = some (.fc m') ∧
      (∃ w, l'.bias_gradients.get_item b (ix u 0 0) = .ok w ∧ l'.bias_gradients.get_item b (ix v 0 0) = .ok w) ∧
      (∀ i, i < l.weights.shape.dj.toNat → ∃ w, l'.weights_gradients.get_item b (ix u i 0) = .ok w ∧
        l'.weights_gradients.get_item b (ix v i 0) = .ok w) ∧
      ∀ o, o < m.weights.shape.di.toNat → ∃ w, m'.weights_gradients.get_item b (ix o u 0) = .ok w ∧
        m'.weights_gradients.get_item b (ix o v 0) = .ok w := by
  have main : ∀ (es : List (Example F)) (n : Net F), Trains b n → (∀ l ∈ n.layers, backable l) →
      ∀ l m : FullyConnectedLayer F, n.layers[q]? = some (.fc l) → n.layers[q + 1]? = some (.fc m) →
      Twins l m u v → TwinGradients l m u v → (∀ e ∈ es, e.Fits n) →
      ∃ n' l' m', Batch b n es n' ∧ Trains b n' ∧ n'.layers.map params = n.layers.map params ∧
        n'.layers[q]? = some (.fc l') ∧ n'.layers[q + 1]? = some (.fc m') ∧ Twins l' m' u v ∧
        TwinGradients l' m' u v := by
    intro es
    induction es with
    | nil => exact fun n h1 _ l m h3 h4 h5 h6 _ => ⟨n, l, m, .done n, h1, rfl, h3, h4, h5, h6⟩
    | cons e es ih =>
      intro n h1 h2 l m h3 h4 h5 h6 h7
      obtain ⟨hok, ht⟩ := trains_ready h1
      have hne : n.layers ≠ [] := fun e => by rw [e] at h3; cases h3
      have hfit := h7 e (List.mem_cons_self ..)
      obtain ⟨n1, n2, i1, i2, _⟩ := net_round (b := b) hok ht hne h2 hfit.x.1 hfit.x.2 hfit.g.1 hfit.g.2
      obtain ⟨l', m', j1, j2, j3, j4⟩ := twins_round hok ht hne h2 hfit.x.1 hfit.x.2 hfit.g.1 hfit.g.2 i1 i2 h3 h4 h5 h6
      have hp : n2.layers.map params = n.layers.map params := by
        rw [like_map_params (backward_effect _ _ _ i2).1, like_map_params (infer_effect _ _ _ i1).1]
      have ht2 : Trains b n2 := .backward _ _ _ _ (.infer _ _ _ _ h1 i1) hfit.g.1 i2
      have hsh := params_shapes hok.chain (trains_ready ht2).1.chain hp hne
      have hb2 : ∀ l ∈ n2.layers, backable l := by
        intro l hl
        obtain ⟨i, hi, rfl⟩ := List.mem_iff_getElem.mp hl
        obtain ⟨l0, k1, k2⟩ := map_get hp (List.getElem?_eq_getElem hi)
        exact params_backable k2 (h2 l0 (List.mem_of_getElem? k1))
      obtain ⟨n', l'', m'', k1, k2, k3, k4⟩ := ih n2 ht2 hb2 l' m' j1 j2 j3 j4 fun e he => by
        have := h7 e (List.mem_cons_of_mem _ he)
        exact ⟨⟨this.x.1, by rw [this.x.2]; exact hsh.1.symm⟩, ⟨this.g.1, by rw [this.g.2]; exact hsh.2.symm⟩⟩
      exact ⟨n', l'', m'', .step _ _ _ _ _ _ i1 i2 k1, k2, k3.trans hp, k4⟩
  obtain ⟨n', l', m', a1, a2, a3, a4, a5, a6, a7⟩ := main es n hn hbk l m hl hm h hd hes
  obtain ⟨w1, w2⟩ := fc_grad_inside a2 a3 hl a4
  obtain ⟨_, w3⟩ := fc_grad_inside a2 a3 hm a5
  have hw : m.weights.shape.dj.toNat = l.weights.shape.di.toNat := fc_chain (trains_ready hn).1 hl hm
  refine ⟨n', l', m', a1, a4, a5, ⟨_, get_item_ok (w1 u h.left).1 (w1 u h.left).2, ?_⟩, fun i hi => ?_, fun o ho => ?_⟩
  · rw [get_item_ok (w1 v h.right).1 (w1 v h.right).2, a7.bias]
  · have k1 := w2 u i h.left hi
    have k2 := w2 v i h.right hi
    refine ⟨_, get_item_ok k1.1 k1.2, ?_⟩
    rw [get_item_ok k2.1 k2.2, a7.row i (by rw [fc_params_weights a3 hl a4]; exact hi)]
  · have k1 := w3 o u ho (by rw [hw]; exact h.left)
    have k2 := w3 o v ho (by rw [hw]; exact h.right)
    refine ⟨_, get_item_ok k1.1 k1.2, ?_⟩
    rw [get_item_ok k2.1 k2.2, a7.column o (by rw [fc_params_weights a3 hm a5]; exact ho)]

/-- C114: this is so after `switch_to_training`, which sets all recorded gradients to zero. -/
theorem C114_fresh (b : Build) (n n0 : Net F) (hn : Built b n) (hs : n.switch_to_training b = .ok n0) (q : Nat)
    (l m : FullyConnectedLayer F) (hl : n.get_layers[q]? = some (.fc l))
    (hm : n.get_layers[q + 1]? = some (.fc m)) (u v : Nat) (h : Twins l m u v) :
    Trains b n0 ∧ ∃ l0 m0, n0.get_layers[q]? = some (.fc l0) ∧ n0.get_layers[q + 1]? = some (.fc m0) ∧
      Twins l0 m0 u v ∧ TwinGradients l0 m0 u v := by
  obtain ⟨_, e1, _⟩ := net_switch_training_effect n _ hs
  have get : ∀ (c : Nat) (k : FullyConnectedLayer F), n.layers[c]? = some (.fc k) → ∃ k0, n0.layers[c]? = some (.fc k0) ∧
      params (.fc k0) = params (.fc k) ∧ cleared (.fc k0) := by
    intro c k hk
    have hlt : c < n0.layers.length := by
      rw [forall₂_length e1]
      exact (List.getElem?_eq_some_iff.mp hk).1
    obtain ⟨k', k1⟩ : ∃ k', n0.layers[c]? = some k' := ⟨_, List.getElem?_eq_getElem hlt⟩
    have k2 := forall₂_get e1 k1 hk
    obtain ⟨_, k3, k4⟩ := switch_training_effect _ _ k2
    cases k' with
    | fc k' => exact ⟨k', k1, k3, k4⟩
    | _ => cases k3
  obtain ⟨l0, a1, a2, a3⟩ := get q l hl
  obtain ⟨m0, c1, c2, c3⟩ := get (q + 1) m hm
  refine ⟨.switch_to_training _ _ hn hs, l0, m0, a1, c1, twins_params a2 c2 h, ?_, fun _ _ => ?_, fun _ _ => ?_⟩
  · rw [zero_val a3.2.2.1, zero_val a3.2.2.1]
  · rw [zero_val a3.1, zero_val a3.1]
  · rw [zero_val c3.1, zero_val c3.1]

/-- C114: layers made with `fill_weights_with_value` and `fill_bias_with_value` have twins only. -/
theorem C114_filled (l m : FullyConnectedLayer F) (hl : l.Ok) (hm : m.Ok)
    (hw : m.get_input_shape = l.get_output_shape) (w c w' : F) (u v : Nat)
    (hu : u < l.weights.shape.di.toNat) (hv : v < l.weights.shape.di.toNat) :
    Twins ((l.fill_weights_with_value w).fill_bias_with_value c) (m.fill_weights_with_value w') u v := by
  have hsh : m.weights.shape.dj = l.weights.shape.di := by
    have k1 : (⟨m.weights.shape.dj, 1, 1⟩ : TensorShape) = l.bias.shape := hw
    rw [hl.rows] at k1
    exact (TensorShape.mk.inj k1).1
  have one : (0 : Nat) < (1 : UInt32).toNat := by decide
  refine ⟨hu, hv, ?_, fun i hi => ?_, fun o ho => ?_⟩
  · change val (l.bias.fill_with_value c) u 0 0 = val (l.bias.fill_with_value c) v 0 0
    rw [filled_val hl.bias c (by rw [hl.rows]; exact col_inside hu),
      filled_val hl.bias c (by rw [hl.rows]; exact col_inside hv)]
  · change val (l.weights.fill_with_value w) u i 0 = val (l.weights.fill_with_value w) v i 0
    rw [filled_val hl.weights w ⟨hu, hi, by rw [hl.depth]; exact one⟩,
      filled_val hl.weights w ⟨hv, hi, by rw [hl.depth]; exact one⟩]
  · change val (m.weights.fill_with_value w') o u 0 = val (m.weights.fill_with_value w') o v 0
    rw [filled_val hm.weights w' ⟨ho, by rw [hsh]; exact hu, by rw [hm.depth]; exact one⟩,
      filled_val hm.weights w' ⟨ho, by rw [hsh]; exact hv, by rw [hm.depth]; exact one⟩]

end

section
open F32
variable [Libm]

/-- The assumptions of C114 can be met: the two hidden units of a 1 -> 2 -> 1 network in training mode. -/
example (b : Build) : ∃ (n : Net F32) (l m : FullyConnectedLayer F32), Trains b n ∧ n.get_layers = [.fc l, .fc m] ∧
    Twins l m 0 1 ∧ TwinGradients l m 0 1 ∧
    (⟨single ⟨0x3f800000⟩, single ⟨0x3f800000⟩⟩ : Example F32).Fits n := by
  refine ⟨_, _, _, .add_layer _ (.fc (exDown ⟨0x40000000⟩ ⟨0x40000000⟩)) (.ok ()) _
    (.add_layer (Network.new .Training) (.fc (exUp ⟨0x3f800000⟩ ⟨0x3f800000⟩)) (.ok ()) _ .new (exUp_ok _ _)
      (by cases b <;> rfl)) (exDown_ok _ _) (by cases b <;> rfl), rfl, ?_, ?_,
    ⟨⟨single_wf _, rfl⟩, ⟨single_wf _, rfl⟩⟩⟩
  · refine ⟨Nat.zero_lt_two, Nat.one_lt_two, rfl, fun i (hi : i < 1) => ?_, fun o (ho : o < 1) => ?_⟩
    · obtain rfl : i = 0 := by omega
      rfl
    · obtain rfl : o = 0 := by omega
      rfl
  · refine ⟨rfl, fun i (hi : i < 1) => ?_, fun o (ho : o < 1) => ?_⟩
    · obtain rfl : i = 0 := by omega
      rfl
    · obtain rfl : o = 0 := by omega
      rfl

end

end Rusty
