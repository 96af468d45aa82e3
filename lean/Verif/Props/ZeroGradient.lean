import Verif.Spec.SignedZero
import Verif.Lemmas.IEEEVoid
import Verif.Props.Linear

/-! # C113: a zero gradient -/

namespace Rusty

open F32Ops Spec F32

variable [Libm]

/-- C113: in `f32`, call `infer` with any input and then `backward` with a gradient whose entries are all zero.  Every
weight and bias gradient is the same number as before or NaN, and the gradients passed back are zero or NaN. -/
theorem C113_zero (b : Build) (n : Net F32) (hn : Trains b n) (hne : n.get_layers ≠ [])
    (hbk : ∀ l ∈ n.get_layers, backable l) (x : Tensor F32) (hx : x.WF) (hxs : x.shape = n.get_input_shape)
    (g : Tensor F32) (hg : g.WF ∧ g.shape = n.get_output_shape)
    (h0 : ∀ i j k, n.get_output_shape.Inside i j k → (val g i j k).code = 0) :
    ∃ n0 n1, n.infer b x = .ok (.ok (), n0) ∧ n0.backward b g = .ok (.ok (), n1) ∧
      (∃ t, n1.intermediate_gradients[0]? = some t ∧ t.shape = n.get_input_shape ∧
        ∀ i j k, n.get_input_shape.Inside i j k → ∃ v, t.get_item b (ix i j k) = .ok v ∧
          (v.isNaN = true ∨ v.code = 0)) ∧
      ∀ (q : Nat) l, n.get_layers[q]? = some (.fc l) → ∃ l1, n1.get_layers[q]? = some (.fc l1) ∧
        ∀ o, o < l.weights.shape.di.toNat →
          (∃ u v, l.bias_gradients.get_item b (ix o 0 0) = .ok u ∧ l1.bias_gradients.get_item b (ix o 0 0) = .ok v ∧
            (v.isNaN = true ∨ SameNumber v u)) ∧
          ∀ i, i < l.weights.shape.dj.toNat → ∃ u v, l.weights_gradients.get_item b (ix o i 0) = .ok u ∧
            l1.weights_gradients.get_item b (ix o i 0) = .ok v ∧ (v.isNaN = true ∨ SameNumber v u) := by
  obtain ⟨hok, ht⟩ := trains_ready hn
  obtain ⟨n0, n1, h1, h2, _, h3⟩ := net_round (b := b) hok ht hne hbk hx hxs hg.1 hg.2
  obtain ⟨H0, H⟩ := net_respected void_respected hok ht hne hbk hx hxs hg hg hg
    (related_of_val void_respected hg.1 hg.1 hg.1 rfl rfl
      (fun i j k hin => .inr (h0 i j k (by rw [← hg.2]; exact hin)))) h1 h2 h2 h2
  refine ⟨n0, n1, h1, h2, ?_, fun q l hq => ?_⟩
  · obtain ⟨t, _, _, e1, _, _, e2⟩ := H0 0 (Nat.zero_le _)
    obtain ⟨w1, w2⟩ := gradient_shape hok ht hne hx hxs hg.1 h1 h2 e1
    exact ⟨t, e1, w2, fun i j k hin => ⟨_, get_item_ok w1 (by rw [w2]; exact hin), e2 _⟩⟩
  · obtain ⟨l1, _, _, e1, _, _, e4⟩ := H q l hq
    obtain ⟨w, w'⟩ := fc_grad_inside hn rfl hq hq
    refine ⟨l1, e1, fun o ho => ?_⟩
    obtain ⟨⟨d, _, _, f1, f2, _⟩, e5⟩ := e4 o ho
    refine ⟨⟨_, _, get_item_ok (w o ho).1 (w o ho).2, f2, add_void _ f1⟩, fun i hi => ?_⟩
    obtain ⟨d, _, _, f1, f2, _⟩ := e5 i hi
    exact ⟨_, _, get_item_ok (w' o i ho hi).1 (w' o i ho hi).2, f2, add_void _ f1⟩

/-- C113: if the weights are finite and `infer` produced finite numbers only, nothing turns into NaN: every weight and
bias gradient that was not NaN is the same number as before, and the gradients passed back are zero. -/
theorem C113_finite (b : Build) (n : Net F32) (hn : Trains b n) (hne : n.get_layers ≠ [])
    (hbk : ∀ l ∈ n.get_layers, backable l) (x : Tensor F32) (hx : x.WF) (hxs : x.shape = n.get_input_shape)
    (g : Tensor F32) (hg : g.WF ∧ g.shape = n.get_output_shape)
    (h0 : ∀ i j k, n.get_output_shape.Inside i j k → (val g i j k).code = 0)
    (hw : ∀ l, .fc l ∈ n.get_layers → ∀ o i, o < l.weights.shape.di.toNat → i < l.weights.shape.dj.toNat →
      (val l.weights o i 0).isFinite = true)
    (n0 : Net F32) (hi : n.infer b x = .ok (.ok (), n0))
    (hs : ∀ (q : Nat) s, n0.get_intermediate_state q = .ok s →
      ∀ i j k, s.shape.Inside i j k → (val s i j k).isFinite = true) :
    ∃ n1, n0.backward b g = .ok (.ok (), n1) ∧
      (∃ t, n1.intermediate_gradients[0]? = some t ∧ t.shape = n.get_input_shape ∧
        ∀ i j k, n.get_input_shape.Inside i j k → ∃ v, t.get_item b (ix i j k) = .ok v ∧ v.code = 0) ∧
      ∀ (q : Nat) l, n.get_layers[q]? = some (.fc l) → ∃ l1, n1.get_layers[q]? = some (.fc l1) ∧
        ∀ o, o < l.weights.shape.di.toNat →
          (∃ u v, l.bias_gradients.get_item b (ix o 0 0) = .ok u ∧ l1.bias_gradients.get_item b (ix o 0 0) = .ok v ∧
            (u.isNaN = false → SameNumber v u)) ∧
          ∀ i, i < l.weights.shape.dj.toNat → ∃ u v, l.weights_gradients.get_item b (ix o i 0) = .ok u ∧
            l1.weights_gradients.get_item b (ix o i 0) = .ok v ∧ (u.isNaN = false → SameNumber v u) := by
  obtain ⟨hok, ht⟩ := trains_ready hn
  obtain ⟨n0', n1, h1, h2, _, h3⟩ := net_round (b := b) hok ht hne hbk hx hxs hg.1 hg.2
  obtain rfl : n0 = n0' := (Prod.mk.inj (Except.ok.inj (hi.symm.trans h1))).2
  obtain ⟨H0, H⟩ := net_zero hok ht hne hbk hx hxs hg
    (zeroData_of_val hg.1 fun i j k hin => h0 i j k (by rw [← hg.2]; exact hin)) hw h1 h2
    (fun q s e => hs q s (by unfold Network.get_intermediate_state; rw [e]))
  refine ⟨n1, h2, ?_, fun q l hq => ?_⟩
  · obtain ⟨t, e1, e2⟩ := H0 0 (Nat.zero_le _)
    obtain ⟨w1, w2⟩ := gradient_shape hok ht hne hx hxs hg.1 h1 h2 e1
    exact ⟨t, e1, w2, fun i j k hin => ⟨_, get_item_ok w1 (by rw [w2]; exact hin), e2 _⟩⟩
  · obtain ⟨l1, e1, e4⟩ := H q l hq
    obtain ⟨w, w'⟩ := fc_grad_inside hn rfl hq hq
    refine ⟨l1, e1, fun o ho => ?_⟩
    obtain ⟨⟨d, f1, f2⟩, e5⟩ := e4 o ho
    refine ⟨⟨_, _, get_item_ok (w o ho).1 (w o ho).2, f2, fun h => add_zero_any h f1⟩, fun i hi => ?_⟩
    obtain ⟨d, f1, f2⟩ := e5 i hi
    exact ⟨_, _, get_item_ok (w' o i ho hi).1 (w' o i ho hi).2, f2, fun h => add_zero_any h f1⟩

/-- the network `max(0, x + 1)` in training mode -/
theorem exUnit_trains (b : Build) : ∃ (n : Net F32) (l : FullyConnectedLayer F32), Trains b n ∧
    n.get_layers = [.fc l] ∧ n.get_input_shape = ⟨1, 1, 1⟩ ∧ n.get_output_shape = ⟨1, 1, 1⟩ ∧
    l.weights = single ⟨0x3f800000⟩ ∧ l.bias = single ⟨0x3f800000⟩ ∧ l.bias_gradients = single ⟨0⟩ ∧
    l.weights_gradients = single ⟨0⟩ :=
  ⟨_, _, .add_layer (Network.new .Training) (.fc exUnit) (.ok ()) _ .new
      ⟨single_wf _, single_wf _, rfl, rfl, fun _ => ⟨⟨single_wf _, rfl⟩, ⟨single_wf _, rfl⟩,
        ⟨single_wf _, rfl⟩, ⟨single_wf _, rfl⟩⟩⟩ (by cases b <;> rfl), rfl, rfl, rfl, rfl, rfl, rfl, rfl⟩

theorem unit_preact {l : FullyConnectedLayer F32} (w c a : F32) (h : l.weights = single w) (h' : l.bias = single c) :
    preact l (single a) 0 = F32.add (F32.add (mk' false 0) (F32.mul w a)) c := by
  unfold preact
  rw [h, h']
  rfl

/-- C113: the exception is real.  In the network `max(0, x + 1)` a zero gradient after the input infinity turns the
weight gradient from zero into NaN. -/
theorem C113_nan (b : Build) : ∃ (n n0 n1 : Net F32) (l l1 : FullyConnectedLayer F32) (v : F32), Trains b n ∧
    n.get_layers = [.fc l] ∧ n.infer b (single ⟨0x7f800000⟩) = .ok (.ok (), n0) ∧
    n0.backward b (single ⟨0⟩) = .ok (.ok (), n1) ∧ n1.get_layers = [.fc l1] ∧
    l.weights_gradients.get_item b (ix 0 0 0) = .ok ⟨0⟩ ∧ l1.weights_gradients.get_item b (ix 0 0 0) = .ok v ∧
    v.isNaN = true := by
  obtain ⟨n, l, h1, h2, h3, h4, h5, h6, h7, h8⟩ := exUnit_trains b
  obtain ⟨hok, ht⟩ := trains_ready h1
  obtain ⟨n0, n1, a1, a2, a3, a4⟩ := net_round (b := b) (x := single ⟨0x7f800000⟩) (g := single ⟨0⟩) hok ht
    (by change n.get_layers ≠ []; rw [h2]; nofun)
    (fun l hl => by
      change l ∈ n.get_layers at hl
      rw [h2] at hl
      obtain rfl := List.mem_singleton.mp hl
      trivial) (single_wf _) h3.symm (single_wf _) h4.symm
  have e0 : n.layers[0]? = some (.fc l) := by change n.get_layers[0]? = _; rw [h2]; rfl
  obtain ⟨l2, s, s', gi, gi', p1, p2, p3, p4, p5, p6⟩ := a4 0 _ e0
  obtain ⟨_, i1, i2, _⟩ := infer_ok (b := b) hok (by change n.get_layers ≠ []; rw [h2]; nofun)
    (single_wf ⟨0x7f800000⟩) h3.symm
  obtain rfl := (Prod.mk.inj (Except.ok.inj (i1.symm.trans a1))).2
  obtain rfl := Option.some.inj (i2.symm.trans p2)
  have e1 : n.layers.length = 1 := by change n.get_layers.length = 1; rw [h2]; rfl
  rw [e1] at a3
  obtain rfl := Option.some.inj (a3.symm.trans p4)
  obtain ⟨_, _, _, f, rfl, q⟩ := fc_round (hok.layers _ (List.mem_of_getElem? e0))
    (ht.layers _ (List.mem_of_getElem? e0)) p6
  have hl : l.weights.shape = ⟨1, 1, 1⟩ := by rw [h5]; rfl
  have q0 := (q 0 (by rw [hl]; decide)).2 0 (by rw [hl]; decide)
  have hlen : n1.layers.length = 1 := by
    rw [forall₂_length (backward_effect _ _ _ a2).1, forall₂_length (infer_effect n _ _ a1).1, e1]
  refine ⟨n, _, n1, l, f, _, h1, h2, a1, a2, ?_, ?_, q0, ?_⟩
  · change n1.layers = _
    match n1.layers, hlen, p1 with
    | [y], _, p1 => rw [Option.some.inj p1]
  · rw [h8]; cases b <;> rfl
  · rw [h8]
    have e : masked l ⟨single ⟨0x7f800000⟩, single ⟨0⟩, single ⟨0x7f800000⟩, single ⟨0x7f800000⟩⟩ 0 = mk' false 0 := by
      have e1 : preact l (single ⟨0x7f800000⟩) 0 = ⟨0x7f800000⟩ := by
        rw [unit_preact _ _ _ h5 h6]
        decide +kernel
      unfold masked
      rw [e1]
      change F32.mul (if F32.gt ⟨0x7f800000⟩ (mk' false 0) then ⟨0x3f800000⟩ else mk' false 0) ⟨0⟩ = mk' false 0
      decide +kernel
    rw [e]
    change (F32.add ⟨0⟩ (F32.add (mk' false 0) (F32.mul (mk' false 0) ⟨0x7f800000⟩))).isNaN = true
    decide +kernel

/-- The hypotheses of `C113_finite` hold for the network `max(0, x + 1)` in training mode and the input 1. -/
example (b : Build) : ∃ (n n0 : Net F32) (l : FullyConnectedLayer F32), Trains b n ∧ n.get_layers = [.fc l] ∧
    (single ⟨0⟩).shape = n.get_output_shape ∧ (val (single ⟨0⟩) 0 0 0).code = 0 ∧
    (val l.weights 0 0 0).isFinite = true ∧ n.infer b (single ⟨0x3f800000⟩) = .ok (.ok (), n0) ∧
    ∀ (q : Nat) s, n0.get_intermediate_state q = .ok s →
      ∀ i j k, s.shape.Inside i j k → (val s i j k).isFinite = true := by
  obtain ⟨n, l, h1, h2, h3, h4, h5, h6, _⟩ := exUnit_trains b
  obtain ⟨hok, ht⟩ := trains_ready h1
  have hne : n.layers ≠ [] := by change n.get_layers ≠ []; rw [h2]; nofun
  obtain ⟨n0, i1, i2, i3⟩ := infer_ok (b := b) hok hne (single_wf ⟨0x3f800000⟩) h3.symm
  have e0 : n.layers[0]? = some (.fc l) := by change n.get_layers[0]? = _; rw [h2]; rfl
  obtain ⟨s, s', a1, a2, a3, _⟩ := i3 0 _ e0
  obtain rfl := Option.some.inj (i2.symm.trans a1)
  have in1 : (⟨1, 1, 1⟩ : TensorShape).Inside 0 0 0 := ⟨Nat.one_pos, Nat.one_pos, Nat.one_pos⟩
  have hsh : s'.shape = ⟨1, 1, 1⟩ := by
    rw [a3.2.1]
    change l.bias.shape = _
    rw [h6]; rfl
  have hv : val s' 0 0 0 = ⟨0x40000000⟩ := by
    have := a3.2.2 0 0 0 (by rw [← a3.2.1, hsh]; exact in1)
    rw [get_item_ok a3.1 (by rw [hsh]; exact in1)] at this
    injection this with this
    rw [this]
    simp only [layerAt]
    rw [act_relu _ (summed_preact _ _ _), unit_preact _ _ _ h5 h6]
    change (if F32.gt _ (mk' false 0) then _ else mk' false 0) = _
    decide +kernel
  have one : ∀ {i j k : Nat}, (⟨1, 1, 1⟩ : TensorShape).Inside i j k → i = 0 ∧ j = 0 ∧ k = 0 := fun h =>
    ⟨Nat.lt_one_iff.mp h.1, Nat.lt_one_iff.mp h.2.1, Nat.lt_one_iff.mp h.2.2⟩
  have hlen : n0.intermediate_states.length = 2 := by
    have e := chain_length (uses_netOk hok (.infer _ _ _ _ i1)).chain
    have e1 : n0.layers.length = 1 := by
      rw [forall₂_length (infer_effect n _ _ i1).1]
      change n.get_layers.length = 1; rw [h2]; rfl
    rw [if_neg (fun h => by rw [h] at e1; cases e1), e1] at e
    exact e
  refine ⟨n, n0, l, h1, h2, h4.symm, rfl, by rw [h5]; exact (by decide : (⟨0x3f800000⟩ : F32).isFinite = true), i1,
    fun q t hq i j k hin => ?_⟩
  unfold Network.get_intermediate_state at hq
  match q with
  | 0 =>
    rw [i2] at hq
    obtain rfl := Except.ok.inj hq
    obtain ⟨rfl, rfl, rfl⟩ := one hin
    exact (by decide : (⟨0x3f800000⟩ : F32).isFinite = true)
  | 1 =>
    rw [a2] at hq
    obtain rfl := Except.ok.inj hq
    rw [hsh] at hin
    obtain ⟨rfl, rfl, rfl⟩ := one hin
    rw [hv]
    decide
  | q + 2 =>
    rw [List.getElem?_eq_none (by omega)] at hq
    cases hq

end Rusty
