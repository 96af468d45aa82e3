import Verif.Spec.DeadUnits
import Verif.Lemmas.DeadUnits
import Verif.Props.ZeroGradient
import Verif.Props.ConvLayer

/-! # C144: units that give zero learn nothing -/

namespace Rusty

open F32Ops Spec F32

variable [Libm]

/-- C144: a unit of a fully connected layer that gave zero in `infer` records nothing in `backward`: the gradients of its
weights and of its bias are the same numbers as before, or NaN.  They are not NaN if they were not before and the
gradient that reaches the layer and the layer's input are finite. -/
theorem C144_unit (b : Build) (n : Net F32) (hn : Trains b n) (hbk : ∀ l ∈ n.get_layers, backable l)
    (x : Tensor F32) (hx : x.WF) (hxs : x.shape = n.get_input_shape)
    (g : Tensor F32) (hg : g.WF ∧ g.shape = n.get_output_shape)
    (n0 : Net F32) (hi : n.infer b x = .ok (.ok (), n0)) (c : Nat) (l : FullyConnectedLayer F32)
    (hc : n.get_layers[c]? = some (.fc l)) (o : Nat) (ho : o < l.weights.shape.di.toNat) (hd : Dead n0 c o) :
    ∃ n1 l1, n0.backward b g = .ok (.ok (), n1) ∧ n1.get_layers[c]? = some (.fc l1) ∧
      UnitGradients b SameOrNaN l l1 o ∧
      (GradientFinite n1 (c + 1) → StateFinite n0 c →
        UnitGradients b (fun v u => u.isNaN = false → SameNumber v u) l l1 o) := by
  obtain ⟨hok, ht⟩ := trains_ready hn
  have hne : n.layers ≠ [] := List.ne_nil_of_mem (List.mem_of_getElem? hc)
  obtain ⟨n0', n1, h1, h2, _, h3⟩ := net_round (b := b) hok ht hne hbk hx hxs hg.1 hg.2
  obtain rfl : n0 = n0' := (Prod.mk.inj (Except.ok.inj (hi.symm.trans h1))).2
  obtain ⟨l2, s, s', gi, gi', p1, p2, p3, p4, p5, p6⟩ := h3 c _ hc
  have hl : l.Ok := hok.layers _ (List.mem_of_getElem? hc)
  have hlm : l.run_state = .Training := ht.layers _ (List.mem_of_getElem? hc)
  obtain ⟨l1, rfl, q⟩ := unit_gradients hn hc p6
  obtain ⟨s1, d1, d2⟩ := hd
  rw [state_ok p3] at d1
  obtain rfl := Except.ok.inj d1
  obtain ⟨v1, v2⟩ := dead_masked (g := gi) (dead_gate hl hlm p6 ho d2)
  refine ⟨n1, l1, h2, p1, (q o ho).1 v1, fun f1 f2 => (q o ho).2 (v2 (f1 _ p4 o 0 0 ?_)) (f2 _ (state_ok p2))⟩
  rw [p6.hg.2]
  change l.bias.shape.Inside o 0 0
  rw [hl.rows]
  exact ⟨ho, Nat.one_pos, Nat.one_pos⟩

/-- C144: if all units of a fully connected layer gave zero, then neither this layer nor any layer before it records
anything, and the gradient passed back to the input consists of zeros (or NaNs, unless all numbers are finite). -/
theorem C144_layer (b : Build) (n : Net F32) (hn : Trains b n) (hbk : ∀ l ∈ n.get_layers, backable l)
    (x : Tensor F32) (hx : x.WF) (hxs : x.shape = n.get_input_shape)
    (g : Tensor F32) (hg : g.WF ∧ g.shape = n.get_output_shape)
    (n0 : Net F32) (hi : n.infer b x = .ok (.ok (), n0)) (d : Nat) (dl : FullyConnectedLayer F32)
    (hdl : n.get_layers[d]? = some (.fc dl)) (hd : ∀ o, o < dl.weights.shape.di.toNat → Dead n0 d o) :
    ∃ n1, n0.backward b g = .ok (.ok (), n1) ∧
      (∀ c l, c ≤ d → n.get_layers[c]? = some (.fc l) → ∃ l1, n1.get_layers[c]? = some (.fc l1) ∧
        ∀ o, o < l.weights.shape.di.toNat → UnitGradients b SameOrNaN l l1 o) ∧
      (∃ t, n1.intermediate_gradients[0]? = some t ∧ t.shape = n.get_input_shape ∧
        ∀ i j k, n.get_input_shape.Inside i j k → ∃ v, t.get_item b (ix i j k) = .ok v ∧
          (v.isNaN = true ∨ v.code = 0)) ∧
      (GradientFinite n1 (d + 1) → (∀ q ≤ d + 1, StateFinite n0 q) →
        (∀ c l, c ≤ d → n.get_layers[c]? = some (.fc l) → ∀ o i, o < l.weights.shape.di.toNat →
          i < l.weights.shape.dj.toNat → (val l.weights o i 0).isFinite = true) →
        (∀ c l, c ≤ d → n.get_layers[c]? = some (.fc l) → ∃ l1, n1.get_layers[c]? = some (.fc l1) ∧
          ∀ o, o < l.weights.shape.di.toNat →
            UnitGradients b (fun v u => u.isNaN = false → SameNumber v u) l l1 o) ∧
        ∃ t, n1.intermediate_gradients[0]? = some t ∧ t.shape = n.get_input_shape ∧
          ∀ i j k, n.get_input_shape.Inside i j k → ∃ v, t.get_item b (ix i j k) = .ok v ∧ v.code = 0) := by
  obtain ⟨hok, ht⟩ := trains_ready hn
  have hne : n.layers ≠ [] := List.ne_nil_of_mem (List.mem_of_getElem? hdl)
  obtain ⟨n0', n1, h1, h2, _, h3⟩ := net_round (b := b) hok ht hne hbk hx hxs hg.1 hg.2
  obtain rfl : n0 = n0' := (Prod.mk.inj (Except.ok.inj (hi.symm.trans h1))).2
  have hdlt : d < n.layers.length := (List.getElem?_eq_some_iff.mp hdl).1
  -- the gradient in front of the dead layer
  obtain ⟨l2, s, s', gi, gi', p1, p2, p3, p4, p5, p6⟩ := h3 d _ hdl
  have hl : dl.Ok := hok.layers _ (List.mem_of_getElem? hdl)
  have hlm : dl.run_state = .Training := ht.layers _ (List.mem_of_getElem? hdl)
  obtain ⟨g1, g2, g3, _⟩ := fc_round hl hlm p6
  have gate : ∀ o, o < dl.weights.shape.di.toNat → F32Ops.gt (preact dl s o) F32Ops.zero = false := fun o ho => by
    obtain ⟨s1, d1, d2⟩ := hd o ho
    rw [state_ok p3] at d1
    obtain rfl := Except.ok.inj d1
    exact dead_gate hl hlm p6 ho d2
  have inside : ∀ {i j k}, gi'.shape.Inside i j k → i < dl.weights.shape.dj.toNat ∧ j = 0 ∧ k = 0 := fun h => by
    rw [g2] at h
    exact ⟨h.1, Nat.lt_one_iff.mp h.2.1, Nat.lt_one_iff.mp h.2.2⟩
  have hgi : ∀ o, o < dl.weights.shape.di.toNat → gi.shape.Inside o 0 0 := fun o ho => by
    rw [p6.hg.2]
    change dl.bias.shape.Inside o 0 0
    rw [hl.rows]
    exact ⟨ho, Nat.one_pos, Nat.one_pos⟩
  have v0 : VoidData gi' := related_of_val void_respected g1 g1 g1 rfl rfl fun i j k hin => by
    obtain ⟨h, rfl, rfl⟩ := inside hin
    rw [g3 i h]
    exact sum_respected void_respected _ _ (fun _ => zero) (fun _ => zero) fun o ho =>
      void_respected.left _ _ zero zero (dead_masked (gate o (List.mem_range.mp ho))).1
  have all := void_from hok ht hbk h3 hdlt.le p5 v0
  refine ⟨n1, h2, fun c l hcd hc => ?_, ?_, fun f1 f2 f3 => ?_⟩
  · obtain ⟨m2, u, u', f, f', r1, r2, r3, r4, r5, r6⟩ := h3 c _ hc
    obtain ⟨l1, rfl, q⟩ := unit_gradients hn hc r6
    refine ⟨l1, r1, fun o ho => (q o ho).1 ?_⟩
    rcases Nat.lt_or_eq_of_le hcd with hlt | rfl
    · obtain ⟨t, e1, e2⟩ := all (c + 1) hlt
      obtain rfl := Option.some.inj (e1.symm.trans r4)
      exact masked_void (related_val rfl rfl e2 o 0 0)
    · obtain rfl : dl = l := by rw [hdl] at hc; exact AnyLayer.fc.inj (Option.some.inj hc)
      obtain ⟨s1, d1, d2⟩ := hd o ho
      rw [state_ok r3] at d1
      obtain rfl := Except.ok.inj d1
      exact (dead_masked (dead_gate hl hlm r6 ho d2)).1
  · obtain ⟨t, e1, e2⟩ := all 0 (Nat.zero_le _)
    obtain ⟨w1, w2⟩ := gradient_shape hok ht hne hx hxs hg.1 h1 h2 e1
    exact ⟨t, e1, w2, fun i j k hin => ⟨_, get_item_ok w1 (by rw [w2]; exact hin), related_val rfl rfl e2 i j k⟩⟩
  · have z0 : ZeroData gi' := zeroData_of_val g1 fun i j k hin => by
      obtain ⟨h, rfl, rfl⟩ := inside hin
      rw [g3 i h]
      refine sum_zeros_code fun z hz => ?_
      obtain ⟨o, ho, rfl⟩ := List.mem_map.mp hz
      have ho := List.mem_range.mp ho
      exact mul_zero_code ((dead_masked (gate o ho)).2 (f1 _ p4 o 0 0 (hgi o ho))) (f3 d dl le_rfl hdl o i ho h)
    have zeros := zero_from hok ht hbk h3 hdlt.le p5 z0 (fun c l hc hl => f3 c l hc.le hl)
      (fun q s hq hs => f2 q (by omega) s (state_ok hs))
    refine ⟨fun c l hcd hc => ?_, ?_⟩
    · obtain ⟨m2, u, u', f, f', r1, r2, r3, r4, r5, r6⟩ := h3 c _ hc
      obtain ⟨l1, rfl, q⟩ := unit_gradients hn hc r6
      refine ⟨l1, r1, fun o ho => (q o ho).2 ?_ (f2 c (by omega) _ (state_ok r2))⟩
      rcases Nat.lt_or_eq_of_le hcd with hlt | rfl
      · obtain ⟨t, e1, e2⟩ := zeros (c + 1) hlt
        obtain rfl := Option.some.inj (e1.symm.trans r4)
        exact masked_zero (zeroData_val e2 o 0 0)
      · obtain rfl : dl = l := by rw [hdl] at hc; exact AnyLayer.fc.inj (Option.some.inj hc)
        obtain ⟨s1, d1, d2⟩ := hd o ho
        rw [state_ok r3] at d1
        obtain rfl := Except.ok.inj d1
        refine (dead_masked (dead_gate hl hlm r6 ho d2)).2 (f1 _ r4 o 0 0 ?_)
        rw [r6.hg.2]
        change dl.bias.shape.Inside o 0 0
        rw [hl.rows]
        exact ⟨ho, Nat.one_pos, Nat.one_pos⟩
    · obtain ⟨t, e1, e2⟩ := zeros 0 (Nat.zero_le _)
      obtain ⟨w1, w2⟩ := gradient_shape hok ht hne hx hxs hg.1 h1 h2 e1
      exact ⟨t, e1, w2, fun i j k hin => ⟨_, get_item_ok w1 (by rw [w2]; exact hin), zeroData_val e2 i j k⟩⟩

/-- the network `max(0, x + 1)` in training mode gives zero for the input -2 -/
theorem exUnit_dead (b : Build) (g : F32) : ∃ (n n0 n1 : Net F32) (l l1 : FullyConnectedLayer F32), Trains b n ∧
    n.get_layers = [.fc l] ∧ (∀ l ∈ n.get_layers, backable l) ∧ n.get_input_shape = ⟨1, 1, 1⟩ ∧
    n.get_output_shape = ⟨1, 1, 1⟩ ∧ n.infer b (single ⟨0xc0000000⟩) = .ok (.ok (), n0) ∧ Dead n0 0 0 ∧
    n0.backward b (single g) = .ok (.ok (), n1) ∧ n1.get_layers[0]? = some (.fc l1) ∧
    l.bias_gradients.get_item b (ix 0 0 0) = .ok ⟨0⟩ ∧
    l1.bias_gradients.get_item b (ix 0 0 0) = .ok (F32.add ⟨0⟩ (F32.mul ⟨0⟩ g)) := by
  obtain ⟨n, l, h1, h2, h3, h4, h5, h6, h7, h8⟩ := exUnit_trains b
  obtain ⟨hok, ht⟩ := trains_ready h1
  have hne : n.layers ≠ [] := by change n.get_layers ≠ []; rw [h2]; nofun
  have hbk : ∀ l ∈ n.get_layers, backable l := fun l hl => by
    rw [h2] at hl
    obtain rfl := List.mem_singleton.mp hl
    trivial
  obtain ⟨n0, n1, a1, a2, a3, a4⟩ := net_round (b := b) (x := single ⟨0xc0000000⟩) (g := single g) hok ht hne hbk
    (single_wf _) h3.symm (single_wf _) h4.symm
  have e0 : n.layers[0]? = some (.fc l) := by change n.get_layers[0]? = _; rw [h2]; rfl
  obtain ⟨l2, s, s', gi, gi', p1, p2, p3, p4, p5, p6⟩ := a4 0 _ e0
  obtain ⟨_, i1, i2, i3⟩ := infer_ok (b := b) hok hne (single_wf ⟨0xc0000000⟩) h3.symm
  obtain rfl := (Prod.mk.inj (Except.ok.inj (i1.symm.trans a1))).2
  obtain rfl := Option.some.inj (i2.symm.trans p2)
  have e1 : n.layers.length = 1 := by change n.get_layers.length = 1; rw [h2]; rfl
  rw [e1] at a3
  obtain rfl := Option.some.inj (a3.symm.trans p4)
  have hlm : l.run_state = .Training := ht.layers _ (List.mem_of_getElem? e0)
  obtain ⟨_, _, _, f, rfl, q⟩ := fc_round (hok.layers _ (List.mem_of_getElem? e0)) hlm p6
  have hl : l.weights.shape = ⟨1, 1, 1⟩ := by rw [h5]; rfl
  have q0 := (q 0 (by rw [hl]; decide)).1
  have pre : preact l (single ⟨0xc0000000⟩) 0 = ⟨0xbf800000⟩ := by
    rw [unit_preact _ _ _ h5 h6]
    decide +kernel
  obtain ⟨t, t', c1, c2, c3, _⟩ := i3 0 _ e0
  obtain rfl := Option.some.inj (i2.symm.trans c1)
  refine ⟨n, _, n1, l, f, h1, h2, hbk, h3, h4, a1, ⟨t', state_ok c2, ?_⟩, a2, p1, ?_, ?_⟩
  · rw [applies_val c3 (by change l.bias.shape.Inside 0 0 0; rw [h6]; exact ⟨Nat.one_pos, Nat.one_pos, Nat.one_pos⟩)]
    simp only [layerAt, hlm, act, pre]
    unfold relu
    change (if F32.gt ⟨0xbf800000⟩ (mk' false 0) then ⟨0xbf800000⟩ else mk' false 0 : F32).code = 0
    decide +kernel
  · rw [h7]; cases b <;> rfl
  · rw [q0, h7]
    unfold masked
    rw [pre]
    change Except.ok (F32.add ⟨0⟩ (F32.mul (if F32.gt ⟨0xbf800000⟩ (mk' false 0) then ⟨0x3f800000⟩ else mk' false 0) g)) = _
    rw [show F32.gt ⟨0xbf800000⟩ (mk' false 0) = false by decide +kernel]
    rfl

/-- C144: NaN does occur.  The network `max(0, x + 1)` gives zero for the input -2; an infinite gradient turns the bias
gradient of this dead unit from zero into NaN. -/
theorem C144_nan (b : Build) : ∃ (n n0 n1 : Net F32) (l l1 : FullyConnectedLayer F32) (v : F32), Trains b n ∧
    n.get_layers = [.fc l] ∧ n.infer b (single ⟨0xc0000000⟩) = .ok (.ok (), n0) ∧ Dead n0 0 0 ∧
    n0.backward b (single ⟨0x7f800000⟩) = .ok (.ok (), n1) ∧ n1.get_layers[0]? = some (.fc l1) ∧
    l.bias_gradients.get_item b (ix 0 0 0) = .ok ⟨0⟩ ∧ l1.bias_gradients.get_item b (ix 0 0 0) = .ok v ∧
    v.isNaN = true := by
  obtain ⟨n, n0, n1, l, l1, h1, h2, _, _, _, h3, h4, h5, h6, h7, h8⟩ := exUnit_dead b ⟨0x7f800000⟩
  exact ⟨n, n0, n1, l, l1, _, h1, h2, h3, h4, h5, h6, h7, h8, by decide +kernel⟩

open Toy in
omit [Libm] in
/-- C144: convolutional layers are different.  Here a network of one convolutional layer gives zero, and still records
the kernel gradient 15 and passes back the gradient -10. -/
theorem C144_convolutional (b : Build) : ∃ (n n0 n1 : Net Int) (l1 : ConvolutionalLayer Int) (y t : Tensor Int),
    (Network.new .Training : Net Int).add_layer b (.conv (exConv1 (-2) 0)) = .ok (.ok (), n) ∧
    n.infer b { exBias with data := [3] } = .ok (.ok (), n0) ∧ n0.get_output = .ok y ∧ y.data = [0] ∧
    n0.backward b { exBias with data := [5] } = .ok (.ok (), n1) ∧ n1.get_layers = [.conv l1] ∧
    l1.kernel_gradients.map (·.data) = [[15]] ∧ n1.intermediate_gradients[0]? = some t ∧ t.data = [-10] := by
  cases b <;> exact ⟨_, _, _, _, _, _, rfl, rfl, rfl, rfl, rfl, rfl, rfl, rfl, rfl⟩

/-- The hypotheses of `C144_unit` and `C144_layer` hold for the network `max(0, x + 1)`, the input -2 and the gradient
1; its only unit is dead. -/
example (b : Build) : ∃ (n n0 : Net F32) (l : FullyConnectedLayer F32), Trains b n ∧ (∀ l ∈ n.get_layers, backable l) ∧
    (single ⟨0xc0000000⟩).shape = n.get_input_shape ∧ (single ⟨0x3f800000⟩).shape = n.get_output_shape ∧
    n.infer b (single ⟨0xc0000000⟩) = .ok (.ok (), n0) ∧ n.get_layers[0]? = some (.fc l) ∧ Dead n0 0 0 := by
  obtain ⟨n, n0, n1, l, l1, h1, h2, h3, h4, h5, h6, h7, _⟩ := exUnit_dead b ⟨0x3f800000⟩
  exact ⟨n, n0, l, h1, h3, h4.symm, h5.symm, h6, by rw [h2]; rfl, h7⟩

end Rusty
