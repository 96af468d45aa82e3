import Verif.Lemmas.Linear
import Verif.Lemmas.Opposite
import Verif.Props.NetworkDerivative
import Verif.Props.Exact

/-! # C92 and C93: how the recorded gradients depend on the gradient given to `backward` -/

namespace Rusty

open F32Ops Spec

/-! ## C92 -/

section
open Exact

theorem linear_respected (a c : ℝ) : Respected (fun x y z : ℝ => z = a * x + c * y) where
  zero := by change (0 : ℝ) = a * 0 + c * 0; ring
  add := fun x y z x' y' z' h h' => by
    change z + z' = a * (x + x') + c * (y + y')
    rw [h, h']; ring
  left := fun v x y z h => by
    change v * z = a * (v * x) + c * (v * y)
    rw [h]; ring
  right := fun v x y z h => by
    change z * v = a * (x * v) + c * (y * v)
    rw [h]; ring

/-- C92: in exact arithmetic, call `infer` with any input and then `backward` with `g1`, `g2` or
`g3 = a * g1 + c * g2`.  What the last call adds to a weight or bias gradient is `a` times what the first adds plus
`c` times what the second adds. -/
theorem C92_linear (b : Build) (n : Net ℝ) (hn : Trains b n) (hne : n.get_layers ≠ [])
    (hbk : ∀ l ∈ n.get_layers, backable l) (x : Tensor ℝ) (hx : x.WF) (hxs : x.shape = n.get_input_shape)
    (g1 g2 g3 : Tensor ℝ) (hg1 : g1.WF ∧ g1.shape = n.get_output_shape)
    (hg2 : g2.WF ∧ g2.shape = n.get_output_shape) (hg3 : g3.WF ∧ g3.shape = n.get_output_shape) (a c : ℝ)
    (hg : ∀ i j k, n.get_output_shape.Inside i j k → val g3 i j k = a * val g1 i j k + c * val g2 i j k) :
    ∃ n0 n1 n2 n3, n.infer b x = .ok (.ok (), n0) ∧ n0.backward b g1 = .ok (.ok (), n1) ∧
      n0.backward b g2 = .ok (.ok (), n2) ∧ n0.backward b g3 = .ok (.ok (), n3) ∧
      ∀ (q : Nat) l, n.get_layers[q]? = some (.fc l) → ∃ l1 l2 l3, n1.get_layers[q]? = some (.fc l1) ∧
        n2.get_layers[q]? = some (.fc l2) ∧ n3.get_layers[q]? = some (.fc l3) ∧
        ∀ o, o < l.weights.shape.di.toNat →
          (∃ v1 v2 v3, l1.bias_gradients.get_item b (ix o 0 0) = .ok v1 ∧
            l2.bias_gradients.get_item b (ix o 0 0) = .ok v2 ∧ l3.bias_gradients.get_item b (ix o 0 0) = .ok v3 ∧
            v3 - val l.bias_gradients o 0 0 =
              a * (v1 - val l.bias_gradients o 0 0) + c * (v2 - val l.bias_gradients o 0 0)) ∧
          ∀ i, i < l.weights.shape.dj.toNat → ∃ v1 v2 v3, l1.weights_gradients.get_item b (ix o i 0) = .ok v1 ∧
            l2.weights_gradients.get_item b (ix o i 0) = .ok v2 ∧
            l3.weights_gradients.get_item b (ix o i 0) = .ok v3 ∧
            v3 - val l.weights_gradients o i 0 =
              a * (v1 - val l.weights_gradients o i 0) + c * (v2 - val l.weights_gradients o i 0) := by
  obtain ⟨hok, ht⟩ := trains_ready hn
  obtain ⟨n0, n1, h0, h1, _⟩ := net_round (b := b) hok ht hne hbk hx hxs hg1.1 hg1.2
  obtain ⟨n0', n2, h0', h2, _⟩ := net_round (b := b) hok ht hne hbk hx hxs hg2.1 hg2.2
  obtain rfl : n0 = n0' := (Prod.mk.inj (Except.ok.inj (h0.symm.trans h0'))).2
  obtain ⟨n0', n3, h0', h3, _⟩ := net_round (b := b) hok ht hne hbk hx hxs hg3.1 hg3.2
  obtain rfl : n0 = n0' := (Prod.mk.inj (Except.ok.inj (h0.symm.trans h0'))).2
  obtain ⟨_, H⟩ := net_respected (linear_respected a c) hok ht hne hbk hx hxs hg1 hg2 hg3
    (related_of_val (linear_respected a c) hg1.1 hg2.1 hg3.1 (hg2.2.trans hg1.2.symm) (hg3.2.trans hg1.2.symm)
      (fun i j k hin => hg i j k (by rw [← hg1.2]; exact hin))) h0 h1 h2 h3
  refine ⟨n0, n1, n2, n3, h0, h1, h2, h3, fun q l hq => ?_⟩
  obtain ⟨l1, l2, l3, e1, e2, e3, e4⟩ := H q l hq
  refine ⟨l1, l2, l3, e1, e2, e3, fun o ho => ?_⟩
  obtain ⟨⟨d1, d2, d3, f1, f2, f3, f4⟩, e5⟩ := e4 o ho
  refine ⟨⟨_, _, _, f2, f3, f4, ?_⟩, fun i hi => ?_⟩
  · change val l.bias_gradients o 0 0 + d3 - val l.bias_gradients o 0 0 =
      a * (val l.bias_gradients o 0 0 + d1 - val l.bias_gradients o 0 0) +
      c * (val l.bias_gradients o 0 0 + d2 - val l.bias_gradients o 0 0)
    rw [f1]; ring
  · obtain ⟨d1, d2, d3, f1, f2, f3, f4⟩ := e5 i hi
    refine ⟨_, _, _, f2, f3, f4, ?_⟩
    change val l.weights_gradients o i 0 + d3 - val l.weights_gradients o i 0 =
      a * (val l.weights_gradients o i 0 + d1 - val l.weights_gradients o i 0) +
      c * (val l.weights_gradients o i 0 + d2 - val l.weights_gradients o i 0)
    rw [f1]; ring

/-- C92: in exact arithmetic a zero gradient adds nothing. -/
theorem C92_zero (b : Build) (n : Net ℝ) (hn : Trains b n) (hne : n.get_layers ≠ [])
    (hbk : ∀ l ∈ n.get_layers, backable l) (x : Tensor ℝ) (hx : x.WF) (hxs : x.shape = n.get_input_shape)
    (g : Tensor ℝ) (hg : g.WF ∧ g.shape = n.get_output_shape)
    (h0 : ∀ i j k, n.get_output_shape.Inside i j k → val g i j k = 0) :
    ∃ n0 n1, n.infer b x = .ok (.ok (), n0) ∧ n0.backward b g = .ok (.ok (), n1) ∧
      ∀ (q : Nat) l, n.get_layers[q]? = some (.fc l) → ∃ l1, n1.get_layers[q]? = some (.fc l1) ∧
        ∀ o, o < l.weights.shape.di.toNat →
          l1.bias_gradients.get_item b (ix o 0 0) = l.bias_gradients.get_item b (ix o 0 0) ∧
          ∀ i, i < l.weights.shape.dj.toNat →
            l1.weights_gradients.get_item b (ix o i 0) = l.weights_gradients.get_item b (ix o i 0) := by
  obtain ⟨n0, n1, n2, n3, a1, a2, _, a4, H⟩ := C92_linear b n hn hne hbk x hx hxs g g g hg hg hg 0 0
    (fun i j k hin => by rw [h0 i j k hin]; ring)
  refine ⟨n0, n1, a1, a2, fun q l hq => ?_⟩
  obtain rfl : n1 = n3 := (Prod.mk.inj (Except.ok.inj (a2.symm.trans a4))).2
  obtain ⟨l1, l2, l3, e1, _, e3, e4⟩ := H q l hq
  obtain rfl : l1 = l3 := AnyLayer.fc.inj (Option.some.inj (e1.symm.trans e3))
  refine ⟨l1, e1, fun o ho => ?_⟩
  obtain ⟨w, w'⟩ := fc_grad_inside hn rfl hq hq
  obtain ⟨⟨v1, v2, v3, f1, _, f3, f4⟩, e5⟩ := e4 o ho
  refine ⟨?_, fun i hi => ?_⟩
  · rw [f3, get_item_ok (w o ho).1 (w o ho).2]
    congr 1
    linarith
  · obtain ⟨v1, v2, v3, f1, _, f3, f4⟩ := e5 i hi
    rw [f3, get_item_ok (w' o i ho hi).1 (w' o i ho hi).2]
    congr 1
    linarith

/-- The hypotheses of C92 hold for a fully connected layer followed by softmax. -/
example (b : Build) (a c : ℝ) : ∃ (n : Net ℝ) (x g1 g2 g3 : Tensor ℝ), Trains b n ∧
    n.get_layers = [.fc exFCR, .sm exSMR2] ∧ (∀ l ∈ n.get_layers, backable l) ∧
    (x.WF ∧ x.shape = n.get_input_shape) ∧ (g1.WF ∧ g1.shape = n.get_output_shape) ∧
    (g2.WF ∧ g2.shape = n.get_output_shape) ∧ (g3.WF ∧ g3.shape = n.get_output_shape) ∧
    val g1 0 0 0 = 1 ∧ val g2 0 0 0 = 0 ∧
    ∀ i j k, n.get_output_shape.Inside i j k → val g3 i j k = a * val g1 i j k + c * val g2 i j k := by
  have h1 : ∃ n1 : Net ℝ, (Network.new .Training : Net ℝ).add_layer b (.fc exFCR) = .ok (.ok (), n1) ∧
      ∃ n2 : Net ℝ, n1.add_layer b (.sm exSMR2) = .ok (.ok (), n2) ∧
      n2.get_layers = [.fc exFCR, .sm exSMR2] ∧
      n2.get_input_shape = ⟨3, 1, 1⟩ ∧ n2.get_output_shape = ⟨2, 1, 1⟩ := by
    cases b <;> exact ⟨_, rfl, _, rfl, rfl, rfl, rfl⟩
  obtain ⟨n1, h1, n2, h2, h3, h4, h5⟩ := h1
  have wf : ∀ u v : ℝ, (⟨⟨1, 2, 2⟩, ⟨2, 1, 1⟩, [u, v]⟩ : Tensor ℝ).WF := fun u v =>
    ⟨(by decide : (⟨2, 1, 1⟩ : TensorShape).Fits), rfl, rfl, rfl, rfl⟩
  refine ⟨n2, zeros ⟨3, 1, 1⟩, ⟨⟨1, 2, 2⟩, ⟨2, 1, 1⟩, [1, 0]⟩, ⟨⟨1, 2, 2⟩, ⟨2, 1, 1⟩, [0, 1]⟩,
    ⟨⟨1, 2, 2⟩, ⟨2, 1, 1⟩, [a, c]⟩, .add_layer _ (.sm exSMR2) _ _ (.add_layer _ (.fc exFCR) _ _ .new exFCR_ok h1)
    exSMR2_ok h2, h3, ?_, ⟨zeros_wf (by decide), h4.symm⟩, ⟨wf _ _, h5.symm⟩, ⟨wf _ _, h5.symm⟩, ⟨wf _ _, h5.symm⟩,
    rfl, rfl, ?_⟩
  · rw [h3]
    intro l hl
    simp only [List.mem_cons, List.not_mem_nil, or_false] at hl
    rcases hl with rfl | rfl
    · trivial
    · exact ⟨rfl, rfl⟩
  · rw [h5]
    rintro i j k ⟨hi, hj, hk⟩
    obtain rfl : j = 0 := Nat.lt_one_iff.mp hj
    obtain rfl : k = 0 := Nat.lt_one_iff.mp hk
    have hi : i < 2 := hi
    have : i = 0 ∨ i = 1 := by omega
    rcases this with rfl | rfl
    · change a = a * 1 + c * 0; ring
    · change c = a * 0 + c * 1; ring

end

/-! ## C93 -/

section
open F32
variable [Libm]

/-- C93: in `f32`, call `infer` with any input and then `backward` with `g` or with the negated `g'`.  A weight or bias
gradient that was zero before is afterwards negated, NaN in both cases, or zero in both cases.  No rounding error and
no overflow breaks this. -/
theorem C93_opposite (b : Build) (n : Net F32) (hn : Trains b n) (hne : n.get_layers ≠ [])
    (hbk : ∀ l ∈ n.get_layers, backable l) (x : Tensor F32) (hx : x.WF) (hxs : x.shape = n.get_input_shape)
    (g g' : Tensor F32) (hg1 : g.WF ∧ g.shape = n.get_output_shape)
    (hg2 : g'.WF ∧ g'.shape = n.get_output_shape)
    (hg : ∀ i j k, n.get_output_shape.Inside i j k → Opposite (val g i j k) (val g' i j k)) :
    ∃ n0 n1 n2, n.infer b x = .ok (.ok (), n0) ∧ n0.backward b g = .ok (.ok (), n1) ∧
      n0.backward b g' = .ok (.ok (), n2) ∧
      ∀ (q : Nat) l, n.get_layers[q]? = some (.fc l) → ∃ l1 l2, n1.get_layers[q]? = some (.fc l1) ∧
        n2.get_layers[q]? = some (.fc l2) ∧
        ∀ o, o < l.weights.shape.di.toNat →
          ((val l.bias_gradients o 0 0).code = 0 → ∃ v1 v2, l1.bias_gradients.get_item b (ix o 0 0) = .ok v1 ∧
            l2.bias_gradients.get_item b (ix o 0 0) = .ok v2 ∧ Opposite v1 v2) ∧
          ∀ i, i < l.weights.shape.dj.toNat → (val l.weights_gradients o i 0).code = 0 →
            ∃ v1 v2, l1.weights_gradients.get_item b (ix o i 0) = .ok v1 ∧
              l2.weights_gradients.get_item b (ix o i 0) = .ok v2 ∧ Opposite v1 v2 := by
  obtain ⟨hok, ht⟩ := trains_ready hn
  obtain ⟨n0, n1, h0, h1, _⟩ := net_round (b := b) hok ht hne hbk hx hxs hg1.1 hg1.2
  obtain ⟨n0', n2, h0', h2, _⟩ := net_round (b := b) hok ht hne hbk hx hxs hg2.1 hg2.2
  obtain rfl : n0 = n0' := (Prod.mk.inj (Except.ok.inj (h0.symm.trans h0'))).2
  obtain ⟨_, H⟩ := net_respected opposite_respected hok ht hne hbk hx hxs hg1 hg2 hg1
    (related_of_val opposite_respected hg1.1 hg2.1 hg1.1 (hg2.2.trans hg1.2.symm) rfl
      (fun i j k hin => hg i j k (by rw [← hg1.2]; exact hin))) h0 h1 h2 h1
  refine ⟨n0, n1, n2, h0, h1, h2, fun q l hq => ?_⟩
  obtain ⟨l1, l2, _, e1, e2, _, e4⟩ := H q l hq
  refine ⟨l1, l2, e1, e2, fun o ho => ?_⟩
  obtain ⟨⟨d1, d2, _, f1, f2, f3, _⟩, e5⟩ := e4 o ho
  refine ⟨fun hz => ⟨_, _, f2, f3, opposite_add (.inr ⟨rfl, .inl hz⟩) f1⟩, fun i hi hz => ?_⟩
  obtain ⟨d1, d2, _, f1, f2, f3, _⟩ := e5 i hi
  exact ⟨_, _, f2, f3, opposite_add (.inr ⟨rfl, .inl hz⟩) f1⟩

/-- The hypotheses of C93 hold for the network `max(0, x + 1)` in training mode, whose gradients are zero, and the
gradients 1 and -1. -/
example (b : Build) : ∃ (n : Net F32) (l : FullyConnectedLayer F32), Trains b n ∧ n.get_layers = [.fc l] ∧
    (single ⟨0⟩).shape = n.get_input_shape ∧ (single ⟨0⟩).shape = n.get_output_shape ∧
    (val l.bias_gradients 0 0 0).code = 0 ∧ (val l.weights_gradients 0 0 0).code = 0 ∧
    Opposite (val (single ⟨0x3f800000⟩) 0 0 0) (val (single ⟨0xbf800000⟩) 0 0 0) :=
  ⟨_, _, .add_layer (Network.new .Training) (.fc exUnit) (.ok ()) _ .new
      ⟨single_wf _, single_wf _, rfl, rfl, fun _ => ⟨⟨single_wf _, rfl⟩, ⟨single_wf _, rfl⟩,
        ⟨single_wf _, rfl⟩, ⟨single_wf _, rfl⟩⟩⟩ (by cases b <;> rfl), rfl, rfl, rfl, rfl, rfl,
    .inr ⟨(by decide : (⟨0x3f800000⟩ : F32).code = (⟨0xbf800000⟩ : F32).code), .inr rfl⟩⟩

end

end Rusty
