import Verif.Lemmas.Leak
import Verif.Lemmas.Classifier
import Verif.Props.NaNInput
import Verif.Props.Folding

/-! # C151: the gradients of one example show the example -/

namespace Rusty

open F32Ops Spec

section
open Exact

/-- C151: in exact arithmetic, after one example the gradient of every weight of a fully connected layer is the gradient
of the bias of its unit times the entry of the input of the layer.  So every unit with a non-zero bias gradient shows the
whole input of the layer, which is the example itself for the first layer. -/
theorem C151_exact (b : Build) (n : Net ℝ) (hn : Trains b n) (hbk : ∀ l ∈ n.get_layers, backable l) (x g : Tensor ℝ)
    (hx : x.WF) (hxs : x.shape = n.get_input_shape) (hg : g.WF) (hgs : g.shape = n.get_output_shape) (c : Nat)
    (l : FullyConnectedLayer ℝ) (hc : n.get_layers[c]? = some (.fc l)) (hz : cleared (.fc l)) :
    ∃ n1 n2 s l2, n.infer b x = .ok (.ok (), n1) ∧ n1.backward b g = .ok (.ok (), n2) ∧
      n1.get_intermediate_state c = .ok s ∧ (c = 0 → s = x) ∧ n2.get_layers[c]? = some (.fc l2) ∧
      ∀ o, o < l.weights.shape.di.toNat → ∃ v, l2.bias_gradients.get_item b (ix o 0 0) = .ok v ∧
        ∀ i, i < l.weights.shape.dj.toNat → ∃ w, l2.weights_gradients.get_item b (ix o i 0) = .ok w ∧
          w = v * val s i 0 0 ∧ (v ≠ 0 → val s i 0 0 = w / v) := by
  have hne : n.layers ≠ [] := List.ne_nil_of_mem (List.mem_of_getElem? hc)
  obtain ⟨hok, ht⟩ := trains_ready hn
  obtain ⟨m1, i1, i2, _⟩ := infer_ok (b := b) hok hne hx hxs
  obtain ⟨n1, n2, a1, a2, _, a4⟩ := net_round (b := b) hok ht hne hbk hx hxs hg hgs
  obtain ⟨l2, s, s', gi, gi', r1, r2, _, _, _, r6⟩ := a4 c _ hc
  rw [(Prod.mk.inj (Except.ok.inj (i1.symm.trans a1))).2] at i2
  have hl : l.Ok := hok.layers _ (List.mem_of_getElem? hc)
  obtain ⟨_, _, _, f, rfl, h⟩ := fc_round hl (ht.layers _ (List.mem_of_getElem? hc)) r6
  refine ⟨n1, n2, s, f, a1, a2, by unfold Network.get_intermediate_state; rw [r2], ?_, r1, fun o ho =>
    ⟨_, (h o ho).1, fun i hi => ⟨_, (h o ho).2 i hi, ?_⟩⟩⟩
  · rintro rfl
    exact Option.some.inj (r2.symm.trans i2)
  · have e : add (val l.weights_gradients o i 0) (sum [mul (masked l ⟨s, gi, s, s⟩ o) (val s i 0 0)]) =
        add (val l.bias_gradients o 0 0) (masked l ⟨s, gi, s, s⟩ o) * val s i 0 0 := by
      rw [zero_val hz.1, zero_val hz.2.2.1, sum_real, List.sum_singleton]
      change (0 : ℝ) + masked l ⟨s, gi, s, s⟩ o * val s i 0 0 = (0 + masked l ⟨s, gi, s, s⟩ o) * val s i 0 0
      ring
    refine ⟨e, fun hv => ?_⟩
    rw [e, mul_div_cancel_left₀ _ hv]

end

open F32

variable [Libm]

/-- C151: in f32 the gradient of the weight is the rounded product, and the quotient is near the entry. -/
theorem C151_f32 (b : Build) (n : Net F32) (hn : Trains b n) (hbk : ∀ l ∈ n.get_layers, backable l) (x g : Tensor F32)
    (hx : x.WF) (hxs : x.shape = n.get_input_shape) (hg : g.WF) (hgs : g.shape = n.get_output_shape) (c : Nat)
    (l : FullyConnectedLayer F32) (hc : n.get_layers[c]? = some (.fc l)) (hz : cleared (.fc l)) :
    ∃ n1 n2 s l2, n.infer b x = .ok (.ok (), n1) ∧ n1.backward b g = .ok (.ok (), n2) ∧
      n1.get_intermediate_state c = .ok s ∧ (c = 0 → s = x) ∧ n2.get_layers[c]? = some (.fc l2) ∧
      ∀ o, o < l.weights.shape.di.toNat → ∃ v, l2.bias_gradients.get_item b (ix o 0 0) = .ok v ∧
        ∀ i, i < l.weights.shape.dj.toNat → ∃ w, l2.weights_gradients.get_item b (ix o i 0) = .ok w ∧
          SameValue w (F32.mul v (val s i 0 0)) ∧
          (w.isFinite = true → v.toReal ≠ 0 → (val s i 0 0).isFinite = true ∧
            |w.toReal / v.toReal - (val s i 0 0).toReal| ≤
              |(val s i 0 0).toReal| / 2 ^ 24 + 1 / (2 ^ 150 * |v.toReal|)) := by
  have hne : n.layers ≠ [] := List.ne_nil_of_mem (List.mem_of_getElem? hc)
  obtain ⟨hok, ht⟩ := trains_ready hn
  obtain ⟨m1, i1, i2, _⟩ := infer_ok (b := b) hok hne hx hxs
  obtain ⟨n1, n2, a1, a2, _, a4⟩ := net_round (b := b) hok ht hne hbk hx hxs hg hgs
  obtain ⟨l2, s, s', gi, gi', r1, r2, _, _, _, r6⟩ := a4 c _ hc
  rw [(Prod.mk.inj (Except.ok.inj (i1.symm.trans a1))).2] at i2
  have hl : l.Ok := hok.layers _ (List.mem_of_getElem? hc)
  obtain ⟨_, _, _, f, rfl, h⟩ := fc_round hl (ht.layers _ (List.mem_of_getElem? hc)) r6
  refine ⟨n1, n2, s, f, a1, a2, by unfold Network.get_intermediate_state; rw [r2], ?_, r1, fun o ho =>
    ⟨_, (h o ho).1, fun i hi => ⟨_, (h o ho).2 i hi, ?_⟩⟩⟩
  · rintro rfl
    exact Option.some.inj (r2.symm.trans i2)
  · have hzc : (F32Ops.zero : F32).code = 0 := by
      change (mk' false 0).code = 0
      decide
    have e : SameValue (F32Ops.add (val l.weights_gradients o i 0)
        (Spec.sum [F32Ops.mul (masked l ⟨s, gi, s, s⟩ o) (val s i 0 0)]))
        (F32.mul (F32Ops.add (val l.bias_gradients o 0 0) (masked l ⟨s, gi, s, s⟩ o)) (val s i 0 0)) := by
      rw [zero_val hz.1, zero_val hz.2.2.1]
      exact leak hzc hzc hzc _ _
    refine ⟨e, fun hw hv => ?_⟩
    generalize F32Ops.add (val l.weights_gradients o i 0)
        (Spec.sum [F32Ops.mul (masked l ⟨s, gi, s, s⟩ o) (val s i 0 0)]) = w at e hw ⊢
    generalize F32Ops.add (val l.bias_gradients o 0 0) (masked l ⟨s, gi, s, s⟩ o) = v at e hv ⊢
    generalize val s i 0 0 = y at e ⊢
    rcases e with ⟨e, _⟩ | e
    · rw [finite_nan hw] at e
      cases e
    · have hf : (F32.mul v y).isFinite = true := by
        rcases e with rfl | ⟨_, e⟩
        · exact hw
        · exact finite_iff.mpr (by rw [e]; decide)
      have hr : w.toReal = (F32.mul v y).toReal := by
        rcases e with rfl | ⟨e1, e2⟩
        · rfl
        · rw [toReal_eq, toReal_eq, e1, e2, units_zero]
          simp
      have hm := mul_error hf
      refine ⟨(finite_of_mul hf).2, ?_⟩
      rw [hr]
      have hp : 0 < |v.toReal| := abs_pos.mpr hv
      have e1 : (F32.mul v y).toReal / v.toReal - y.toReal = ((F32.mul v y).toReal - v.toReal * y.toReal) / v.toReal := by
        field_simp
      rw [e1, abs_div, div_le_iff₀ hp]
      refine hm.trans (le_of_eq ?_)
      rw [abs_mul]
      field_simp

/-! ## Non-vacuity -/

section
open Exact

example (b : Build) : ∃ (n : Net ℝ) (l : FullyConnectedLayer ℝ), Trains b n ∧ (∀ l ∈ n.get_layers, backable l) ∧
    n.get_layers[0]? = some (.fc l) ∧ cleared (.fc l) ∧ (zeros ⟨1, 1, 1⟩ : Tensor ℝ).shape = n.get_input_shape ∧
    (zeros ⟨1, 1, 1⟩ : Tensor ℝ).shape = n.get_output_shape := by
  refine ⟨_, _, .add_layer (Network.new .Training) (.fc (exScalar 2 1)) (.ok ()) _ .new (exScalar_ok 2 1)
      (by cases b <;> rfl), fun l hl => ?_, rfl,
    ⟨fun v hv => List.mem_singleton.mp hv, fun v hv => List.mem_singleton.mp hv, fun v hv => List.mem_singleton.mp hv,
      fun v hv => List.mem_singleton.mp hv⟩, rfl, rfl⟩
  obtain rfl := List.mem_singleton.mp hl
  trivial

end

example (b : Build) : ∃ (n : Net F32) (l : FullyConnectedLayer F32), Trains b n ∧ (∀ l ∈ n.get_layers, backable l) ∧
    n.get_layers[0]? = some (.fc l) ∧ cleared (.fc l) ∧ (single ⟨0x3f800000⟩).shape = n.get_input_shape ∧
    (single ⟨0x3f800000⟩).shape = n.get_output_shape := by
  refine ⟨_, _, .add_layer (Network.new .Training) (.fc exUnit) (.ok ()) _ .new
      ⟨single_wf _, single_wf _, rfl, rfl, fun _ => ⟨⟨single_wf _, rfl⟩, ⟨single_wf _, rfl⟩,
        ⟨single_wf _, rfl⟩, ⟨single_wf _, rfl⟩⟩⟩ (by cases b <;> rfl), fun l hl => ?_, rfl,
    ⟨fun v hv => List.mem_singleton.mp hv, fun v hv => List.mem_singleton.mp hv, fun v hv => List.mem_singleton.mp hv,
      fun v hv => List.mem_singleton.mp hv⟩, rfl, rfl⟩
  obtain rfl := List.mem_singleton.mp hl
  trivial

end Rusty
