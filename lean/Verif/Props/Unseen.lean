import Verif.Props.Leak
import Verif.Props.Saturation

/-! # C152: what no example contains is not learnt -/

namespace Rusty

open F32Ops Spec

section
open Exact

/-- C152: in exact arithmetic, if what enters a fully connected layer is for every example of a batch orthogonal to a
direction, then the recorded gradients of the weights of every unit are orthogonal to it.  So weights moved along these
gradients respond to the direction as before. -/
theorem C152_unseen (b : Build) (n : Net ℝ) (hn : Trains b n) (hbk : ∀ l ∈ n.get_layers, backable l)
    (es : List (Example ℝ)) (hes : ∀ e ∈ es, e.Fits n) (c : Nat) (l : FullyConnectedLayer ℝ)
    (hc : n.get_layers[c]? = some (.fc l)) (hz : cleared (.fc l)) (d : Nat → ℝ)
    (hd : ∀ e ∈ es, ∀ n1 s, n.infer b e.x = .ok (.ok (), n1) → n1.get_intermediate_state c = .ok s →
      ∑ i ∈ Finset.range l.weights.shape.dj.toNat, val s i 0 0 * d i = 0) :
    ∃ n' l', Batch b n es n' ∧ n'.get_layers[c]? = some (.fc l') ∧ ∀ o, o < l.weights.shape.di.toNat →
      ∃ γ : Nat → ℝ,
        (∀ i, i < l.weights.shape.dj.toNat → l'.weights_gradients.get_item b (ix o i 0) = .ok (γ i)) ∧
        ∑ i ∈ Finset.range l.weights.shape.dj.toNat, γ i * d i = 0 ∧
        ∀ (η : ℝ) (w : Nat → ℝ), (∀ i, i < l.weights.shape.dj.toNat → w i = val l.weights o i 0 - η * γ i) →
          ∑ i ∈ Finset.range l.weights.shape.dj.toNat, w i * d i =
            ∑ i ∈ Finset.range l.weights.shape.dj.toNat, val l.weights o i 0 * d i := by
  have hne : n.get_layers ≠ [] := List.ne_nil_of_mem (List.mem_of_getElem? hc)
  obtain ⟨dW, dB, H⟩ := C91_batch b n hn hne hbk
  obtain ⟨n', h1, -, -, h2⟩ := H n es hn rfl hes
  obtain ⟨l', a1, a2⟩ := h2 c l hc
  refine ⟨n', l', h1, a1, fun o ho => ⟨_, fun i hi => (a2 o ho).2 i hi, ?_⟩⟩
  have key : ∑ i ∈ Finset.range l.weights.shape.dj.toNat,
      ((es.map fun e => dW e c o i).foldl add (val l.weights_gradients o i 0)) * d i = 0 := by
    have one : ∀ e ∈ es, ∑ i ∈ Finset.range l.weights.shape.dj.toNat, dW e c o i * d i = 0 := by
      intro e he
      have hf := hes e he
      obtain ⟨n1, n2, s, l2, q1, q2, q3, _, q5, q6⟩ := C151_exact b n hn hbk e.x e.g hf.x.1 hf.x.2 hf.g.1 hf.g.2 c l hc hz
      obtain ⟨m', g1, -, -, g2⟩ := H n [e] hn rfl fun e' he' => by rw [List.mem_singleton.mp he']; exact hf
      obtain rfl := batch_unique g1 (.step n n1 n2 n2 e [] q1 q2 (.done n2))
      obtain ⟨l3, k1, k2⟩ := g2 c l hc
      rw [q5] at k1
      obtain rfl := AnyLayer.fc.inj (Option.some.inj k1)
      obtain ⟨v, _, v2⟩ := q6 o ho
      have e1 : ∀ i ∈ Finset.range l.weights.shape.dj.toNat, dW e c o i * d i = v * (val s i 0 0 * d i) := by
        intro i hi
        obtain ⟨w, w1, w2, _⟩ := v2 i (Finset.mem_range.mp hi)
        have := (k2 o ho).2 i (Finset.mem_range.mp hi)
        rw [w1] at this
        have this := Except.ok.inj this
        rw [List.map_singleton, List.foldl_cons, List.foldl_nil, zero_val hz.1, w2] at this
        have e2 : dW e c o i = v * val s i 0 0 := by
          rw [this]
          exact (zero_add _).symm
        rw [e2, mul_assoc]
      rw [Finset.sum_congr rfl e1, ← Finset.mul_sum, hd e he n1 s q1 q3, mul_zero]
    have hzz : ∀ i, val l.weights_gradients o i 0 = 0 := fun i => zero_val hz.1 o i 0
    simp only [hzz]
    clear hd hes h1 h2 a1 a2
    have : ∀ es : List (Example ℝ),
        (∀ e ∈ es, ∑ i ∈ Finset.range l.weights.shape.dj.toNat, dW e c o i * d i = 0) →
        ∀ z : Nat → ℝ, ∑ i ∈ Finset.range l.weights.shape.dj.toNat, z i * d i = 0 →
        ∑ i ∈ Finset.range l.weights.shape.dj.toNat, ((es.map fun e => dW e c o i).foldl add (z i)) * d i = 0 := by
      intro es
      induction es with
      | nil => exact fun _ z hz => hz
      | cons e es ih =>
        intro h z hz
        refine ih (fun e' he' => h e' (List.mem_cons_of_mem _ he')) (fun i => z i + dW e c o i) ?_
        simp only [add_mul]
        rw [Finset.sum_add_distrib, hz, h e List.mem_cons_self, add_zero]
    exact this es one (fun _ => 0) (by simp)
  refine ⟨key, fun η w hw => ?_⟩
  rw [Finset.sum_congr rfl fun i hi => by rw [hw i (Finset.mem_range.mp hi), sub_mul, mul_assoc],
    Finset.sum_sub_distrib, ← Finset.mul_sum, key, mul_zero, sub_zero]

/-- C152: if no example of the batch has a component along a direction, and the first layer did not respond to it, then
after moving the weights of the first layer along the recorded gradients, whatever happens to the biases and to the later
layers, inputs that differ by this direction still get the same prediction. -/
theorem C152_ignored (b : Build) (n m : Net ℝ) (hn : Trains b n) (hm : Built b m) (hbk : ∀ l ∈ n.get_layers, backable l)
    (es : List (Example ℝ)) (hes : ∀ e ∈ es, e.Fits n) (n' : Net ℝ) (hb : Batch b n es n')
    (l l' lm : FullyConnectedLayer ℝ) (hl : n.get_layers[0]? = some (.fc l)) (hl' : n'.get_layers[0]? = some (.fc l'))
    (hlm : m.get_layers[0]? = some (.fc lm)) (hz : cleared (.fc l)) (hs : lm.weights.shape = l.weights.shape)
    (η : Nat → ℝ) (hη : ∀ o i, o < l.weights.shape.di.toNat → i < l.weights.shape.dj.toNat →
      ∃ v, l'.weights_gradients.get_item b (ix o i 0) = .ok v ∧
        val lm.weights o i 0 = val l.weights o i 0 - η o * v)
    (d : Nat → ℝ) (hd : ∀ e ∈ es, ∑ i ∈ Finset.range l.weights.shape.dj.toNat, val e.x i 0 0 * d i = 0)
    (h0 : ∀ o, o < l.weights.shape.di.toNat →
      ∑ i ∈ Finset.range l.weights.shape.dj.toNat, val l.weights o i 0 * d i = 0)
    (x y : Tensor ℝ) (hx : x.WF) (hxs : x.shape = n.get_input_shape) (hy : y.WF) (hys : y.shape = n.get_input_shape)
    (hxy : ∀ i, i < l.weights.shape.dj.toNat → val y i 0 0 = val x i 0 0 + d i) :
    ∃ m1 m2 out, m.infer b x = .ok (.ok (), m1) ∧ m.infer b y = .ok (.ok (), m2) ∧
      m1.get_output = .ok out ∧ m2.get_output = .ok out := by
  have hokn := (trains_ready hn).1
  have hokm := built_netOk hm
  have hne : n.get_layers ≠ [] := List.ne_nil_of_mem (List.mem_of_getElem? hl)
  have hnem : m.layers ≠ [] := List.ne_nil_of_mem (List.mem_of_getElem? hlm)
  have hsh : n.get_input_shape = ⟨l.weights.shape.dj, 1, 1⟩ :=
    hokn.chain.first (.fc l) (by rw [List.head?_eq_getElem?]; exact hl)
  have hsh' : m.get_input_shape = ⟨l.weights.shape.dj, 1, 1⟩ :=
    (hokm.chain.first (.fc lm) (by rw [List.head?_eq_getElem?]; exact hlm)).trans (by
      change (⟨lm.weights.shape.dj, 1, 1⟩ : TensorShape) = _
      rw [hs])
  have hsm : m.get_input_shape = n.get_input_shape := hsh'.trans hsh.symm
  obtain ⟨n2, l2, u1, u2, u3⟩ := C152_unseen b n hn hbk es hes 0 l hl hz d fun e he n1 s q1 q2 => by
    obtain ⟨k1, i1, i2, _⟩ := infer_ok (b := b) hokn hne (hes e he).x.1 (hes e he).x.2
    rw [(Prod.mk.inj (Except.ok.inj (q1.symm.trans i1))).2] at q2
    unfold Network.get_intermediate_state at q2
    rw [i2] at q2
    obtain rfl := Except.ok.inj q2
    exact hd e he
  obtain rfl := batch_unique u1 hb
  rw [hl'] at u2
  obtain rfl := AnyLayer.fc.inj (Option.some.inj u2)
  have hw : ∀ o, o < l.weights.shape.di.toNat →
      ∑ i ∈ Finset.range l.weights.shape.dj.toNat, val lm.weights o i 0 * d i = 0 := by
    intro o ho
    obtain ⟨γ, g1, _, g3⟩ := u3 o ho
    rw [g3 (η o) (fun i => val lm.weights o i 0) fun i hi => by
      obtain ⟨v, v1, v2⟩ := hη o i ho hi
      rw [v2, Except.ok.inj (v1.symm.trans (g1 i hi))]]
    exact h0 o ho
  obtain ⟨m1, a1, a2, a3⟩ := infer_ok (b := b) hokm hnem hx (hxs.trans hsm.symm)
  obtain ⟨m2, c1, c2, c3⟩ := infer_ok (b := b) hokm hnem hy (hys.trans hsm.symm)
  have am : ∀ (i : Nat) l, m.layers[i]? = some l → ∃ s s', m1.intermediate_states[i]? = some s ∧
      m1.intermediate_states[i + 1]? = some s' ∧ applies b l s s' := fun i l hi => by
    obtain ⟨s, s', h1, h2, h3, _⟩ := a3 i l hi; exact ⟨s, s', h1, h2, h3⟩
  have an : ∀ (i : Nat) l, m.layers[i]? = some l → ∃ s s', m2.intermediate_states[i]? = some s ∧
      m2.intermediate_states[i + 1]? = some s' ∧ applies b l s s' := fun i l hi => by
    obtain ⟨s, s', h1, h2, h3, _⟩ := c3 i l hi; exact ⟨s, s', h1, h2, h3⟩
  have hok : lm.Ok := hokm.layers _ (List.mem_of_getElem? hlm)
  have k2 : m1.intermediate_states[1]? = m2.intermediate_states[1]? := by
    obtain ⟨s, z, h1, h2, h3⟩ := am 0 _ hlm
    obtain ⟨s', z', g1, g2, g3⟩ := an 0 _ hlm
    obtain rfl : x = s := by rw [a2] at h1; exact Option.some.inj h1
    obtain rfl : y = s' := by rw [c2] at g1; exact Option.some.inj g1
    rw [Nat.zero_add] at h2 g2
    rw [h2, g2, tensor_ext h3.1 g3.1 (h3.2.1.trans g3.2.1.symm) fun o j k hin => ?_]
    rw [h3.2.1] at hin
    have hlt : o < l.weights.shape.di.toNat := by
      change lm.bias.shape.Inside o j k at hin
      rw [hok.rows, hs] at hin
      exact hin.1
    rw [applies_val h3 hin, applies_val g3 hin]
    simp only [layerAt]
    rw [act_real, act_real, preact_real, preact_real, hs]
    have e : ∑ i ∈ Finset.range l.weights.shape.dj.toNat, val lm.weights o i 0 * val y i 0 0 =
        ∑ i ∈ Finset.range l.weights.shape.dj.toNat, val lm.weights o i 0 * val x i 0 0 := by
      rw [Finset.sum_congr rfl fun i hi => by rw [hxy i (Finset.mem_range.mp hi), mul_add], Finset.sum_add_distrib,
        hw o hlt, add_zero]
    rw [e]
  have k3 := states_follow (b := b) (ls := m.layers) (ls' := m.layers.drop 1)
      (ss' := m2.intermediate_states.drop 1) (ss := m1.intermediate_states) 1
      (fun i l' h => ⟨l', by rw [List.getElem?_drop] at h; exact h, rfl, fun _ _ _ _ => rfl⟩)
      (by rw [List.getElem?_drop]; exact k2) am
      (fun i l' h => by
        rw [List.getElem?_drop] at h
        obtain ⟨s, s', h1, h2, h3⟩ := an (1 + i) l' h
        exact ⟨s, s', by rw [List.getElem?_drop]; exact h1, by rw [List.getElem?_drop]; exact h2, h3⟩)
  obtain ⟨u, u1, u2⟩ := infer_last_state hokm hnem a1
  obtain ⟨v, v1, v2⟩ := infer_last_state hokm hnem c1
  have hlen : 0 < m.layers.length := List.length_pos_iff.mpr hnem
  have := k3 (m.layers.length - 1) (by rw [List.length_drop])
  rw [List.getElem?_drop, show 1 + (m.layers.length - 1) = m.layers.length by omega, u2, v2] at this
  exact ⟨m1, m2, u, a1, c1, u1, v1.trans (by rw [Option.some.inj this])⟩

end

/-! ## Non-vacuity of the exact theorems -/

section
open Exact

/-- a layer with one unit that looks at the first of two entries only -/
noncomputable def exHalf : FullyConnectedLayer ℝ :=
  ⟨{ (zeros ⟨1, 2, 1⟩ : Tensor ℝ) with data := [1, 0] }, zeros ⟨1, 2, 1⟩, zeros ⟨1, 2, 1⟩,
    zeros ⟨1, 1, 1⟩, zeros ⟨1, 1, 1⟩, zeros ⟨1, 1, 1⟩, "f", .Inference⟩

theorem exHalf_ok : exHalf.Ok :=
  ⟨wf_data (zeros_wf (s := ⟨1, 2, 1⟩) (by decide)) _ rfl, zeros_wf (s := ⟨1, 1, 1⟩) (by decide), rfl,
    rfl, fun h => by cases h⟩

/-- an example whose second entry is zero -/
noncomputable def exHalfSeen : Example ℝ :=
  ⟨{ (zeros ⟨2, 1, 1⟩ : Tensor ℝ) with data := [3, 0] }, { (zeros ⟨1, 1, 1⟩ : Tensor ℝ) with data := [1] }⟩

/-- the second entry is not in the example and ignored by the layer, so the network goes on ignoring it -/
example (b : Build) : ∃ (n n' : Net ℝ) (l l' : FullyConnectedLayer ℝ) (d : Nat → ℝ), d 1 ≠ 0 ∧ Trains b n ∧
    Built b n ∧ (∀ l ∈ n.get_layers, backable l) ∧ exHalfSeen.Fits n ∧ Batch b n [exHalfSeen] n' ∧
    n.get_layers[0]? = some (.fc l) ∧ n'.get_layers[0]? = some (.fc l') ∧ cleared (.fc l) ∧
    (∀ o i, o < l.weights.shape.di.toNat → i < l.weights.shape.dj.toNat →
      ∃ v, l'.weights_gradients.get_item b (ix o i 0) = .ok v ∧
        val l.weights o i 0 = val l.weights o i 0 - (0 : ℝ) * v) ∧
    (∑ i ∈ Finset.range l.weights.shape.dj.toNat, val exHalfSeen.x i 0 0 * d i = 0) ∧
    ∀ o, o < l.weights.shape.di.toNat →
      ∑ i ∈ Finset.range l.weights.shape.dj.toNat, val l.weights o i 0 * d i = 0 := by
  obtain ⟨n, ht, hl, hi, ho⟩ : ∃ n : Net ℝ, Trains b n ∧
      n.get_layers = [.fc { exHalf with run_state := .Training }] ∧ n.get_input_shape = ⟨2, 1, 1⟩ ∧
      n.get_output_shape = ⟨1, 1, 1⟩ :=
    ⟨_, .add_layer (Network.new .Training) (.fc exHalf) (.ok ()) _ .new exHalf_ok (by cases b <;> rfl), rfl, rfl, rfl⟩
  have hc : n.get_layers[0]? = some (.fc { exHalf with run_state := .Training }) := by rw [hl]; rfl
  have hbk : ∀ l ∈ n.get_layers, backable l := fun l h => by
    rw [hl] at h
    obtain rfl := List.mem_singleton.mp h
    trivial
  have hfit : exHalfSeen.Fits n := ⟨⟨wf_data (zeros_wf (s := ⟨2, 1, 1⟩) (by decide)) _ rfl, hi.symm⟩,
    ⟨wf_data (zeros_wf (s := ⟨1, 1, 1⟩) (by decide)) _ rfl, ho.symm⟩⟩
  have hz : ∀ s : TensorShape, allZero (zeros s : Tensor ℝ) := fun s v hv => List.eq_of_mem_replicate hv
  have hcl : cleared (.fc { exHalf with run_state := .Training }) := ⟨hz _, hz _, hz _, hz _⟩
  have hx : ∑ i ∈ Finset.range 2, val exHalfSeen.x i 0 0 * (if i = 1 then (1 : ℝ) else 0) = 0 := by
    rw [Finset.sum_range_succ, Finset.sum_range_one]
    change (3 : ℝ) * 0 + 0 * 1 = 0
    norm_num
  have hok := (trains_ready ht).1
  obtain ⟨n', l', h1, h2, h3⟩ := C152_unseen b n ht hbk [exHalfSeen]
    (fun e he => by rw [List.mem_singleton.mp he]; exact hfit) 0 _ hc hcl (fun i => if i = 1 then 1 else 0)
    fun e he n1 s q1 q2 => by
      obtain rfl := List.mem_singleton.mp he
      obtain ⟨k1, i1, i2, _⟩ := infer_ok (b := b) hok (List.ne_nil_of_mem (List.mem_of_getElem? hc)) hfit.x.1 hfit.x.2
      rw [(Prod.mk.inj (Except.ok.inj (q1.symm.trans i1))).2] at q2
      unfold Network.get_intermediate_state at q2
      rw [i2] at q2
      obtain rfl := Except.ok.inj q2
      exact hx
  refine ⟨_, n', _, l', _, ?_, ht, trains_built ht, hbk, hfit, h1, hc, h2, hcl, fun o i ho hi => ?_, hx, fun o ho => ?_⟩
  · exact one_ne_zero
  · obtain ⟨γ, g1, _⟩ := h3 o ho
    exact ⟨_, g1 i hi, by ring⟩
  · obtain rfl : o = 0 := Nat.lt_one_iff.mp ho
    change ∑ i ∈ Finset.range 2, _ = _
    rw [Finset.sum_range_succ, Finset.sum_range_one]
    change (1 : ℝ) * 0 + 0 * 1 = 0
    norm_num

end

open F32

variable [Libm]

/-- C152: in f32, if an entry of what enters a fully connected layer is zero for all examples of a batch, the recorded
gradients of the weights of this entry are zero, of every unit whose gradients for the single examples are finite.  So
these weights stay as they are. -/
theorem C152_f32 (b : Build) (n : Net F32) (hn : Trains b n) (hbk : ∀ l ∈ n.get_layers, backable l)
    (es : List (Example F32)) (hes : ∀ e ∈ es, e.Fits n) (c : Nat) (l : FullyConnectedLayer F32)
    (hc : n.get_layers[c]? = some (.fc l)) (hz : cleared (.fc l)) (i : Nat) (hi : i < l.weights.shape.dj.toNat)
    (hd : ∀ e ∈ es, ∀ n1 s, n.infer b e.x = .ok (.ok (), n1) → n1.get_intermediate_state c = .ok s →
      (val s i 0 0).code = 0) :
    ∃ n' l', Batch b n es n' ∧ n'.get_layers[c]? = some (.fc l') ∧ ∀ o, o < l.weights.shape.di.toNat →
      (∀ e ∈ es, ∀ n1 l1 v, Batch b n [e] n1 → n1.get_layers[c]? = some (.fc l1) →
          l1.bias_gradients.get_item b (ix o 0 0) = .ok v → v.isFinite = true) →
      ∃ γ, l'.weights_gradients.get_item b (ix o i 0) = .ok γ ∧ γ.code = 0 ∧
        ∀ η : F32, η.isFinite = true → (val l.weights o i 0).isNaN = false →
          SameNumber (F32.add (val l.weights o i 0) (F32.mul η γ)) (val l.weights o i 0) := by
  have hne : n.get_layers ≠ [] := List.ne_nil_of_mem (List.mem_of_getElem? hc)
  have hzc : (F32Ops.zero : F32).code = 0 := by
    change (mk' false 0).code = 0
    decide
  obtain ⟨n', h1, h2⟩ := batch_gradients b n hn hne hbk es hes
  obtain ⟨l', a1, a2⟩ := h2 c l hc
  refine ⟨n', l', h1, a1, fun o ho hfin => ?_⟩
  obtain ⟨L, _, b2, b3⟩ := (a2 o ho (fun v => v.code = 0)).2 i hi (zero_val hz.1 _ _ _) fun e he n1 l1 v q1 q2 q3 => by
    have hf := hes e he
    obtain ⟨k1, k2, s, f, r1, r2, r3, _, r5, r6⟩ := C151_f32 b n hn hbk e.x e.g hf.x.1 hf.x.2 hf.g.1 hf.g.2 c l hc hz
    obtain rfl := batch_unique q1 (.step n k1 k2 k2 e [] r1 r2 (.done k2))
    rw [r5] at q2
    obtain rfl := AnyLayer.fc.inj (Option.some.inj q2)
    obtain ⟨u, u1, u2⟩ := r6 o ho
    obtain ⟨w, w1, w2, _⟩ := u2 i hi
    have hu := hfin e he _ f u q1 r5 u1
    obtain rfl := Except.ok.inj (w1.symm.trans q3)
    have hm := mul_zero_code (hd e he k1 s r1 r3) hu
    rcases w2 with ⟨_, w2⟩ | rfl | ⟨w2, _⟩
    · rw [finite_nan (finite_iff.mpr (by rw [hm]; decide))] at w2
      cases w2
    · exact hm
    · exact w2
  have hγ : (L.foldl F32.add (F32Ops.zero : F32)).code = 0 := foldl_zero_code L (fun v hv => by
    have e := b2 v hv
    cases hnv : v.isNaN
    · rcases zero_add_any hzc hnv with h | ⟨_, h⟩
      · rw [← h]
        exact e
      · exact h
    · have := void_nan_right (F32Ops.zero : F32) hnv
      rw [(zero_tests e).1] at this
      cases this) _ hzc
  exact ⟨_, b3, hγ, fun η hη hw => add_zero_any hw (mul_zero_code hγ hη)⟩

/-! ## Non-vacuity -/

example (b : Build) : ∃ (n : Net F32) (l : FullyConnectedLayer F32) (e : Example F32), Trains b n ∧
    (∀ l ∈ n.get_layers, backable l) ∧ n.get_layers[0]? = some (.fc l) ∧ cleared (.fc l) ∧ e.Fits n ∧
    (val e.x 0 0 0).code = 0 := by
  refine ⟨_, _, ⟨single ⟨0x80000000⟩, single ⟨0x3f800000⟩⟩,
    .add_layer (Network.new .Training) (.fc exUnit) (.ok ()) _ .new
      ⟨single_wf _, single_wf _, rfl, rfl, fun _ => ⟨⟨single_wf _, rfl⟩, ⟨single_wf _, rfl⟩,
        ⟨single_wf _, rfl⟩, ⟨single_wf _, rfl⟩⟩⟩ (by cases b <;> rfl), fun l hl => ?_, rfl,
    ⟨fun v hv => List.mem_singleton.mp hv, fun v hv => List.mem_singleton.mp hv, fun v hv => List.mem_singleton.mp hv,
      fun v hv => List.mem_singleton.mp hv⟩, ⟨⟨single_wf _, rfl⟩, ⟨single_wf _, rfl⟩⟩, by
      change (⟨0x80000000⟩ : F32).code = 0
      decide⟩
  obtain rfl := List.mem_singleton.mp hl
  trivial

end Rusty
