import Verif.Lemmas.Homogeneous
import Verif.Props.Network

/-! # C104: networks without biases -/

namespace Rusty

open F32Ops Spec Exact

/-- C104: multiplying the input of a network without biases by a number that is not negative multiplies its output, and
all states between its layers, by that number. -/
theorem C104_network (b : Build) (n : Net ℝ) (hn : Built b n) (hne : n.get_layers ≠ [])
    (hu : ∀ l ∈ n.get_layers, Unbiased l) (c : ℝ) (hc : 0 ≤ c) (x y : Tensor ℝ) (hx : x.WF) (hy : y.WF)
    (hxs : x.shape = n.get_input_shape) (h : Scaled c x y)
    (hfirst : (∃ m, n.get_layers.head? = some (.mp m)) → ∀ v ∈ x.data, 0 ≤ v) :
    ∃ n1 n2 u v, n.infer b x = .ok (.ok (), n1) ∧ n.infer b y = .ok (.ok (), n2) ∧
      n1.get_output = .ok u ∧ n2.get_output = .ok v ∧ Scaled c u v ∧
      ∀ i, i ≤ n.get_layers.length → ∃ s t, n1.get_intermediate_state i = .ok s ∧
        n2.get_intermediate_state i = .ok t ∧ Scaled c s t := by
  have hok := built_netOk hn
  have hys : y.shape = n.get_input_shape := h.1.trans hxs
  obtain ⟨n1, p1, p2, p3⟩ := infer_ok (b := b) hok hne hx hxs
  obtain ⟨n2, q1, q2, q3⟩ := infer_ok (b := b) hok hne hy hys
  obtain ⟨m1, c1, _, _, c4⟩ := C36_infer b n hn hne x hx hxs
  obtain ⟨m2, d1, _, _, d4⟩ := C36_infer b n hn hne y hy hys
  obtain rfl : n1 = m1 := by rw [p1] at c1; cases c1; rfl
  obtain rfl : n2 = m2 := by rw [q1] at d1; cases d1; rfl
  have key : ∀ i, i ≤ n.get_layers.length → ∃ s t, n1.intermediate_states[i]? = some s ∧
      n2.intermediate_states[i]? = some t ∧ s.WF ∧ t.WF ∧ Scaled c s t ∧
      ((i = 0 → ∃ m, n.get_layers.head? = some (.mp m)) → ∀ v ∈ s.data, 0 ≤ v) := by
    intro i
    induction i with
    | zero => exact fun _ => ⟨x, y, p2, q2, hx, hy, h, fun h0 => hfirst (h0 rfl)⟩
    | succ i ih =>
      intro hi
      obtain ⟨s, t, e1, e2, e3, e4, e5, e6⟩ := ih (by omega)
      have hl : n.layers[i]? = some n.layers[i] := List.getElem?_eq_getElem hi
      have hub := hu _ (List.mem_of_getElem? hl)
      obtain ⟨s0, s', f1, f2, ⟨f3, f4, f5⟩, _⟩ := p3 i _ hl
      obtain ⟨t0, t', g1, g2, ⟨g3, g4, g5⟩, _⟩ := q3 i _ hl
      obtain rfl : s = s0 := by rw [e1] at f1; exact Option.some.inj f1
      obtain rfl : t = t0 := by rw [e2] at g1; exact Option.some.inj g1
      have hpos : (∃ m, n.layers[i] = .mp m) → ∀ v ∈ s.data, 0 ≤ v := by
        rintro ⟨m, hm⟩
        refine e6 fun hz => ⟨m, ?_⟩
        subst hz
        rw [← hm, List.head?_eq_getElem?]
        exact hl
      have fv : ∀ a d k, s'.shape.Inside a d k → val s' a d k = layerAt n.layers[i] s a d k := fun a d k hin => by
        have := f5 a d k (f4 ▸ hin)
        rw [get_item_ok f3 hin] at this
        exact Except.ok.inj this
      refine ⟨s', t', f2, g2, f3, g3, ⟨g4.trans f4.symm, fun a d k hin => ?_⟩, fun _ v hv => ?_⟩
      · have hin' : t'.shape.Inside a d k := by rw [g4, ← f4]; exact hin
        have := g5 a d k (g4 ▸ hin')
        rw [get_item_ok g3 hin'] at this
        rw [Except.ok.inj this, fv a d k hin]
        exact layerAt_scaled hc hub e3 e4 e5 hpos a d k
      · rw [data_indices f3] at hv
        obtain ⟨p, hp, rfl⟩ := List.mem_map.mp hv
        rw [fv _ _ _ (mem_indices.mp hp)]
        exact layerAt_nonneg hub hpos _ _ _
  have get : ∀ i, i ≤ n.get_layers.length → ∃ s t, n1.get_intermediate_state i = .ok s ∧
      n2.get_intermediate_state i = .ok t ∧ Scaled c s t := fun i hi => by
    obtain ⟨s, t, e1, e2, _, _, e5, _⟩ := key i hi
    refine ⟨s, t, ?_, ?_, e5⟩
    · unfold Network.get_intermediate_state; rw [e1]
    · unfold Network.get_intermediate_state; rw [e2]
  obtain ⟨u, v, g1, g2, g3⟩ := get _ (Nat.le_refl _)
  exact ⟨n1, n2, u, v, p1, q1, c4.trans g1, d4.trans g2, g3, get⟩

/-! ## Examples -/

/-- a 2x1 fully connected layer without bias -/
noncomputable def exNoBias : FullyConnectedLayer ℝ :=
  ⟨⟨⟨1, 1, 2⟩, ⟨1, 2, 1⟩, [2, -1]⟩, ⟨⟨1, 1, 1⟩, ⟨1, 1, 1⟩, [0]⟩, ⟨⟨1, 1, 1⟩, ⟨1, 1, 1⟩, [0]⟩,
    ⟨⟨1, 1, 1⟩, ⟨1, 1, 1⟩, [0]⟩, ⟨⟨1, 1, 1⟩, ⟨1, 1, 1⟩, [0]⟩, ⟨⟨1, 1, 1⟩, ⟨1, 1, 1⟩, [0]⟩, "f", .Inference⟩

/-- its output for `(3, 1)` is 5, so the claim is not about zeros only -/
example : Unbiased (.fc exNoBias) ∧ layerAt (.fc exNoBias) ⟨⟨1, 2, 2⟩, ⟨2, 1, 1⟩, [3, 1]⟩ 0 0 0 = 5 := by
  refine ⟨fun v hv => by simpa [exNoBias] using hv, ?_⟩
  change max ((0 + 2 * 3 + -1 * 1 : ℝ) + 0) 0 = 5
  norm_num

/-- a network of that layer is covered -/
example (b : Build) : ∃ n : Net ℝ, Built b n ∧ n.get_layers = [.fc exNoBias] ∧ n.get_input_shape = ⟨2, 1, 1⟩ := by
  have hok : exNoBias.Ok :=
    ⟨wf_data (zeros_wf (s := ⟨1, 2, 1⟩) (by decide)) _ rfl, wf_data (zeros_wf (s := ⟨1, 1, 1⟩) (by decide)) _ rfl, rfl,
      rfl, fun h => by cases h⟩
  cases b <;> exact ⟨_, .add_layer (Network.new .Inference) (.fc exNoBias) (.ok ()) _ (.new _) hok rfl, rfl, rfl⟩

/-- with a bias it is false: the output for input 0 is the bias, which scaling the input does not change -/
example : ¬ ∀ (l : FullyConnectedLayer ℝ) (x y : Tensor ℝ), Scaled 2 x y →
    layerAt (.fc l) y 0 0 0 = 2 * layerAt (.fc l) x 0 0 0 := by
  intro h
  have := h { exNoBias with bias := ⟨⟨1, 1, 1⟩, ⟨1, 1, 1⟩, [1]⟩ } ⟨⟨1, 2, 2⟩, ⟨2, 1, 1⟩, [0, 0]⟩
    ⟨⟨1, 2, 2⟩, ⟨2, 1, 1⟩, [0, 0]⟩ ⟨rfl, fun i j k _ => ?_⟩
  · change max ((0 + 2 * 0 + -1 * 0 : ℝ) + 1) 0 = 2 * max ((0 + 2 * 0 + -1 * 0 : ℝ) + 1) 0 at this
    norm_num at this
  · have : val (⟨⟨1, 2, 2⟩, ⟨2, 1, 1⟩, [0, 0]⟩ : Tensor ℝ) i j k = 0 := val_of_zeros (by simp) i j k
    rw [this, mul_zero]

end Rusty
