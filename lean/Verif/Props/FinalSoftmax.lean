import Verif.Props.Network
import Verif.Props.Softmax
import Verif.Props.Split
import Verif.Props.Rounding

/-! # C102: a softmax layer at the end -/

namespace Rusty

open F32Ops Spec

/-- the states around the last layer -/
private theorem last_states {F : Type} [F32Ops F] (b : Build) (n : Net F) (hn : Built b n) (l : SoftmaxLayer F)
    (hl : n.get_layers.getLast? = some (.sm l)) (x : Tensor F) (hx : x.WF) (hxs : x.shape = n.get_input_shape) :
    ∃ n' z y, n.infer b x = .ok (.ok (), n') ∧
      n'.get_intermediate_state (n.get_layers.length - 1) = .ok z ∧ n'.get_output = .ok y ∧ z.WF ∧ y.WF ∧
      z.shape = n.get_output_shape ∧ y.shape = n.get_output_shape ∧
      ∀ i j k, n.get_output_shape.Inside i j k → val y i j k = softmaxAt z i j k := by
  have hok := built_netOk hn
  have hne : n.get_layers ≠ [] := fun e => by rw [e] at hl; cases hl
  have hpos : 0 < n.get_layers.length := List.length_pos_iff.mpr hne
  have hi : n.layers[n.get_layers.length - 1]? = some (.sm l) := by
    rw [← hl, List.getLast?_eq_getElem?]; rfl
  have hout : n.get_output_shape = l.shape := hok.chain.last _ hl
  obtain ⟨m, c1, _, _, c4⟩ := C36_infer b n hn hne x hx hxs
  obtain ⟨n', h1, _, h3⟩ := infer_ok (b := b) hok hne hx hxs
  obtain rfl : n' = m := by rw [h1] at c1; cases c1; rfl
  obtain ⟨z, y, e1, e2, ⟨e3, e4, e5⟩, _, _, _, e6, e7, _⟩ := h3 _ _ hi
  rw [show n.get_layers.length - 1 + 1 = n.get_layers.length by omega] at e2
  refine ⟨n', z, y, h1, ?_, ?_, e6, e3, ?_, ?_, fun i j k h => ?_⟩
  · unfold Network.get_intermediate_state; rw [e1]
  · rw [c4]; unfold Network.get_intermediate_state; rw [e2]
  · rw [hout, e7]; rfl
  · rw [hout, e4]; rfl
  · have h' : y.shape.Inside i j k := by rw [e4]; rw [hout] at h; exact h
    have := e5 i j k (e4 ▸ h')
    rw [get_item_ok e3 h'] at this
    exact Except.ok.inj this

open Exact in
/-- C102, exact arithmetic: the outputs of a network that ends with a softmax layer are positive, add up to 1, and are
ordered as the scores in front of that layer. -/
theorem C102_real (b : Build) (n : Net ℝ) (hn : Built b n) (l : SoftmaxLayer ℝ)
    (hl : n.get_layers.getLast? = some (.sm l)) (hne : 0 < n.get_output_shape.count) (x : Tensor ℝ) (hx : x.WF)
    (hxs : x.shape = n.get_input_shape) :
    ∃ n' z y, n.infer b x = .ok (.ok (), n') ∧
      n'.get_intermediate_state (n.get_layers.length - 1) = .ok z ∧ n'.get_output = .ok y ∧
      z.shape = n.get_output_shape ∧ y.shape = n.get_output_shape ∧
      (total y.shape fun i j k => val y i j k) = 1 ∧
      ∀ i j k, n.get_output_shape.Inside i j k → 0 < val y i j k ∧
        ∀ i' j' k', n.get_output_shape.Inside i' j' k' →
          (val y i j k < val y i' j' k' ↔ val z i j k < val z i' j' k') ∧
          (val y i j k = val y i' j' k' ↔ val z i j k = val z i' j' k') := by
  obtain ⟨n', z, y, h1, h2, h3, hz, hy, sz, sy, h⟩ := last_states b n hn l hl x hx hxs
  obtain ⟨w, w1, w2, w3, w4⟩ := softmax_ok hz hy (sz.trans sy.symm)
  have e : w = y := tensor_ext w2 hy w3 fun i j k hin => by
    rw [w3] at hin
    rw [w4 i j k hin, h i j k (sy ▸ hin)]
  subst e
  obtain ⟨w', d1, _, _, d2, d3⟩ := C24_distribution b z w hz hy (sz.trans sy.symm) (by rw [sz]; exact hne)
  rw [w1] at d1
  cases d1
  refine ⟨n', z, w, h1, h2, h3, sz, sy, d3, fun i j k hin => ⟨?_, fun i' j' k' hin' => ?_⟩⟩
  · obtain ⟨v, v1, v2, _⟩ := d2 i j k (by rw [sy]; exact hin)
    rw [get_item_ok hy (by rw [sy]; exact hin)] at v1
    cases v1
    exact v2
  · exact C24_order z w w hz hy (sz.trans sy.symm) w1 i j k i' j' k' (by rw [sz]; exact hin)
      (by rw [sz]; exact hin')

/-- C102: those scores are the output of the same network without the softmax layer. -/
theorem C102_without {F : Type} [F32Ops F] [MaxZero F] (b : Build) (n n1 n2 : Net F) (hn : Built b n)
    (h1 : Built b n1) (h2 : Built b n2) (l : SoftmaxLayer F) (hl : n2.get_layers = [.sm l])
    (hp : n.get_layers.map params = n1.get_layers.map params ++ n2.get_layers.map params)
    (e1 : n1.get_layers ≠ []) (x : Tensor F) (hx : x.WF) (hxs : x.shape = n.get_input_shape) :
    ∃ n' n1' z, n.infer b x = .ok (.ok (), n') ∧ n1.infer b x = .ok (.ok (), n1') ∧
      n1'.get_output = .ok z ∧ n'.get_intermediate_state (n.get_layers.length - 1) = .ok z := by
  obtain ⟨n', n1', _, z, q1, q2, q3, _, _, q5, _⟩ := C96_infer b n n1 n2 hn h1 h2 hp e1 (by rw [hl]; simp) x hx hxs
  have hlen := congrArg List.length hp
  rw [List.length_append, List.length_map, List.length_map, List.length_map, hl, List.length_singleton] at hlen
  have hx1 : x.shape = n1.get_input_shape := by
    by_contra hc
    obtain ⟨_, e⟩ := C37_shape b n1 x hc
    rw [e] at q2
    cases q2
  obtain ⟨m, c1, _, _, c4⟩ := C36_infer b n1 h1 e1 x hx hx1
  rw [q2] at c1
  cases c1
  refine ⟨n', n1', z, q1, q2, q3, ?_⟩
  rw [hlen, Nat.add_sub_cancel, q5 _ (Nat.le_refl _), ← c4, q3]

open F32 in
/-- C102 in f32: where the computed sum of exponentials is finite and not zero, the outputs are never ordered against
the scores, unless `exp` is. -/
theorem C102_f32 [Libm] (b : Build) (n : Net F32) (hn : Built b n) (l : SoftmaxLayer F32)
    (hl : n.get_layers.getLast? = some (.sm l)) (x : Tensor F32) (hx : x.WF) (hxs : x.shape = n.get_input_shape) :
    ∃ n' z y, n.infer b x = .ok (.ok (), n') ∧
      n'.get_intermediate_state (n.get_layers.length - 1) = .ok z ∧ n'.get_output = .ok y ∧
      z.shape = n.get_output_shape ∧ y.shape = n.get_output_shape ∧
      ((∀ i j k, n.get_output_shape.Inside i j k →
          (Libm.exp (val z i j k)).isNaN = false ∧ (Libm.exp (val z i j k)).sign = false) →
        (Spec.sum (z.data.map exp)).isFinite = true → 0 < (Spec.sum (z.data.map exp)).code →
        ∀ i j k i' j' k', n.get_output_shape.Inside i j k → n.get_output_shape.Inside i' j' k' →
          F32.gt (Libm.exp (val z i j k)) (Libm.exp (val z i' j' k')) = false →
          F32.gt (val y i j k) (val y i' j' k') = false) := by
  obtain ⟨n', z, y, h1, h2, h3, hz, hy, sz, sy, h⟩ := last_states b n hn l hl x hx hxs
  refine ⟨n', z, y, h1, h2, h3, sz, sy, fun he hs hp i j k i' j' k' hin hin' hgt => ?_⟩
  obtain ⟨w, w1, w2, w3, w4⟩ := softmax_ok hz hy (sz.trans sy.symm)
  obtain ⟨w', d1, d2⟩ := C67_order b z y hz hy (sz.trans sy.symm) (by rw [sz]; exact he) hs hp
  rw [w1] at d1
  cases d1
  obtain ⟨v, v', v1, v2, v3⟩ := d2 i j k i' j' k' (by rw [sz]; exact hin) (by rw [sz]; exact hin') hgt
  rw [get_item_ok w2 (by rw [w3, sy]; exact hin), w4 i j k (by rw [sy]; exact hin), ← h i j k hin] at v1
  rw [get_item_ok w2 (by rw [w3, sy]; exact hin'), w4 i' j' k' (by rw [sy]; exact hin'), ← h i' j' k' hin'] at v2
  cases v1
  cases v2
  exact v3

/-! ## Examples -/

open Exact in
/-- a network with a fully connected and a softmax layer, and its two halves, are covered by `C102_real` and
`C102_without` -/
example (b : Build) : ∃ n n1 n2 : Net ℝ, Built b n ∧ Built b n1 ∧ Built b n2 ∧
    n.get_layers.getLast? = some (.sm exSMR2) ∧ 0 < n.get_output_shape.count ∧ n2.get_layers = [.sm exSMR2] ∧
    n.get_layers.map params = n1.get_layers.map params ++ n2.get_layers.map params ∧ n1.get_layers ≠ [] := by
  have h1 : ∃ n1 : Net ℝ, (Network.new .Training : Net ℝ).add_layer b (.fc exFCR) = .ok (.ok (), n1) ∧
      n1.get_layers = [.fc exFCR] ∧ ∃ n : Net ℝ, n1.add_layer b (.sm exSMR2) = .ok (.ok (), n) ∧
      n.get_layers = [.fc exFCR, .sm exSMR2] ∧ n.get_output_shape = exSMR2.shape := by
    cases b <;> exact ⟨_, rfl, rfl, _, rfl, rfl, rfl⟩
  have h2 : ∃ n2 : Net ℝ, (Network.new .Training : Net ℝ).add_layer b (.sm exSMR2) = .ok (.ok (), n2) ∧
      n2.get_layers = [.sm exSMR2] := by
    cases b <;> exact ⟨_, rfl, rfl⟩
  obtain ⟨n1, a1, a2, n, a3, a4, a5⟩ := h1
  obtain ⟨n2, c1, c2⟩ := h2
  have hb1 : Built b n1 := .add_layer _ (.fc exFCR) _ _ (.new _) exFCR_ok a1
  refine ⟨n, n1, n2, .add_layer _ (.sm exSMR2) _ _ hb1 exSMR2_ok a3, hb1,
    .add_layer _ (.sm exSMR2) _ _ (.new _) exSMR2_ok c1, by rw [a4]; rfl, ?_, c2, by rw [a4, a2, c2]; rfl,
    by rw [a2]; simp⟩
  rw [a5]
  unfold TensorShape.count exSMR2
  decide

open F32 in
/-- a network that `C102_f32` covers; its scores are its input, and the example for C67 has some for which the
conditions on the exponentials hold -/
example [Libm] (b : Build) : ∃ n l, Built (F := F32) b n ∧ n.get_layers.getLast? = some (.sm l) ∧
    n.get_input_shape = ⟨2, 1, 1⟩ := by
  cases b <;> exact ⟨_, _, .add_layer (Network.new .Inference)
    (.sm ⟨⟨2, 1, 1⟩, "s", ⟨⟨1, 1, 1⟩, ⟨1, 1, 1⟩, [⟨0⟩]⟩, ⟨⟨1, 1, 1⟩, ⟨1, 1, 1⟩, [⟨0⟩]⟩, .Inference⟩) (.ok ()) _ (.new _)
    ⟨by unfold TensorShape.Fits; decide, fun h => by cases h⟩ rfl, rfl, rfl⟩

end Rusty
