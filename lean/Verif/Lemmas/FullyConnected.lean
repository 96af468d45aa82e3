import Verif.Spec.Layers
import Verif.Lemmas.Matrix

set_option linter.unusedSectionVars false

/-! # Helper lemmas: the fully connected layer -/

namespace Rusty

open F32Ops Spec

variable {F : Type} [F32Ops F]

/-- the parameters of two layers agree -/
def FullyConnectedLayer.SameParams (l l' : FullyConnectedLayer F) : Prop :=
  l'.weights = l.weights ∧ l'.bias = l.bias ∧ l'.name = l.name ∧ l'.run_state = l.run_state

theorem preact_congr {l l' : FullyConnectedLayer F} (h : l.SameParams l') (x : Tensor F) (o : Nat) :
    preact l' x o = preact l x o := by
  unfold preact
  rw [h.1, h.2.1]

theorem col_inside {n : UInt32} {o : Nat} (h : o < n.toNat) : (⟨n, 1, 1⟩ : TensorShape).Inside o 0 0 :=
  ⟨h, (by decide : 0 < (1 : UInt32).toNat), (by decide : 0 < (1 : UInt32).toNat)⟩

theorem col_inside_iff {n : UInt32} {i j k : Nat} :
    (⟨n, 1, 1⟩ : TensorShape).Inside i j k ↔ i < n.toNat ∧ j = 0 ∧ k = 0 := by
  unfold TensorShape.Inside
  have h1 : (1 : UInt32).toNat = 1 := rfl
  rw [show (⟨n, 1, 1⟩ : TensorShape).di = n from rfl, show (⟨n, 1, 1⟩ : TensorShape).dj = 1 from rfl,
    show (⟨n, 1, 1⟩ : TensorShape).dk = 1 from rfl, h1]
  omega

section

variable {l : FullyConnectedLayer F} (hl : l.Ok)

include hl

theorem fc_mm {x out : Tensor F} (hx : x.shape = l.get_input_shape)
    (ho : out.shape = l.get_output_shape) :
    Tensor.check_matrix_multiply_dimensions l.weights.shape x.shape out.shape = true := by
  rw [check_mm_iff, hx, ho]
  unfold FullyConnectedLayer.get_input_shape FullyConnectedLayer.get_output_shape
  rw [hl.rows, hl.depth]
  exact ⟨rfl, rfl, rfl, rfl, rfl⟩

theorem fc_forward_inference {b : Build} {x out : Tensor F} (hm : l.run_state = .Inference)
    (hx : x.WF) (hxs : x.shape = l.get_input_shape) (ho : out.WF)
    (hos : out.shape = l.get_output_shape) :
    ∃ y, l.forward b x out = .ok (.ok (), l, y) ∧ y.WF ∧ y.shape = l.get_output_shape ∧
      ∀ o, o < l.weights.shape.di.toNat → val y o 0 0 = fmax (preact l x o) zero := by
  obtain ⟨y, q1, q2, q3, q4⟩ := matmul_add_relu_ok (b := b) hx hl.weights hl.bias ho
    (fc_mm hl hxs hos) (by rw [hos]; rfl)
  refine ⟨y, ?_, q2, q3.trans hos, fun o h => ?_⟩
  · unfold FullyConnectedLayer.forward
    rw [hm]
    simp only
    rw [q1]
    rfl
  · rw [q4 o 0 0]
    · rfl
    · rw [hos]
      unfold FullyConnectedLayer.get_output_shape
      rw [hl.rows]
      exact col_inside h

theorem fc_forward_training {b : Build} {x out : Tensor F} (hm : l.run_state = .Training)
    (hx : x.WF) (hxs : x.shape = l.get_input_shape) (ho : out.WF)
    (hos : out.shape = l.get_output_shape) :
    ∃ mask y, l.forward b x out = .ok (.ok (), { l with relu_mask := mask }, y) ∧ y.WF ∧
      y.shape = l.get_output_shape ∧ mask.WF ∧ mask.shape = l.bias.shape ∧
      ∀ o, o < l.weights.shape.di.toNat →
        val y o 0 0 = relu (preact l x o) ∧ val mask o 0 0 = step (preact l x o) := by
  obtain ⟨b1, b2, b3, b4⟩ := hl.buffers hm
  obtain ⟨y, q1, q2, q3, q4⟩ := matmul_ok (b := b) hl.weights hx ho (fc_mm hl hxs hos)
  have hyb : y.shape = l.bias.shape := q3.trans hos
  obtain ⟨w, s, v⟩ := add_to_self_ok q2 hl.bias hyb
  obtain ⟨t', m', p1, p2, p3, p4, p5, p6⟩ := relu_mask_ok w b4.1 (by rw [s, b4.2]; exact hyb)
  refine ⟨m', t', ?_, p2, by rw [p4, s]; exact hyb, p3, by rw [p5]; exact b4.2, fun o h => ?_⟩
  · unfold FullyConnectedLayer.forward
    rw [hm]
    simp only
    rw [q1, ok_bind, p1]
    rfl
  · have hin : y.shape.Inside o 0 0 := by
      rw [hyb, hl.rows]; exact col_inside h
    obtain ⟨e1, e2⟩ := p6 o 0 0 (by rw [s]; exact hin)
    rw [e1, e2, v o 0 0 hin, q4 o 0 0 (by rw [← q3]; exact hin)]
    exact ⟨rfl, rfl⟩

theorem fc_ok_mask (mask : Tensor F) (h1 : mask.WF) (h2 : mask.shape = l.bias.shape) :
    ({ l with relu_mask := mask } : FullyConnectedLayer F).Ok :=
  ⟨hl.weights, hl.bias, hl.rows, hl.depth, fun hm =>
    ⟨(hl.buffers hm).1, (hl.buffers hm).2.1, (hl.buffers hm).2.2.1, h1, h2⟩⟩

/-- one `backward`, in terms of the stored mask -/
theorem fc_backward_training {b : Build} {x out g og : Tensor F} (hm : l.run_state = .Training)
    (hx : x.WF) (hxs : x.shape = l.get_input_shape) (hg : g.WF)
    (hgs : g.shape = l.get_output_shape) (ho : og.WF) (hos : og.shape = l.get_input_shape) :
    ∃ l' og', l.backward b x out g og = .ok (.ok (), l', og') ∧ l.SameParams l' ∧ l'.Ok ∧
      og'.WF ∧ og'.shape = l.get_input_shape ∧
      (∀ i, i < l.weights.shape.dj.toNat →
        val og' i 0 0 = sum ((List.range l.weights.shape.di.toNat).map fun o =>
          mul (val l.weights o i 0) (mul (val l.relu_mask o 0 0) (val g o 0 0)))) ∧
      (∀ o, o < l.weights.shape.di.toNat →
        val l'.bias_gradients o 0 0 =
          add (val l.bias_gradients o 0 0) (mul (val l.relu_mask o 0 0) (val g o 0 0)) ∧
        ∀ i, i < l.weights.shape.dj.toNat →
          val l'.weights_gradients o i 0 = add (val l.weights_gradients o i 0)
            (sum [mul (mul (val l.relu_mask o 0 0) (val g o 0 0)) (val x i 0 0)])) := by
  obtain ⟨⟨w1, w2⟩, ⟨i1, i2⟩, ⟨g1, g2⟩, ⟨m1, m2⟩⟩ := hl.buffers hm
  have hmg : l.relu_mask.shape = g.shape := by rw [m2, hgs]; rfl
  obtain ⟨a1, a2, a3⟩ := mul_self_ok m1 hg hmg
  have hgm : l.bias_gradients.shape = (Tensor.multiply_elementwise_self l.relu_mask g).shape := by
    rw [a2, g2, m2]
  obtain ⟨c1, c2, c3⟩ := add_to_self_ok g1 a1 hgm
  have hin : ∀ o, o < l.weights.shape.di.toNat → l.relu_mask.shape.Inside o 0 0 := by
    intro o h; rw [m2, hl.rows]; exact col_inside h
  obtain ⟨wi, d1, d2, d3, d4⟩ := matmul_ts_ok (b := b) a1 hx i1 (by
    rw [check_mm_iff, a2, m2, hxs, i2, hl.rows]
    unfold FullyConnectedLayer.get_input_shape
    exact ⟨rfl, hl.depth.symm, rfl, rfl, rfl⟩)
  have hww : l.weights_gradients.shape = wi.shape := by rw [w2, d3, i2]
  obtain ⟨e1, e2, e3⟩ := add_to_self_ok w1 d2 hww
  obtain ⟨og', f1, f2, f3, f4⟩ := matmul_tf_ok (b := b) hl.weights a1 ho (by
    rw [check_mm_iff, a2, m2, hos, hl.rows]
    unfold FullyConnectedLayer.get_input_shape
    exact ⟨hl.depth, hl.depth, rfl, rfl, rfl⟩)
  refine ⟨{ l with
      relu_mask := Tensor.multiply_elementwise_self l.relu_mask g
      bias_gradients := Tensor.add_to_self l.bias_gradients
        (Tensor.multiply_elementwise_self l.relu_mask g)
      weights_gradients_intermediate := wi
      weights_gradients := Tensor.add_to_self l.weights_gradients wi },
    og', ?_, ⟨rfl, rfl, rfl, rfl⟩, ?_, f2, f3.trans hos, ?_, ?_⟩
  · unfold FullyConnectedLayer.backward
    rw [if_pos hm]
    simp only
    rw [d1, ok_bind]
    simp only
    rw [f1]
    rfl
  · exact ⟨hl.weights, hl.bias, hl.rows, hl.depth, fun _ =>
      ⟨⟨e1, e2.trans w2⟩, ⟨d2, d3.trans i2⟩, ⟨c1, c2.trans g2⟩, ⟨a1, a2.trans m2⟩⟩⟩
  · intro i hi
    rw [f4 i 0 0 (by rw [hos]; exact col_inside hi)]
    congr 1
    apply List.map_congr_left
    intro o ho
    rw [a3 o 0 0 (hin o (List.mem_range.mp ho))]
  · intro o ho
    constructor
    · change val (Tensor.add_to_self l.bias_gradients _) o 0 0 = _
      rw [c3 o 0 0 (by rw [g2, ← m2]; exact hin o ho), a3 o 0 0 (hin o ho)]
    · intro i hi
      change val (Tensor.add_to_self l.weights_gradients wi) o i 0 = _
      have hinw : l.weights.shape.Inside o i 0 := ⟨ho, hi, by rw [hl.depth]; decide⟩
      rw [e3 o i 0 (by rw [w2]; exact hinw), d4 o i 0 (by rw [i2]; exact hinw)]
      rw [a2, m2, hl.rows]
      change add _ (sum [mul (val _ o 0 0) (val x i 0 0)]) = _
      rw [a3 o 0 0 (hin o ho)]

end

end Rusty
