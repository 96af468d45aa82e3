import Verif.Lemmas.Order
import Verif.Lemmas.FullyConnected
import Verif.Props.Matrix

/-! # C27, C28: the fully connected layer -/

namespace Rusty

open F32Ops Spec

variable {F : Type} [F32Ops F]

/-- Integers satisfy the law of `max(x, 0)`. -/
theorem toyMaxZero : @MaxZero Int Toy.toyOps :=
  let _ := Toy.toyOps
  { fmax_zero := fun x _ => by
      simp only [F32Ops.fmax, F32Ops.gt, F32Ops.zero, decide_eq_true_eq]
      split <;> split <;> omega }

/-! ## C27 -/

/-- C27: in inference mode `forward` writes `max(pre-activation, 0)` and does not change the layer. -/
theorem C27_forward_inference (b : Build) (l : FullyConnectedLayer F) (hl : l.Ok)
    (hm : l.run_state = .Inference) (x out : Tensor F) (hx : x.WF)
    (hxs : x.shape = l.get_input_shape) (ho : out.WF) (hos : out.shape = l.get_output_shape) :
    ∃ y, l.forward b x out = .ok (.ok (), l, y) ∧ y.WF ∧ y.shape = l.get_output_shape ∧
      ∀ o, o < l.weights.shape.di.toNat → y.get_item b (ix o 0 0) =
        .ok (fmax (preact l x o) zero) := by
  obtain ⟨y, q1, q2, q3, q4⟩ := fc_forward_inference (b := b) hl hm hx hxs ho hos
  refine ⟨y, q1, q2, q3, fun o h => ?_⟩
  rw [get_item_ok q2 (by
    rw [q3]; unfold FullyConnectedLayer.get_output_shape; rw [hl.rows]; exact col_inside h), q4 o h]

/-- C27: in training mode `forward` writes the pre-activation where it is above zero and zero
elsewhere, records the mask, and changes nothing else. -/
theorem C27_forward_training (b : Build) (l : FullyConnectedLayer F) (hl : l.Ok)
    (hm : l.run_state = .Training) (x out : Tensor F) (hx : x.WF)
    (hxs : x.shape = l.get_input_shape) (ho : out.WF) (hos : out.shape = l.get_output_shape) :
    ∃ mask y, l.forward b x out = .ok (.ok (), { l with relu_mask := mask }, y) ∧ y.WF ∧
      y.shape = l.get_output_shape ∧
      ∀ o, o < l.weights.shape.di.toNat →
        y.get_item b (ix o 0 0) =
          .ok (if gt (preact l x o) zero then preact l x o else zero) ∧
        mask.get_item b (ix o 0 0) = .ok (if gt (preact l x o) zero then one else zero) := by
  obtain ⟨mask, y, q1, q2, q3, q4, q5, q6⟩ := fc_forward_training (b := b) hl hm hx hxs ho hos
  refine ⟨mask, y, q1, q2, q3, fun o h => ⟨?_, ?_⟩⟩
  · rw [get_item_ok q2 (by
      rw [q3]; unfold FullyConnectedLayer.get_output_shape; rw [hl.rows]; exact col_inside h),
      (q6 o h).1]
    rfl
  · rw [get_item_ok q4 (by rw [q5, hl.rows]; exact col_inside h), (q6 o h).2]
    rfl

/-- C27: where `max(x, 0)` is `x` for `x > 0` and `0` otherwise, both modes write the same output. -/
theorem C27_modes_agree [MaxZero F] (b : Build) (l l' : FullyConnectedLayer F) (hl : l.Ok)
    (hl' : l'.Ok) (hw : l'.weights = l.weights) (hb : l'.bias = l.bias)
    (hm : l.run_state = .Inference) (hm' : l'.run_state = .Training) (x out out' : Tensor F)
    (hx : x.WF) (hxs : x.shape = l.get_input_shape) (ho : out.WF) (ho' : out'.WF)
    (hos : out.shape = l.get_output_shape) (hos' : out'.shape = l.get_output_shape) :
    ∃ y l1, l.forward b x out = .ok (.ok (), l, y) ∧ l'.forward b x out' = .ok (.ok (), l1, y) := by
  have ei : l'.get_input_shape = l.get_input_shape := by
    unfold FullyConnectedLayer.get_input_shape; rw [hw]
  have eo : l'.get_output_shape = l.get_output_shape := by
    unfold FullyConnectedLayer.get_output_shape; rw [hb]
  have ep : ∀ o, preact l' x o = preact l x o := fun o => by unfold preact; rw [hw, hb]
  obtain ⟨y, q1, q2, q3, q4⟩ := fc_forward_inference (b := b) hl hm hx hxs ho hos
  obtain ⟨mask, y', p1, p2, p3, p4, p5, p6⟩ := fc_forward_training (b := b) hl' hm' hx
    (by rw [ei]; exact hxs) ho' (by rw [eo]; exact hos')
  have e : y' = y := by
    apply tensor_ext p2 q2 (by rw [p3, q3, eo])
    intro i j k hin
    rw [p3, eo] at hin
    unfold FullyConnectedLayer.get_output_shape at hin
    rw [hl.rows] at hin
    obtain ⟨h, rfl, rfl⟩ := col_inside_iff.mp hin
    rw [q4 i h, (p6 i (by rw [hw]; exact h)).1, ep,
      MaxZero.fmax_zero _ (summed_preact l x i)]
    rfl
  exact ⟨y, _, q1, by rw [p1, e]⟩

/-- a 2 -> 3 layer with `W = [[1,-2],[3,4],[-5,0]]`, bias `(1,-100,7)`, in training mode -/
def exFC : FullyConnectedLayer Int :=
  { weights := ⟨⟨1, 3, 6⟩, ⟨3, 2, 1⟩, [1, 3, -5, -2, 4, 0]⟩
    bias := ⟨⟨1, 3, 3⟩, ⟨3, 1, 1⟩, [1, -100, 7]⟩
    weights_gradients := ⟨⟨1, 3, 6⟩, ⟨3, 2, 1⟩, [0, 0, 0, 0, 0, 0]⟩
    weights_gradients_intermediate := ⟨⟨1, 3, 6⟩, ⟨3, 2, 1⟩, [0, 0, 0, 0, 0, 0]⟩
    bias_gradients := ⟨⟨1, 3, 3⟩, ⟨3, 1, 1⟩, [0, 0, 0]⟩
    relu_mask := ⟨⟨1, 3, 3⟩, ⟨3, 1, 1⟩, [0, 0, 0]⟩
    name := "fc", run_state := .Training }

theorem exFC_ok : exFC.Ok :=
  ⟨⟨by decide, rfl, rfl, rfl, rfl⟩, ⟨by decide, rfl, rfl, rfl, rfl⟩, rfl, rfl, fun _ =>
    ⟨⟨⟨by decide, rfl, rfl, rfl, rfl⟩, rfl⟩, ⟨⟨by decide, rfl, rfl, rfl, rfl⟩, rfl⟩,
      ⟨⟨by decide, rfl, rfl, rfl, rfl⟩, rfl⟩, ⟨⟨by decide, rfl, rfl, rfl, rfl⟩, rfl⟩⟩⟩

open Toy in
example : ∃ l' y, exFC.forward .debug ⟨⟨1, 2, 2⟩, ⟨2, 1, 1⟩, [10, 1]⟩ (zeros ⟨3, 1, 1⟩) =
    .ok (.ok (), l', y) ∧ y.data = [9, 0, 0] ∧ l'.relu_mask.data = [1, 0, 0] ∧
    preact exFC ⟨⟨1, 2, 2⟩, ⟨2, 1, 1⟩, [10, 1]⟩ 1 = -66 := ⟨_, _, rfl, rfl, rfl, rfl⟩

open Toy in
example : ∃ y, ({ exFC with run_state := .Inference }).forward .debug
    ⟨⟨1, 2, 2⟩, ⟨2, 1, 1⟩, [10, 1]⟩ (zeros ⟨3, 1, 1⟩) =
    .ok (.ok (), { exFC with run_state := .Inference }, y) ∧ y.data = [9, 0, 0] := ⟨_, rfl, rfl⟩

/-! ## C28 -/

/-- the gradient that passes the relu of output `o` -/
def masked (l : FullyConnectedLayer F) (r : Round F) (o : Nat) : F :=
  mul (if gt (preact l r.x o) zero then one else zero) (val r.g o 0 0)

/-- C28, one round: `forward(x)` then `backward(g)` succeed; the outgoing gradient is
`W^T (mask . g)`, the bias gradient grows by `mask . g`, the weight gradient by `(mask . g) x^T`;
parameters, name and mode stay as they are. -/
theorem C28_round (b : Build) (l : FullyConnectedLayer F) (hl : l.Ok)
    (hm : l.run_state = .Training) (r : Round F) (hr : r.FitsFC l) :
    ∃ l1 out l2 og, l.forward b r.x r.out = .ok (.ok (), l1, out) ∧
      l1.backward b r.x out r.g r.og = .ok (.ok (), l2, og) ∧ l2.Ok ∧ l.SameParams l2 ∧
      og.WF ∧ og.shape = l.get_input_shape ∧
      (∀ i, i < l.weights.shape.dj.toNat → og.get_item b (ix i 0 0) =
        .ok (sum ((List.range l.weights.shape.di.toNat).map fun o =>
          mul (val l.weights o i 0) (masked l r o)))) ∧
      (∀ o, o < l.weights.shape.di.toNat →
        l2.bias_gradients.get_item b (ix o 0 0) =
          .ok (add (val l.bias_gradients o 0 0) (masked l r o)) ∧
        ∀ i, i < l.weights.shape.dj.toNat →
          l2.weights_gradients.get_item b (ix o i 0) =
            .ok (add (val l.weights_gradients o i 0)
              (sum [mul (masked l r o) (val r.x i 0 0)]))) := by
  obtain ⟨mask, y, q1, q2, q3, q4, q5, q6⟩ := fc_forward_training (b := b) hl hm hr.x.1 hr.x.2
    hr.out.1 hr.out.2
  have hl1 := fc_ok_mask hl mask q4 q5
  obtain ⟨l2, og, p1, p2, p3, p4, p5, p6, p7⟩ := fc_backward_training (b := b) (out := y) hl1 hm
    hr.x.1 hr.x.2 hr.g.1 hr.g.2 hr.og.1 hr.og.2
  have em : ∀ o, o < l.weights.shape.di.toNat →
      mul (val mask o 0 0) (val r.g o 0 0) = masked l r o := by
    intro o h; rw [(q6 o h).2]; rfl
  have hb2 := p3.buffers (by rw [p2.2.2.2]; exact hm)
  refine ⟨_, y, l2, og, q1, p1, p3, p2, p4, p5, ?_, ?_⟩
  · intro i hi
    rw [get_item_ok p4 (by rw [p5]; exact col_inside hi), p6 i hi]
    congr 2
    apply List.map_congr_left
    intro o ho
    change mul (val l.weights o i 0) (mul (val mask o 0 0) (val r.g o 0 0)) = _
    rw [em o (List.mem_range.mp ho)]
  · intro o ho
    obtain ⟨e1, e2⟩ := p7 o ho
    constructor
    · rw [get_item_ok hb2.2.2.1.1 (by
        rw [hb2.2.2.1.2, p2.2.1]; change l.bias.shape.Inside o 0 0
        rw [hl.rows]; exact col_inside ho), e1]
      change Except.ok (add _ (mul (val mask o 0 0) (val r.g o 0 0))) = _
      rw [em o ho]
    · intro i hi
      rw [get_item_ok hb2.1.1 (by
        rw [hb2.1.2, p2.1]; exact ⟨ho, hi, by rw [hl.depth]; decide⟩), e2 i hi]
      change Except.ok (add _ (sum [mul (mul (val mask o 0 0) (val r.g o 0 0)) _])) = _
      rw [em o ho]

/-- C28, any number of rounds: all calls succeed and the stored gradients are the sums, in order,
of the per-round gradients on top of what was stored before. -/
theorem C28_accumulate (b : Build) (l : FullyConnectedLayer F) (hl : l.Ok)
    (hm : l.run_state = .Training) (rounds : List (Round F)) (hr : ∀ r ∈ rounds, r.FitsFC l) :
    ∃ l', FCRun b l rounds l' ∧ l'.Ok ∧ l.SameParams l' ∧
      ∀ o, o < l.weights.shape.di.toNat →
        l'.bias_gradients.get_item b (ix o 0 0) =
          .ok ((rounds.map fun r => masked l r o).foldl add (val l.bias_gradients o 0 0)) ∧
        ∀ i, i < l.weights.shape.dj.toNat →
          l'.weights_gradients.get_item b (ix o i 0) =
            .ok ((rounds.map fun r => sum [mul (masked l r o) (val r.x i 0 0)]).foldl add
              (val l.weights_gradients o i 0)) := by
  induction rounds generalizing l with
  | nil =>
    have hb := hl.buffers hm
    refine ⟨l, .done l, hl, ⟨rfl, rfl, rfl, rfl⟩, fun o ho => ⟨?_, fun i hi => ?_⟩⟩
    · exact get_item_ok hb.2.2.1.1 (by rw [hb.2.2.1.2, hl.rows]; exact col_inside ho)
    · exact get_item_ok hb.1.1 (by rw [hb.1.2]; exact ⟨ho, hi, by rw [hl.depth]; decide⟩)
  | cons r rounds ih =>
    obtain ⟨l1, out, l2, og, q1, q2, q3, q4, _, _, _, q8⟩ :=
      C28_round b l hl hm r (hr r (List.mem_cons_self ..))
    have hin : l2.get_input_shape = l.get_input_shape := by
      unfold FullyConnectedLayer.get_input_shape; rw [q4.1]
    have hout : l2.get_output_shape = l.get_output_shape := by
      unfold FullyConnectedLayer.get_output_shape; rw [q4.2.1]
    have hm2 : l2.run_state = .Training := by rw [q4.2.2.2]; exact hm
    obtain ⟨l', p1, p2, p3, p4⟩ := ih l2 q3 hm2 (fun r' h' => by
      obtain ⟨x, g, o, og⟩ := hr r' (List.mem_cons_of_mem _ h')
      exact ⟨by rw [hin]; exact x, by rw [hout]; exact g, by rw [hout]; exact o,
        by rw [hin]; exact og⟩)
    have em : ∀ r' o, masked l2 r' o = masked l r' o := by
      intro r' o; unfold masked; rw [preact_congr q4]
    have hb2 := q3.buffers hm2
    refine ⟨l', .round l l1 l2 l' r rounds out og q1 q2 p1, p2,
      ⟨p3.1.trans q4.1, p3.2.1.trans q4.2.1, p3.2.2.1.trans q4.2.2.1,
        p3.2.2.2.trans q4.2.2.2⟩, fun o ho => ?_⟩
    obtain ⟨e1, e2⟩ := q8 o ho
    obtain ⟨f1, f2⟩ := p4 o (by rw [q4.1]; exact ho)
    constructor
    · rw [f1, List.map_cons, List.foldl_cons]
      rw [get_item_ok hb2.2.2.1.1 (by
        rw [hb2.2.2.1.2, q4.2.1, hl.rows]; exact col_inside ho)] at e1
      rw [Except.ok.inj e1]
      simp only [em]
    · intro i hi
      have e3 := e2 i hi
      rw [f2 i (by rw [q4.1]; exact hi), List.map_cons, List.foldl_cons]
      rw [get_item_ok hb2.1.1 (by
        rw [hb2.1.2, q4.1]; exact ⟨ho, hi, by rw [hl.depth]; decide⟩)] at e3
      rw [Except.ok.inj e3]
      simp only [em]

/-- C28: `clear_gradients` resets both gradients to zero and keeps the parameters. -/
theorem C28_clear (b : Build) (l : FullyConnectedLayer F) (hl : l.Ok)
    (hm : l.run_state = .Training) :
    l.clear_gradients.Ok ∧ l.SameParams l.clear_gradients ∧
      ∀ o, o < l.weights.shape.di.toNat →
        l.clear_gradients.bias_gradients.get_item b (ix o 0 0) = .ok zero ∧
        ∀ i, i < l.weights.shape.dj.toNat →
          l.clear_gradients.weights_gradients.get_item b (ix o i 0) = .ok zero := by
  obtain ⟨⟨w1, w2⟩, ⟨i1, i2⟩, ⟨g1, g2⟩, ⟨m1, m2⟩⟩ := hl.buffers hm
  obtain ⟨a1, a2, a3⟩ := fill_ok (zero : F) w1
  obtain ⟨b1, b2, b3⟩ := fill_ok (zero : F) i1
  obtain ⟨c1, c2, c3⟩ := fill_ok (zero : F) g1
  obtain ⟨d1, d2, d3⟩ := fill_ok (zero : F) m1
  refine ⟨⟨hl.weights, hl.bias, hl.rows, hl.depth, fun _ =>
    ⟨⟨a1, a2.trans w2⟩, ⟨b1, b2.trans i2⟩, ⟨c1, c2.trans g2⟩, ⟨d1, d2.trans m2⟩⟩⟩,
    ⟨rfl, rfl, rfl, rfl⟩, fun o ho => ⟨?_, fun i hi => ?_⟩⟩
  · have hin : l.bias_gradients.shape.Inside o 0 0 := by
      rw [g2, hl.rows]; exact col_inside ho
    have := get_item_ok (b := b) c1 (i := o) (j := 0) (k := 0) (by rw [c2]; exact hin)
    rw [c3 o 0 0 hin] at this
    exact this
  · have hin : l.weights_gradients.shape.Inside o i 0 := by
      rw [w2]; exact ⟨ho, hi, by rw [hl.depth]; decide⟩
    have := get_item_ok (b := b) a1 (i := o) (j := i) (k := 0) (by rw [a2]; exact hin)
    rw [a3 o i 0 hin] at this
    exact this

/-- C28 needs the `forward` before each `backward`: the mask is multiplied by the gradient in
place, so a second `backward` with the same gradient returns a different outgoing gradient. -/
theorem C28_backward_twice_negation :
    let _ := Toy.toyOps
    ∃ l1 l2 l3 y og og', exFC.forward .debug ⟨⟨1, 2, 2⟩, ⟨2, 1, 1⟩, [10, 1]⟩ (zeros ⟨3, 1, 1⟩) =
        .ok (.ok (), l1, y) ∧
      l1.backward .debug ⟨⟨1, 2, 2⟩, ⟨2, 1, 1⟩, [10, 1]⟩ y ⟨⟨1, 3, 3⟩, ⟨3, 1, 1⟩, [2, 3, 5]⟩
        (zeros ⟨2, 1, 1⟩) = .ok (.ok (), l2, og) ∧
      l2.backward .debug ⟨⟨1, 2, 2⟩, ⟨2, 1, 1⟩, [10, 1]⟩ y ⟨⟨1, 3, 3⟩, ⟨3, 1, 1⟩, [2, 3, 5]⟩
        (zeros ⟨2, 1, 1⟩) = .ok (.ok (), l3, og') ∧ og.data = [2, -4] ∧ og'.data = [4, -8] :=
  ⟨_, _, _, _, _, _, rfl, rfl, rfl, rfl, rfl⟩

/-- two rounds for `exFC` -/
def exRounds : List (Round Int) :=
  let z2 : Tensor Int := ⟨⟨1, 2, 2⟩, ⟨2, 1, 1⟩, [0, 0]⟩
  let z3 : Tensor Int := ⟨⟨1, 3, 3⟩, ⟨3, 1, 1⟩, [0, 0, 0]⟩
  [⟨{ z2 with data := [10, 1] }, { z3 with data := [2, 3, 5] }, z3, z2⟩,
   ⟨{ z2 with data := [20, 30] }, { z3 with data := [7, 11, 13] }, z3, z2⟩]

example : ∀ r ∈ exRounds, r.FitsFC exFC := by
  intro r hr
  have w2 : ∀ d : List Int, d.length = 2 →
      (⟨⟨1, 2, 2⟩, ⟨2, 1, 1⟩, d⟩ : Tensor Int).WF := fun d h =>
        ⟨(by decide : (⟨2, 1, 1⟩ : TensorShape).Fits), rfl, rfl, rfl, h⟩
  have w3 : ∀ d : List Int, d.length = 3 →
      (⟨⟨1, 3, 3⟩, ⟨3, 1, 1⟩, d⟩ : Tensor Int).WF := fun d h =>
        ⟨(by decide : (⟨3, 1, 1⟩ : TensorShape).Fits), rfl, rfl, rfl, h⟩
  rcases List.mem_cons.mp hr with rfl | hr
  · exact ⟨⟨w2 _ rfl, rfl⟩, ⟨w3 _ rfl, rfl⟩, ⟨w3 _ rfl, rfl⟩, ⟨w2 _ rfl, rfl⟩⟩
  · rcases List.mem_cons.mp hr with rfl | hr
    · exact ⟨⟨w2 _ rfl, rfl⟩, ⟨w3 _ rfl, rfl⟩, ⟨w3 _ rfl, rfl⟩, ⟨w2 _ rfl, rfl⟩⟩
    · cases hr

open Toy in
example : ∃ l', FCRun .debug exFC exRounds l' ∧ l'.bias_gradients.data = [2, 11, 0] ∧
    l'.weights_gradients.data = [20, 220, 0, 2, 330, 0] :=
  ⟨_, .round _ _ _ _ _ _ _ _ rfl rfl (.round _ _ _ _ _ _ _ _ rfl rfl (.done _)), rfl, rfl⟩

end Rusty
