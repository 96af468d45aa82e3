import Verif.Lemmas.Order
import Verif.Spec.AnyLayer
import Verif.Spec.Toy
import Verif.Lemmas.ConvLayer
import Verif.Props.Convolution

/-! # C30, C31: the convolutional layer -/

namespace Rusty

open F32Ops Spec

variable {F : Type} [F32Ops F]

/-! ## C30 -/

/-- C30, inference mode: `forward` returns `Ok`, leaves the layer alone and writes
`max(conv_c(i,j) + bias_c, 0)` at every position. -/
theorem C30_forward_inference (b : Build) (l : ConvolutionalLayer F) (x out : Tensor F)
    (hl : l.Ok) (hm : l.run_state = .Inference) (hx : x.WF) (hxs : x.shape = l.input_shape)
    (ho : out.WF) (hos : out.shape = l.output_shape) :
    ∃ y, l.forward b x out = .ok (.ok (), l, y) ∧ y.WF ∧ y.shape = l.output_shape ∧
      ∀ i j k, l.output_shape.Inside i j k →
        y.get_item b (ix i j k) = .ok (fmax (convPre l x i j k) zero) := by
  obtain ⟨y, q1, q2, q3, q4⟩ := conv_forward_inference (b := b) hl hm hx hxs ho hos
  refine ⟨y, q1, q2, q3, fun i j k hin => ?_⟩
  rw [get_item_ok q2 (by rw [q3]; exact hin), q4 i j k hin]

/-- C30, training mode: the same function of the pre-activation, and the mask of the positive
pre-activations is recorded; nothing else of the layer changes. -/
theorem C30_forward_training (b : Build) (l : ConvolutionalLayer F) (x out : Tensor F)
    (hl : l.Ok) (hm : l.run_state = .Training) (hx : x.WF) (hxs : x.shape = l.input_shape)
    (ho : out.WF) (hos : out.shape = l.output_shape) :
    ∃ mask y, l.forward b x out = .ok (.ok (), { l with relu_mask := mask }, y) ∧
      y.WF ∧ y.shape = l.output_shape ∧ mask.WF ∧ mask.shape = l.output_shape ∧
      ∀ i j k, l.output_shape.Inside i j k →
        y.get_item b (ix i j k) = .ok (relu (convPre l x i j k)) ∧
        mask.get_item b (ix i j k) =
          .ok (if gt (convPre l x i j k) zero then one else zero) := by
  obtain ⟨m, y, q1, q2, q3, q4, q5, q6⟩ := conv_forward_training (b := b) hl hm hx hxs ho hos
  refine ⟨m, y, q1, q2, q3, q4, q5, fun i j k hin => ⟨?_, ?_⟩⟩
  · rw [get_item_ok q2 (by rw [q3]; exact hin), (q6 i j k hin).1]
  · rw [get_item_ok q4 (by rw [q5]; exact hin), (q6 i j k hin).2]; rfl

/-- C30: both modes write the same output. -/
theorem C30_modes_agree [MaxZero F] (b : Build) (l l' : ConvolutionalLayer F) (x out : Tensor F)
    (hl : l.Ok) (hl' : l'.Ok) (hm : l.run_state = .Inference) (hm' : l'.run_state = .Training)
    (hp : params (.conv l') = params (.conv l))
    (hx : x.WF) (hxs : x.shape = l.input_shape)
    (ho : out.WF) (hos : out.shape = l.output_shape) :
    ∃ y l'', l.forward b x out = .ok (.ok (), l, y) ∧
      l'.forward b x out = .ok (.ok (), l'', y) := by
  simp only [params, AnyLayer.conv.injEq, ConvolutionalLayer.mk.injEq, true_and] at hp
  obtain ⟨p1, p2, p3, p4, p5, p6⟩ := hp
  obtain ⟨y, q1, q2, q3, q4⟩ := conv_forward_inference (b := b) hl hm hx hxs ho hos
  obtain ⟨m, y', r1, r2, r3, r4, r5, r6⟩ := conv_forward_training (b := b) hl' hm' hx
    (by rw [hxs, p4]) ho (by rw [hos, p5])
  refine ⟨y, { l' with relu_mask := m }, q1, ?_⟩
  rw [r1, tensor_ext r2 q2 (by rw [r3, q3, p5]) (fun i j k hin => ?_)]
  rw [r3, p5] at hin
  rw [(r6 i j k (by rw [p5]; exact hin)).1, q4 i j k hin,
    MaxZero.fmax_zero _ (summed_convPre l x i j k)]
  unfold convPre relu
  rw [p1, p2, p3]

/-- a convolutional layer with two 2x2x1 kernels on a 3x3x1 image -/
def exConv : ConvolutionalLayer Int :=
  { kernels := [exKer, { exKer with data := [0, 0, 0, -1] }]
    biases := [exBias, { exBias with data := [6] }]
    kernel_gradients := [{ exKer with data := [0, 0, 0, 0] }, { exKer with data := [0, 0, 0, 0] }]
    bias_gradients := [{ exBias with data := [0] }, { exBias with data := [0] }]
    stride := 1
    relu_mask := ⟨⟨1, 2, 4⟩, ⟨2, 2, 2⟩, [0, 0, 0, 0, 0, 0, 0, 0]⟩
    input_shape := ⟨3, 3, 1⟩
    output_shape := ⟨2, 2, 2⟩
    name := "c"
    run_state := .Training }

theorem exConv_ok : exConv.Ok := by
  have hk : ∀ d : List Int, d.length = 4 → (⟨⟨1, 2, 4⟩, ⟨2, 2, 1⟩, d⟩ : Tensor Int).WF :=
    fun d h => ⟨(by decide : (⟨2, 2, 1⟩ : TensorShape).Fits), rfl, rfl, rfl, h⟩
  have hb : ∀ d : List Int, d.length = 1 → (⟨⟨1, 1, 1⟩, ⟨1, 1, 1⟩, d⟩ : Tensor Int).WF :=
    fun d h => ⟨(by decide : (⟨1, 1, 1⟩ : TensorShape).Fits), rfl, rfl, rfl, h⟩
  refine ⟨by decide, by decide, by decide, rfl, ?_, rfl, ?_, fun _ => ⟨⟨rfl, ?_⟩, ⟨rfl, ?_⟩,
    ⟨by decide, rfl, rfl, rfl, rfl⟩, rfl⟩⟩
  · intro k h
    simp only [exConv, List.mem_cons, List.not_mem_nil, or_false] at h
    rcases h with rfl | rfl
    · exact ⟨hk _ rfl, rfl, (by decide : windowsTile ⟨3, 3, 1⟩ ⟨2, 2, 1⟩ 1 ⟨2, 2, 2⟩)⟩
    · exact ⟨hk _ rfl, rfl, (by decide : windowsTile ⟨3, 3, 1⟩ ⟨2, 2, 1⟩ 1 ⟨2, 2, 2⟩)⟩
  · intro k h
    simp only [exConv, List.mem_cons, List.not_mem_nil, or_false] at h
    rcases h with rfl | rfl
    · exact ⟨hb _ rfl, rfl⟩
    · exact ⟨hb _ rfl, rfl⟩
  · intro i h h'
    match i, h with
    | 0, _ => exact ⟨hk _ rfl, rfl⟩
    | 1, _ => exact ⟨hk _ rfl, rfl⟩
  · intro k h
    simp only [exConv, List.mem_cons, List.not_mem_nil, or_false] at h
    rcases h with rfl | rfl
    · exact ⟨hb _ rfl, rfl⟩
    · exact ⟨hb _ rfl, rfl⟩

open Toy in
example : ∃ l' y, exConv.forward .debug exImg (zeros ⟨2, 2, 2⟩) = .ok (.ok (), l', y) ∧
    y.data = [0, 0, 0, 0, 1, 0, 0, 0] ∧ l'.relu_mask.data = [0, 0, 0, 0, 1, 0, 0, 0] ∧
    convPre exConv exImg 1 0 0 = -5461 := ⟨_, _, rfl, rfl, rfl, rfl⟩

open Toy in
example : ∃ y, ({ exConv with run_state := .Inference }).forward .debug exImg (zeros ⟨2, 2, 2⟩) =
    .ok (.ok (), { exConv with run_state := .Inference }, y) ∧
    y.data = [0, 0, 0, 0, 1, 0, 0, 0] := ⟨_, rfl, rfl⟩

/-! ## C31 -/

/-- What `backward` of a convolutional layer in training mode computes whenever the outgoing
gradient routine returns: the outgoing gradient is the one of the **raw** incoming gradient `g`, the
stored kernel gradients are overwritten by sums over **all** channels of the raw `g`, the bias
gradients stay as they are, and the relu mask influences nothing but itself.

Partial: C31 asks for the gradients of `g` masked by the relu mask, channel by channel, and for bias
gradients. -/
theorem C31_computes_partial (b : Build) (l : ConvolutionalLayer F) (x y g og : Tensor F) (hl : l.Ok)
    (hm : l.run_state = .Training) (hx : x.WF) (hxs : x.shape = l.input_shape) (hg : g.WF)
    (hgs : g.shape = l.output_shape) (og' : Tensor F)
    (ho : convolution_backprop_outgoing_gradient b g l.kernels l.stride og = .ok (.ok (), og')) :
    ∃ l', l.backward b x y g og = .ok (.ok (), l', og') ∧ l'.bias_gradients = l.bias_gradients ∧
      l'.kernel_gradients.length = l.kernels.length ∧
      ∀ c (h : c < l'.kernel_gradients.length) (h' : c < l.kernels.length),
        ∀ i j k, l.kernels[c].shape.Inside i j k → l'.kernel_gradients[c].get_item b (ix i j k) =
          .ok (sum ((idx3 g.shape.di.toNat g.shape.dj.toNat g.shape.dk.toNat).map
            fun (a, d, e) =>
              mul (val x (i + a * l.stride.toNat) (j + d * l.stride.toNat) k) (val g a d e))) := by
  obtain ⟨kg, q1, q2, q3⟩ := conv_backward_char (b := b) (y := y) hl hm hx hxs hg hgs _ ho
  refine ⟨_, q1, rfl, q2, fun c h h' i j k hin => ?_⟩
  obtain ⟨w1, w2, w3⟩ := q3 c h h'
  rw [get_item_ok w1 (by rw [w2]; exact hin), w3 i j k hin]

/-- C31 where the code is right: one output channel, stride 1, a kernel exactly as large as the
output, and no pre-activation cut off by the relu.  Then the outgoing gradient and the kernel
gradient are those of the masked gradient `m`.

Partial: only for these layers and inputs, and without the bias gradient. -/
theorem C31_backward_partial (b : Build) (l : ConvolutionalLayer F) (x y g og m : Tensor F)
    (hl : l.Ok) (hm : l.run_state = .Training) (hx : x.WF) (hxs : x.shape = l.input_shape)
    (hg : g.WF) (hgs : g.shape = l.output_shape) (ho : og.WF) (hos : og.shape = l.input_shape)
    (hw : m.WF) (hms : m.shape = l.output_shape)
    (hmv : ∀ i j k, l.output_shape.Inside i j k →
      val m i j k = if gt (convPre l x i j k) zero then val g i j k else zero)
    (hpos : ∀ i j k, l.output_shape.Inside i j k → gt (convPre l x i j k) zero)
    (hc : l.output_shape.dk = 1) (hs : l.stride = 1)
    (hk : ∀ k ∈ l.kernels, k.shape.di = l.output_shape.di ∧ k.shape.dj = l.output_shape.dj)
    (hdi : l.input_shape.di.toNat ≤ 2 ^ 31) (hdj : l.input_shape.dj.toNat ≤ 2 ^ 31) :
    ∃ l' og', l.backward b x y g og = .ok (.ok (), l', og') ∧
      (∀ i j k, l.input_shape.Inside i j k →
        og'.get_item b (ix i j k) = .ok (Spec.outgoing m l.kernels l.stride.toNat i j k)) ∧
      ∀ c (h : c < l'.kernel_gradients.length) (h' : c < l.kernels.length),
        ∀ i j k, l.kernels[c].shape.Inside i j k → l'.kernel_gradients[c].get_item b (ix i j k) =
          .ok (Spec.kernelGrad m x l.stride.toNat c i j k) := by
  have hmg : m = g := tensor_ext hw hg (by rw [hms, hgs]) fun i j k hin => by
    rw [hms] at hin
    rw [hmv i j k hin, if_pos (hpos i j k hin)]
  subst hmg
  have hK : KernelsOk og.shape m.shape 1 l.kernels := by
    refine ⟨by rw [hms]; exact hl.count, fun k h => (hl.kernels _ (List.getElem_mem h)).1,
      fun k h => ?_⟩
    obtain ⟨k1, k2, k3⟩ := hl.kernels _ (List.getElem_mem h)
    rw [hos, hms]
    exact ⟨k2.symm, hs ▸ k3, by rw [← hl.count]; exact h⟩
  obtain ⟨og', q1, q2, q3, q4⟩ := C19_adjoint_partial b m og l.kernels hg ho hK
    (by rw [hos]; exact hdi) (by rw [hos]; exact hdj) (fun k h => by
      rw [hms]; exact hk _ (List.getElem_mem h))
  obtain ⟨l', r1, _, r3, r4⟩ := C31_computes_partial b l x y m og hl hm hx hxs hg hgs og'
    (by rw [hs]; exact q1)
  refine ⟨l', og', r1, fun i j k hin => ?_, fun c h h' i j k hin => ?_⟩
  · rw [q4 i j k (by rw [hos]; exact hin), hs]
    rfl
  · rw [r4 c h h' i j k hin, hms, hc]
    have : c = 0 := by
      have := hl.count
      rw [hc] at this
      have e : (1 : UInt32).toNat = 1 := rfl
      omega
    subst this
    unfold Spec.kernelGrad idx3
    rw [hms]
    have e : (1 : UInt32).toNat = 1 := rfl
    rw [e]
    unfold idx2
    simp only [List.range_one, List.flatMap_cons, List.flatMap_nil, List.append_nil,
      List.map_flatMap, List.map_map]
    rfl

/-- a layer with a 1x1x1 kernel `w`, bias `c` on a 1x1x1 image -/
def exConv1 (w c : Int) : ConvolutionalLayer Int :=
  { kernels := [{ exBias with data := [w] }]
    biases := [{ exBias with data := [c] }]
    kernel_gradients := [{ exBias with data := [0] }]
    bias_gradients := [{ exBias with data := [0] }]
    stride := 1
    relu_mask := { exBias with data := [0] }
    input_shape := ⟨1, 1, 1⟩
    output_shape := ⟨1, 1, 1⟩
    name := "c"
    run_state := .Training }

theorem exConv1_ok (w c : Int) : (exConv1 w c).Ok := by
  have hb : ∀ d : List Int, d.length = 1 → (⟨⟨1, 1, 1⟩, ⟨1, 1, 1⟩, d⟩ : Tensor Int).WF :=
    fun d h => ⟨(by decide : (⟨1, 1, 1⟩ : TensorShape).Fits), rfl, rfl, rfl, h⟩
  refine ⟨(by decide : (1 : UInt32) ≠ 0), (by decide : (⟨1, 1, 1⟩ : TensorShape).Fits),
    (by decide : (⟨1, 1, 1⟩ : TensorShape).Fits), rfl, ?_, rfl, ?_, fun _ => ⟨⟨rfl, ?_⟩, ⟨rfl, ?_⟩,
    hb _ rfl, rfl⟩⟩
  · intro k h
    rw [List.mem_singleton.mp h]
    exact ⟨hb _ rfl, rfl, (by decide : windowsTile ⟨1, 1, 1⟩ ⟨1, 1, 1⟩ 1 ⟨1, 1, 1⟩)⟩
  · intro k h
    rw [List.mem_singleton.mp h]
    exact ⟨hb _ rfl, rfl⟩
  · intro i h h'
    match i, h with
    | 0, _ => exact ⟨hb _ rfl, rfl⟩
  · intro k h
    rw [List.mem_singleton.mp h]
    exact ⟨hb _ rfl, rfl⟩

open Toy in
/-- C31 is false of the code: the relu mask is ignored.  The pre-activation is `-2 * 3 < 0`, so the
output is constantly 0 around the input, but the outgoing gradient is -10 and the kernel gradient
15 instead of 0. -/
theorem C31_mask_negation (b : Build) :
    ∃ (l l1 l2 : ConvolutionalLayer Int) (x y g og og' : Tensor Int), l.Ok ∧
      l.run_state = .Training ∧ l.forward b x (zeros l.output_shape) = .ok (.ok (), l1, y) ∧
      l1.backward b x y g og = .ok (.ok (), l2, og') ∧
      (y.data = [0] ∧ l1.relu_mask.data = [0] ∧ g.data = [5]) ∧ og'.data = [-10] ∧
      l2.kernel_gradients.map (·.data) = [[15]] := by
  cases b <;> exact ⟨exConv1 (-2) 0, _, _, { exBias with data := [3] }, _, { exBias with data := [5] },
    { exBias with data := [0] }, _, exConv1_ok _ _, rfl, rfl, rfl, ⟨rfl, rfl, rfl⟩, rfl, rfl⟩

open Toy in
/-- C31 is false of the code: bias gradients are never updated.  The pre-activation `2 * 3 + 1` is
positive, so the derivative with respect to the bias is the incoming 5; it stays 0. -/
theorem C31_bias_negation (b : Build) :
    ∃ (l l1 l2 : ConvolutionalLayer Int) (x y g og og' : Tensor Int), l.Ok ∧
      l.run_state = .Training ∧ l.forward b x (zeros l.output_shape) = .ok (.ok (), l1, y) ∧
      l1.backward b x y g og = .ok (.ok (), l2, og') ∧
      (y.data = [7] ∧ l1.relu_mask.data = [1] ∧ g.data = [5]) ∧
      l2.bias_gradients.map (·.data) = [[0]] := by
  cases b <;> exact ⟨exConv1 2 1, _, _, { exBias with data := [3] }, _, { exBias with data := [5] },
    { exBias with data := [0] }, _, exConv1_ok _ _, rfl, rfl, rfl, ⟨rfl, rfl, rfl⟩, rfl⟩

open Toy in
/-- C31 is false of the code: unlike those of the fully connected layer, kernel gradients do not
accumulate over rounds, the second round overwrites the first. -/
theorem C31_accumulate_negation (b : Build) :
    ∃ (l l1 l2 l3 l4 : ConvolutionalLayer Int) (x y y' g og og' og'' : Tensor Int), l.Ok ∧
      l.forward b x (zeros l.output_shape) = .ok (.ok (), l1, y) ∧
      l1.backward b x y g og = .ok (.ok (), l2, og') ∧
      l2.forward b x (zeros l.output_shape) = .ok (.ok (), l3, y') ∧
      l3.backward b x y g og = .ok (.ok (), l4, og'') ∧
      l2.kernel_gradients.map (·.data) = [[15]] ∧ l4.kernel_gradients.map (·.data) = [[15]] := by
  cases b <;> exact ⟨exConv1 2 1, _, _, _, _, { exBias with data := [3] }, _, _, { exBias with data := [5] },
    { exBias with data := [0] }, _, _, exConv1_ok _ _, rfl, rfl, rfl, rfl, rfl, rfl⟩

open Toy in
example : ∃ l' og', (exConv1 2 1).backward .debug { exBias with data := [3] }
      { exBias with data := [7] } { exBias with data := [5] } { exBias with data := [0] } =
        .ok (.ok (), l', og') ∧ og'.data = [10] ∧
      gt (convPre (exConv1 2 1) { exBias with data := [3] } 0 0 0) 0 = true :=
  ⟨_, _, rfl, rfl, rfl⟩

end Rusty
