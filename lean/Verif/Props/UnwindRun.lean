import Verif.Lemmas.UnwindNet
import Verif.Props.Network
import Verif.Props.Unwind
import Verif.Props.Serialization

/-! # C94: what a panic inside a calculation leaves behind -/

namespace Rusty

open F32Ops Unwind Spec

variable {F : Type} [F32Ops F]

/-- C94, the two models agree: the statement by statement model has the results of the plain one, for calls that
return and for calls that panic. -/
theorem C94_agrees (b : Build) (n : Net F) (l : AnyLayer F) (x y g o : Tensor F) :
    forget (Network.infer_u b x) n = n.infer b x ∧
    forget (Network.backward_u b g) n = n.backward b g ∧
    forget (AnyLayer.forward_u b x) (l, o) = l.forward b x o ∧
    forget (AnyLayer.backward_u b x y g) (l, o) = l.backward b x y g o :=
  ⟨infer_agrees b x n, net_backward_agrees b g n, forward_agrees b x l o, backward_agrees b x y g l o⟩

/-- C94 for layers: however a `forward` or `backward` ends, the layer keeps its parameters and its mode, what
it writes to a file is the same, and the output tensor keeps its shape, strides and number of elements. -/
theorem C94_layer [F32Bits F] (b : Build) (l : AnyLayer F) (x y g o : Tensor F) :
    (params (AnyLayer.forward_u b x (l, o)).2.1 = params l ∧
      (AnyLayer.forward_u b x (l, o)).2.1.get_run_mode = l.get_run_mode ∧
      (AnyLayer.forward_u b x (l, o)).2.1.get_serialized = l.get_serialized ∧
      (AnyLayer.forward_u b x (l, o)).2.2.shape = o.shape ∧
      (AnyLayer.forward_u b x (l, o)).2.2.strides = o.strides ∧
      (AnyLayer.forward_u b x (l, o)).2.2.data.length = o.data.length) ∧
    (params (AnyLayer.backward_u b x y g (l, o)).2.1 = params l ∧
      (AnyLayer.backward_u b x y g (l, o)).2.1.get_run_mode = l.get_run_mode ∧
      (AnyLayer.backward_u b x y g (l, o)).2.1.get_serialized = l.get_serialized ∧
      (AnyLayer.backward_u b x y g (l, o)).2.2.shape = o.shape ∧
      (AnyLayer.backward_u b x y g (l, o)).2.2.strides = o.strides ∧
      (AnyLayer.backward_u b x y g (l, o)).2.2.data.length = o.data.length) := by
  obtain ⟨h1, h2, h3, h4⟩ := forward_keeps b x l o
  obtain ⟨k1, k2, k3, k4⟩ := backward_keeps b x y g l o
  exact ⟨⟨like_params h1, like_mode h1, serialized_params (like_params h1), h2, h3, h4⟩,
    like_params k1, like_mode k1, serialized_params (like_params k1), k2, k3, k4⟩

/-- C94 for networks, `infer`: however the call ends, every layer keeps its parameters and its mode, the network
keeps its shapes, its mode and the gradients, and what it would save is the same. -/
theorem C94_infer [F32Bits F] (b : Build) (n : Net F) (x : Tensor F) :
    (Network.infer_u b x n).2.get_layers.map params = n.get_layers.map params ∧
    (Network.infer_u b x n).2.get_layers.map AnyLayer.get_run_mode = n.get_layers.map AnyLayer.get_run_mode ∧
    (Network.infer_u b x n).2.get_input_shape = n.get_input_shape ∧
    (Network.infer_u b x n).2.get_output_shape = n.get_output_shape ∧
    (Network.infer_u b x n).2.get_run_state = n.get_run_state ∧
    (Network.infer_u b x n).2.intermediate_gradients = n.intermediate_gradients ∧
    SerializedNetwork.new_from_network (Network.infer_u b x n).2 = SerializedNetwork.new_from_network n := by
  obtain ⟨h1, _, h3, h4, h5, h6⟩ := infer_keeps b x n
  exact ⟨like_map_params h1, like_map_mode h1, h4, h5, h6, h3, congrArg SerializedNetwork.mk (forall₂_map_eq h1 _ _
    fun _ _ h => serialized_params (like_params h))⟩

/-- C94 for networks, `backward`: however the call ends, every layer keeps its parameters and its mode, the network
keeps its shapes, its mode, its states and so its output, and what it would save is the same. -/
theorem C94_backward [F32Bits F] (b : Build) (n : Net F) (g : Tensor F) :
    (Network.backward_u b g n).2.get_layers.map params = n.get_layers.map params ∧
    (Network.backward_u b g n).2.get_layers.map AnyLayer.get_run_mode = n.get_layers.map AnyLayer.get_run_mode ∧
    (Network.backward_u b g n).2.get_input_shape = n.get_input_shape ∧
    (Network.backward_u b g n).2.get_output_shape = n.get_output_shape ∧
    (Network.backward_u b g n).2.get_run_state = n.get_run_state ∧
    (Network.backward_u b g n).2.get_output = n.get_output ∧
    (Network.backward_u b g n).2.intermediate_states = n.intermediate_states ∧
    SerializedNetwork.new_from_network (Network.backward_u b g n).2 = SerializedNetwork.new_from_network n := by
  obtain ⟨h1, _, h3, h4, h5, h6⟩ := net_backward_keeps b g n
  exact ⟨like_map_params h1, like_map_mode h1, h4, h5, h6, get_output_congr h3, h3, congrArg SerializedNetwork.mk
    (forall₂_map_eq h1 _ _ fun _ _ h => serialized_params (like_params h))⟩

/-- C94, recovery: after a `backward` that ended in any way, switching the mode gives exactly the network that
switching without that call gives. -/
theorem C94_recover (b : Build) (n : Net F) (g : Tensor F) :
    (Network.backward_u b g n).2.switch_to_training b = n.switch_to_training b ∧
    (Network.backward_u b g n).2.switch_to_inference b = n.switch_to_inference b := by
  obtain ⟨h1, _, h3, h4, h5, h6⟩ := net_backward_keeps b g n
  have m1 : ∀ {ls ls' : List (AnyLayer F)}, List.Forall₂ Like ls' ls →
      ls'.mapM (AnyLayer.switch_to_training b) = ls.mapM (AnyLayer.switch_to_training b) ∧
      ls'.mapM (AnyLayer.switch_to_inference b) = ls.mapM (AnyLayer.switch_to_inference b) := by
    intro ls ls' h
    induction h with
    | nil => exact ⟨rfl, rfl⟩
    | cons h _ ih =>
      obtain ⟨e1, e2⟩ := switch_of_params b (like_params h)
      simp only [List.mapM_cons, e1, e2, ih.1, ih.2]
      exact ⟨trivial, trivial⟩
  obtain ⟨e1, e2⟩ := m1 h1
  have e1 : (Network.backward_u b g n).2.layers.mapM (LayerOps.switch_to_training b) =
    n.layers.mapM (LayerOps.switch_to_training b) := e1
  have e2 : (Network.backward_u b g n).2.layers.mapM (LayerOps.switch_to_inference b) =
    n.layers.mapM (LayerOps.switch_to_inference b) := e2
  unfold Network.switch_to_training Network.switch_to_inference
  rw [e1, e2, h3, h4, h5]
  exact ⟨rfl, rfl⟩

/-! ## Histories -/

/-- C94, histories with panics: whatever calls of `infer`, `backward` and mode switches preceded, with any arguments
and however they ended, a well formed input of the input shape gives the same states and output as on the network
without those calls. -/
theorem C94_history [MaxZero F] (b : Build) (n n' : Net F) (hn : Built b n) (h : AttemptsMany b n n')
    (hne : n.get_layers ≠ []) (x : Tensor F) (hx : x.WF) (hxs : x.shape = n.get_input_shape) :
    ∃ m m', n.infer b x = .ok (.ok (), m) ∧ n'.infer b x = .ok (.ok (), m') ∧
      m'.intermediate_states = m.intermediate_states ∧ m'.get_output = m.get_output := by
  have hok := built_netOk hn
  obtain ⟨k1, k2, _⟩ := attemptsMany_ok hok h
  obtain ⟨m1, m2, a1, a2, a3⟩ := infer_same (b := b) hok k1 k2.symm
    (fun i l l' e1 e2 s a c d => by
      obtain ⟨l0, e3, e4⟩ := map_get k2.symm e1
      rw [e2] at e3; cases e3
      exact layerAt_mode e4 s a c d) hne hx hxs
  exact ⟨m1, m2, a1, a2, a3.symm, (get_output_congr a3).symm⟩

/-- C94, calls that return: a history without panics is one of these. -/
theorem C94_returns (b : Build) (n n' : Net F) (h : Uses b n n') : Attempts b n n' := by
  cases h with
  | infer x r _ h =>
    rw [← infer_agrees, forget_ok] at h
    rw [show n' = (Network.infer_u b x n).2 by rw [h]]
    exact .infer n x
  | backward g r _ h =>
    rw [← net_backward_agrees, forget_ok] at h
    rw [show n' = (Network.backward_u b g n).2 by rw [h]]
    exact .backward n g
  | switch_to_training _ h =>
    have e := Network.training_u b n
    rw [h, ok_bind, forget_ok] at e
    rw [show n' = (Network.switch_to_training_u b n).2 by rw [e]]
    exact .switch_to_training n
  | switch_to_inference _ h =>
    have e := Network.inference_u b n
    rw [h, ok_bind, forget_ok] at e
    rw [show n' = (Network.switch_to_inference_u b n).2 by rw [e]]
    exact .switch_to_inference n

/-- C94, training goes on: after any sequence of calls of `infer`, and of `backward` with well formed gradients, that
ended in any way, a network in training mode without convolutional layers does the next `infer` and `backward` as
before: they return, with `Ok` if every layer can propagate backwards. -/
theorem C94_training (b : Build) (n n' : Net F) (hn : Trains b n) (hne : n.get_layers ≠ [])
    (h : TrainingAttempts b n n') (hc : ∀ l ∈ n.get_layers, notConv l) (x g : Tensor F) (hx : x.WF)
    (hxs : x.shape = n.get_input_shape) (hg : g.WF) (hgs : g.shape = n.get_output_shape) :
    ∃ n1 r n2, n'.infer b x = .ok (.ok (), n1) ∧ n1.backward b g = .ok (r, n2) ∧
      ((∀ l ∈ n.get_layers, backable l) → r = .ok ()) := by
  obtain ⟨hok, ht⟩ := trains_ready hn
  obtain ⟨k1, k2, k3, k4, k5⟩ : NetOk n' ∧ TrainReady n' ∧ n'.layers.map params = n.layers.map params ∧
      n'.input_shape = n.input_shape ∧ n'.output_shape = n.output_shape := by
    clear hne hc hxs hgs hn
    induction h with
    | none => exact ⟨hok, ht, rfl, rfl, rfl⟩
    | infer n1 y _ ih =>
      obtain ⟨i1, i2, i3, i4, i5⟩ := ih
      have e := infer_keeps b y n1
      exact ⟨infer_u_netOk i1 b y, infer_ready_of i1 i2 e, (like_map_params e.1).trans i3, e.2.2.2.1.trans i4,
        e.2.2.2.2.1.trans i5⟩
    | backward n1 y _ hy ih =>
      obtain ⟨i1, i2, i3, i4, i5⟩ := ih
      have e := net_backward_keeps b y n1
      exact ⟨backward_u_netOk i1 b y, backward_ready_of i1 i2 hy e, (like_map_params e.1).trans i3,
        e.2.2.2.1.trans i4, e.2.2.2.2.1.trans i5⟩
  have back : ∀ l ∈ n'.layers, ∃ l0 ∈ n.layers, params l = params l0 := by
    intro l hl
    have : params l ∈ n.layers.map params := by rw [← k3]; exact List.mem_map_of_mem hl
    obtain ⟨l0, h1, h2⟩ := List.mem_map.mp this
    exact ⟨l0, h1, h2.symm⟩
  obtain ⟨n1, r, n2, j1, j2, j3⟩ := infer_backward_ok (b := b) k1 k2
    (fun e => hne (by rw [e, List.map_nil, eq_comm, List.map_eq_nil_iff] at k3; exact k3))
    (by
      intro l hlm
      obtain ⟨l0, a1, a2⟩ := back l hlm
      have := hc l0 a1
      cases l0 <;> cases l <;> first | cases a2 | exact this) hx (hxs.trans k4.symm) hg (hgs.trans k5.symm)
  refine ⟨n1, r, n2, j1, j2, fun hb => j3 fun l hlm => ?_⟩
  obtain ⟨l0, a1, a2⟩ := back l hlm
  exact params_backable a2 (hb l0 a1)

open Toy in
/-- an `infer` of a tensor without its last element panics; training goes on after it -/
example : (Network.infer_u .debug ⟨⟨1, 2, 2⟩, ⟨2, 1, 1⟩, [1]⟩ exNet).1 = .error .oob ∧
    ∃ n1 n2, (Network.infer_u .debug ⟨⟨1, 2, 2⟩, ⟨2, 1, 1⟩, [1]⟩ exNet).2.infer .debug
      ⟨⟨1, 2, 2⟩, ⟨2, 1, 1⟩, [1, 2]⟩ = .ok (.ok (), n1) ∧
      n1.backward .debug ⟨⟨1, 3, 3⟩, ⟨3, 1, 1⟩, [1, 1, 1]⟩ = .ok (.ok (), n2) := by
  refine ⟨rfl, ?_⟩
  obtain ⟨n1, r, n2, h1, h2, h3⟩ := C94_training .debug exNet _ (exNet_trains _) (by decide)
    (.infer _ _ ⟨⟨1, 2, 2⟩, ⟨2, 1, 1⟩, [1]⟩ (.none _))
    (fun l hl => by rw [List.mem_singleton.mp hl]; exact trivial) ⟨⟨1, 2, 2⟩, ⟨2, 1, 1⟩, [1, 2]⟩
    ⟨⟨1, 3, 3⟩, ⟨3, 1, 1⟩, [1, 1, 1]⟩ ⟨(by decide : (⟨2, 1, 1⟩ : TensorShape).Fits), rfl, rfl, rfl, rfl⟩ rfl
    ⟨(by decide : (⟨3, 1, 1⟩ : TensorShape).Fits), rfl, rfl, rfl, rfl⟩ rfl
  refine ⟨n1, n2, h1, ?_⟩
  rw [h2, h3 fun l hl => by rw [List.mem_singleton.mp hl]; exact trivial]

namespace UnwindRun

/-- a convolutional layer with one kernel as large as the image -/
def exLayer : ConvolutionalLayer Int :=
  { kernels := [⟨⟨1, 2, 4⟩, ⟨2, 2, 1⟩, [1, 1, 1, 1]⟩]
    biases := [⟨⟨1, 1, 1⟩, ⟨1, 1, 1⟩, [0]⟩]
    kernel_gradients := []
    bias_gradients := []
    stride := 1
    relu_mask := ⟨⟨0, 0, 0⟩, ⟨0, 0, 0⟩, []⟩
    input_shape := ⟨2, 2, 1⟩
    output_shape := ⟨1, 1, 1⟩
    name := "c"
    run_state := .Inference }

def exInput : Tensor Int := ⟨⟨1, 2, 4⟩, ⟨2, 2, 1⟩, [1, 2, 3, 4]⟩

open Toy in
theorem exLayer_ok : (AnyLayer.conv exLayer).Ok := by
  refine ⟨by decide, by decide, by decide, rfl, ?_, rfl, ?_, fun h => by cases h⟩
  · intro k h
    simp only [exLayer, List.mem_cons, List.not_mem_nil, or_false] at h
    subst h
    exact ⟨⟨(by decide : (⟨2, 2, 1⟩ : TensorShape).Fits), rfl, rfl, rfl, rfl⟩, rfl,
      (by decide : windowsTile ⟨2, 2, 1⟩ ⟨2, 2, 1⟩ 1 ⟨1, 1, 1⟩)⟩
  · intro k h
    simp only [exLayer, List.mem_cons, List.not_mem_nil, or_false] at h
    subst h
    exact ⟨⟨(by decide : (⟨1, 1, 1⟩ : TensorShape).Fits), rfl, rfl, rfl, rfl⟩, rfl⟩

/-- the network of that layer, in training mode -/
def exNet : Net Int :=
  { layers := [.conv { exLayer with
      run_state := .Training
      kernel_gradients := [⟨⟨1, 2, 4⟩, ⟨2, 2, 1⟩, [0, 0, 0, 0]⟩]
      bias_gradients := [⟨⟨1, 1, 1⟩, ⟨1, 1, 1⟩, [0]⟩]
      relu_mask := ⟨⟨1, 1, 1⟩, ⟨1, 1, 1⟩, [0]⟩ }]
    intermediate_states := [⟨⟨1, 2, 4⟩, ⟨2, 2, 1⟩, [0, 0, 0, 0]⟩, ⟨⟨1, 1, 1⟩, ⟨1, 1, 1⟩, [0]⟩]
    intermediate_gradients := [⟨⟨1, 2, 4⟩, ⟨2, 2, 1⟩, [0, 0, 0, 0]⟩, ⟨⟨1, 1, 1⟩, ⟨1, 1, 1⟩, [0]⟩]
    input_shape := ⟨2, 2, 1⟩
    output_shape := ⟨1, 1, 1⟩
    run_state := .Training }

/-- the same after `infer` -/
def exNet1 : Net Int :=
  { exNet with
    layers := [.conv { exLayer with
      run_state := .Training
      kernel_gradients := [⟨⟨1, 2, 4⟩, ⟨2, 2, 1⟩, [0, 0, 0, 0]⟩]
      bias_gradients := [⟨⟨1, 1, 1⟩, ⟨1, 1, 1⟩, [0]⟩]
      relu_mask := ⟨⟨1, 1, 1⟩, ⟨1, 1, 1⟩, [1]⟩ }]
    intermediate_states := [exInput, ⟨⟨1, 1, 1⟩, ⟨1, 1, 1⟩, [10]⟩] }

open Toy in
/-- the panic of the convolutional `backward` in a network: the gradients of the kernel are already there -/
example : (Network.new .Training).add_layer .debug (.conv exLayer) = .ok (.ok (), exNet) ∧
    Built .debug exNet ∧ Network.infer_u .debug exInput exNet = (.ok (.ok ()), exNet1) ∧
    (Network.backward_u .debug ⟨⟨1, 1, 1⟩, ⟨1, 1, 1⟩, [1]⟩ exNet1).1 = .error .oob ∧
    (Network.backward_u .debug ⟨⟨1, 1, 1⟩, ⟨1, 1, 1⟩, [1]⟩ exNet1).2.layers = [.conv { exLayer with
      run_state := .Training
      kernel_gradients := [⟨⟨1, 2, 4⟩, ⟨2, 2, 1⟩, [1, 2, 3, 4]⟩]
      bias_gradients := [⟨⟨1, 1, 1⟩, ⟨1, 1, 1⟩, [0]⟩]
      relu_mask := ⟨⟨1, 1, 1⟩, ⟨1, 1, 1⟩, [1]⟩ }] := by
  have h : (Network.new .Training).add_layer .debug (.conv exLayer) = .ok (.ok (), exNet) := rfl
  exact ⟨h, .add_layer _ _ _ _ (.new _) exLayer_ok h, rfl, rfl, rfl⟩

open Toy in
/-- a history with a panic: the network still predicts -/
example : ∃ n' m, AttemptsMany .debug exNet n' ∧ n'.infer .debug exInput = .ok (.ok (), m) ∧
    m.get_output = .ok ⟨⟨1, 1, 1⟩, ⟨1, 1, 1⟩, [10]⟩ := by
  have h : (Network.new .Training).add_layer .debug (.conv exLayer) = .ok (.ok (), exNet) := rfl
  have := toyMaxZero
  obtain ⟨m, m', e1, e2, _, e3⟩ := C94_history .debug exNet _ (.add_layer _ _ _ _ (.new _) exLayer_ok h)
    (.more _ _ _ (.more _ _ _ (.none _) (.infer _ exInput)) (.backward _ ⟨⟨1, 1, 1⟩, ⟨1, 1, 1⟩, [1]⟩))
    (by decide) exInput ⟨(by decide : (⟨2, 2, 1⟩ : TensorShape).Fits), rfl, rfl, rfl, rfl⟩ rfl
  refine ⟨_, m', .more _ _ _ (.more _ _ _ (.none _) (.infer _ exInput)) (.backward _ _), e2, e3.trans ?_⟩
  have e : exNet.infer .debug exInput = .ok (.ok (), exNet1) := rfl
  rw [e] at e1
  cases e1
  rfl

end UnwindRun

end Rusty
