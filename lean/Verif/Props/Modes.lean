import Verif.Spec.Toy
import Verif.Lemmas.Switch
import Verif.Props.ConvLayer
import Verif.Props.FullyConnected

/-! # C32, C33, C51: run modes and parameters of layers -/

namespace Rusty

open F32Ops Spec

variable {F : Type} [F32Ops F]

/-! ## C32 -/

/-- C32 for fully connected and softmax layers: in inference mode `backward` returns `Err` and
changes neither the layer nor the outgoing gradient, whatever the arguments.

Partial: false for the other two layer types, see the negations below. -/
theorem C32_refused_partial (b : Build) (l : AnyLayer F) (x y g og : Tensor F)
    (ht : (∃ l', l = .fc l') ∨ ∃ l', l = .sm l') (hm : l.get_run_mode = .Inference) :
    ∃ e, l.backward b x y g og = .ok (.error e, l, og) := by
  rcases ht with ⟨l', rfl⟩ | ⟨l', rfl⟩
  · simp only [AnyLayer.get_run_mode] at hm
    refine ⟨"Can only do backprop in training mode", ?_⟩
    simp only [AnyLayer.backward, AnyLayer.rewrap, FullyConnectedLayer.backward, hm]
    rfl
  · simp only [AnyLayer.get_run_mode] at hm
    refine ⟨"Can only do backprop in training mode", ?_⟩
    simp only [AnyLayer.backward, AnyLayer.rewrap, SoftmaxLayer.backward, hm]
    rfl

/-- C32 is false for max-pool layers: every max-pool layer put in inference mode answers every
`backward` with a well formed gradient by `Ok` and a zero gradient. -/
theorem C32_max_pool_negation (b : Build) (l l' : MaxPoolLayer) (x y g og : Tensor F) (hg : g.WF)
    (ho : og.WF) (hl : l.switch_to_inference b = .ok l') :
    l'.run_state = .Inference ∧
      l'.backward b x y g og = .ok (.ok (), l', og.fill_with_value zero) := by
  cases hl
  refine ⟨rfl, ?_⟩
  have e : (og.fill_with_value zero).shape = og.shape := rfl
  simp only [MaxPoolLayer.backward, Tensor.add_from_index_list, total_size_ok hg.fits, ok_bind, e,
    total_size_ok ho.fits]
  rfl

/-- C32 is false for convolutional layers: every convolutional layer with at least one kernel that
is put in inference mode panics in `backward`, whatever the arguments. -/
theorem C32_convolutional_negation (b : Build) (l l' : ConvolutionalLayer F) (x y g og : Tensor F)
    (hk : l.kernels ≠ []) (hl : l.switch_to_inference b = .ok l') :
    l'.run_state = .Inference ∧ l'.backward b x y g og = .error .oob := by
  simp only [ConvolutionalLayer.switch_to_inference, ConvolutionalLayer.update_tensors, empty_ok,
    ok_bind] at hl
  cases hl
  refine ⟨rfl, ?_⟩
  unfold ConvolutionalLayer.backward
  simp only
  cases hks : l.kernels with
  | nil => exact absurd hks hk
  | cons k ks =>
    rw [List.length_cons, List.range_succ_eq_map]
    rfl

example : exConv.kernels ≠ [] := by decide

open Toy in
example : ∃ l, (AnyLayer.fc exFC).switch_to_inference .debug = .ok l ∧
    l.get_run_mode = .Inference ∧ ∃ l', l = .fc l' := ⟨_, rfl, rfl, _, rfl⟩

/-! ## C33 -/

/-- C33, inference: switching always succeeds, sets the mode, keeps all parameters, shapes and the
name, leaves no gradients, and a second switch changes nothing. -/
theorem C33_switch_to_inference (b : Build) (l : AnyLayer F) :
    ∃ l', l.switch_to_inference b = .ok l' ∧ l'.get_run_mode = .Inference ∧
      params l' = params l ∧ l'.get_input_shape = l.get_input_shape ∧
      l'.get_output_shape = l.get_output_shape ∧ l'.get_name = l.get_name ∧ cleared l' ∧
      l'.switch_to_inference b = .ok l' := by
  obtain ⟨l', h1, h2, h3, h4, h5⟩ := switch_inference_ok (b := b) l
  exact ⟨l', h1, h2, h3, params_input h3, params_output h3, params_name h3, h4, h5⟩

/-- C33, training: the same, whenever switching returns. -/
theorem C33_switch_to_training (b : Build) (l l' : AnyLayer F)
    (h : l.switch_to_training b = .ok l') :
    l'.get_run_mode = .Training ∧
      params l' = params l ∧ l'.get_input_shape = l.get_input_shape ∧
      l'.get_output_shape = l.get_output_shape ∧ l'.get_name = l.get_name ∧ cleared l' ∧
      l'.switch_to_training b = .ok l' := by
  obtain ⟨h2, h3, h4⟩ := switch_training_effect l l' h
  exact ⟨h2, h3, params_input h3, params_output h3, params_name h3, h4,
    switch_training_idem l l' h⟩

/-- C33: switching to training returns for every well formed layer, and both switches keep layers
well formed. -/
theorem C33_switch_returns (b : Build) (l : AnyLayer F) (h : l.Ok) :
    (∃ l', l.switch_to_training b = .ok l' ∧ l'.Ok) ∧
    ∃ l', l.switch_to_inference b = .ok l' ∧ l'.Ok := by
  obtain ⟨l', h1⟩ := switch_training_ok (b := b) (ok_shapesFit h)
  obtain ⟨l'', h2, _⟩ := switch_inference_ok (b := b) l
  exact ⟨⟨l', h1, switch_training_keeps_ok h h1⟩, l'', h2, switch_inference_keeps_ok h h2⟩

/-- C33: a detour through the other mode is forgotten. -/
theorem C33_switch_detour (b : Build) (l l1 l2 : AnyLayer F)
    (h1 : l.switch_to_inference b = .ok l1) (h2 : l1.switch_to_training b = .ok l2) :
    l.switch_to_training b = .ok l2 := by
  cases l with
  | conv l =>
    simp only [AnyLayer.switch_to_inference, ConvolutionalLayer.switch_to_inference,
      ConvolutionalLayer.update_tensors, empty_ok, ok_bind] at h1
    cases h1
    exact h2
  | fc l =>
    simp only [AnyLayer.switch_to_inference, FullyConnectedLayer.switch_to_inference,
      FullyConnectedLayer.update_tensors, empty_ok, ok_bind] at h1
    cases h1
    exact h2
  | mp l => cases h1; exact h2
  | sm l =>
    simp only [AnyLayer.switch_to_inference, SoftmaxLayer.switch_to_inference,
      SoftmaxLayer.update_tensors, empty_ok, ok_bind] at h1
    cases h1
    exact h2

open Toy in
example : ∃ l, (AnyLayer.conv { exConv with run_state := .Inference }).switch_to_training .debug =
    .ok l ∧ l.get_run_mode = .Training := ⟨_, rfl, rfl⟩

/-! ## C51, single layers -/

/-- C51: no method of the `Layer` trait changes a layer's parameters, shapes or name, whatever the
state of the layer, the arguments and the result. -/
theorem C51_call (b : Build) (l l' : AnyLayer F) (h : Call b l l') :
    params l' = params l ∧ l'.get_input_shape = l.get_input_shape ∧
      l'.get_output_shape = l.get_output_shape ∧ l'.get_name = l.get_name := by
  have key : params l' = params l := by
    cases h with
    | forward x out r _ y h => exact like_params (forward_like l x out _ h).1
    | backward x y g og r _ og' h => exact like_params (backward_like l x y g og _ h).1
    | clear_gradients => exact like_params (clear_like l)
    | apply_gradients => rfl
    | switch_to_training _ h => exact (switch_training_effect l _ h).2.1
    | switch_to_inference _ h =>
      obtain ⟨l'', h1, _, h3, _⟩ := switch_inference_ok (b := b) l
      cases h.symm.trans h1
      exact h3
  exact ⟨key, params_input key, params_output key, params_name key⟩

/-- C51, any sequence of calls. -/
theorem C51_calls (b : Build) (l l' : AnyLayer F) (h : Calls b l l') :
    params l' = params l ∧ l'.get_input_shape = l.get_input_shape ∧
      l'.get_output_shape = l.get_output_shape ∧ l'.get_name = l.get_name := by
  have key : params l' = params l := by
    induction h with
    | none => rfl
    | more l1 l2 _ h ih => exact (C51_call b l1 l2 h).1.trans ih
  exact ⟨key, params_input key, params_output key, params_name key⟩

open Toy in
example : ∃ l, Calls .debug (.fc exFC) l ∧ l.get_run_mode = .Inference :=
  ⟨_, .more _ _ _ (.more _ _ _ (.none _) (.clear_gradients _)) (.switch_to_inference _ _ rfl), rfl⟩

end Rusty
