import Verif.Lemmas.Profiles
import Verif.Props.Random
import Verif.Spec.Client

/-! # C76: debug and release builds -/

namespace Rusty

open F32

section

variable [Libm]

theorem uniform_agree (rng : Nat → UInt32) (t : Tensor F32) (lo hi : F32) :
    Agree (t.fill_with_uniform .debug rng lo hi) (t.fill_with_uniform .release rng lo hi) := by
  by_cases h : Spec.UniformBounds lo hi
  · apply Agree.of_eq
    unfold Tensor.fill_with_uniform UniformFloat.new_inclusive
    simp only [h.1, h.2.1, and_self, not_true_eq_false, and_false, if_false]
  · rw [C75_uniform_panics .debug rng t lo hi h, C75_uniform_panics .release rng t lo hi h]
    exact Agree.rfl

omit [Libm] in
theorem Api.local_agree {α : Type} {fs : FS} {d r : Exec α} (h : Agree d r) :
    Agree (Api.local' fs d) (Api.local' fs r) := Agree.bind h fun _ => Agree.rfl

/-- C76: a call made in a debug build does what the same call does in a release build, or panics on
arithmetic overflow. -/
theorem C76_call {α : Type} (c : Api α) (fs : FS) :
    c.run .debug fs = c.run .release fs ∨ c.run .debug fs = .error .overflow := by
  change Agree (c.run .debug fs) (c.run .release fs)
  cases c with
  | total_size s => exact Api.local_agree s.total_size_agree
  | mul_index s ix => exact Api.local_agree (s.mulIndex_agree ix)
  | new_from_shape s => exact Api.local_agree (TensorStride.new_from_shape_agree s)
  | tensor_new s => exact Api.local_agree (Tensor.new_agree s)
  | tensor_empty => exact Api.local_agree Tensor.empty_agree
  | total_items t => exact Api.local_agree t.total_items_agree
  | set_item t ix v => exact Api.local_agree (t.set_item_agree ix v)
  | get_item t ix => exact Api.local_agree (t.get_item_agree ix)
  | get_data_index t ix => exact Api.local_agree (t.get_data_index_agree ix)
  | fill_with_uniform rng t lo hi => exact Api.local_agree (uniform_agree rng t lo hi)
  | fill_with_gaussian rng t mean sd => exact Agree.rfl
  | fill_with_vec t d => exact Api.local_agree (t.fill_with_vec_agree d)
  | save_tensor w t name => exact Agree.rfl
  | load_tensor name => exact Agree.rfl
  | add_from_index_list t u l => exact Api.local_agree (Tensor.add_from_index_list_agree t u l)
  | transpose_ij t u => exact Api.local_agree (Tensor.transpose_ij_agree t u)
  | matrix_multiply_transpose_first t u r => exact Api.local_agree (Tensor.transpose_first_agree t u r)
  | matrix_multiply_transpose_second t u r =>
    exact Api.local_agree (Tensor.transpose_second_agree t u r)
  | matrix_multiply t u r => exact Api.local_agree (Tensor.matrix_multiply_agree t u r)
  | matrix_multiply_add_relu x w c r => exact Api.local_agree (Tensor.add_relu_agree x w c r)
  | does_kernel_stride_fit_image i k s => exact Api.local_agree (Tensor.fit_agree i k s)
  | get_convolution_dim_fit i k s => exact Api.local_agree (Tensor.dim_fit_agree i k s)
  | check_max_pooling_dimensions i m s r => exact Api.local_agree (Tensor.check_pool_agree i m s r)
  | max_pool x m s r => exact Api.local_agree (Tensor.max_pool_agree x m s r)
  | max_pool_track_origin x m s r o => exact Api.local_agree (Tensor.track_origin_agree x m s r o)
  | softmax x r => exact Agree.rfl
  | check_convolution_dimensions i k s r c =>
    exact Api.local_agree (check_convolution_agree i k s r c)
  | convolution_bias x k c s r ch => exact Api.local_agree (convolution_bias_agree x k c s r ch)
  | convolution_bias_relu x k c s r ch =>
    exact Api.local_agree (convolution_bias_relu_agree x k c s r ch)
  | convolution_backprop_outgoing_gradient g ks s o =>
    exact Api.local_agree (backprop_outgoing_agree g ks s o)
  | convolution_backprop_kernel g x s c k => exact Api.local_agree (backprop_kernel_agree g x s c k)
  | fc_new i o name => exact Api.local_agree (FullyConnectedLayer.new_agree i o name)
  | fc_empty => exact Api.local_agree FullyConnectedLayer.empty_agree
  | fc_fill l w c name => exact Api.local_agree (l.fill_from_state_agree w c name)
  | mp_new m i s name => exact Api.local_agree (MaxPoolLayer.new_agree m i s name)
  | mp_fill l i m s name => exact Api.local_agree (l.fill_from_state_agree i m s name)
  | sm_new s name => exact Api.local_agree (SoftmaxLayer.new_agree s name)
  | sm_empty => exact Api.local_agree SoftmaxLayer.empty_agree
  | sm_fill l s name => exact Api.local_agree (l.fill_from_state_agree s name)
  | conv_new k i s d name => exact Api.local_agree (ConvolutionalLayer.new_agree k i s d name)
  | conv_empty => exact Api.local_agree ConvolutionalLayer.empty_agree
  | conv_fill l ks bs i s name => exact Api.local_agree (l.fill_from_state_agree ks bs i s name)
  | layer_forward l x y => exact Api.local_agree (l.forward_agree x y)
  | layer_backward l x y g o => exact Api.local_agree (l.backward_agree x y g o)
  | layer_switch_to_training l => exact Api.local_agree l.switch_to_training_agree
  | layer_switch_to_inference l => exact Api.local_agree l.switch_to_inference_agree
  | layer_load l s => exact Api.local_agree (l.load_agree s)
  | add_to_network s n => exact Api.local_agree (Network.add_to_network_agree s n)
  | add_layer n l => exact Api.local_agree (n.add_layer_agree AnyLayer.agree l)
  | switch_to_training n => exact Api.local_agree (n.switch_to_training_agree AnyLayer.agree)
  | switch_to_inference n => exact Api.local_agree (n.switch_to_inference_agree AnyLayer.agree)
  | infer n x => exact Api.local_agree (n.infer_agree AnyLayer.agree x)
  | backward n g => exact Api.local_agree (n.backward_agree AnyLayer.agree g)
  | save_network o w n name => exact Agree.rfl
  | load_network n name => exact Api.local_agree (n.load_from_file_agree fs name)

omit [Libm] in
/-- C76: the same for the methods of a network of layers that a client has written itself, if the
methods of these layers have this property. -/
theorem C76_custom_layers {F L : Type} [F32Ops F] [LayerOps F L]
    (hf : ∀ (l : L) (x y : Tensor F),
      LayerOps.forward .debug l x y = LayerOps.forward .release l x y ∨
      LayerOps.forward .debug l x y = .error .overflow)
    (hb : ∀ (l : L) (x y g o : Tensor F),
      LayerOps.backward .debug l x y g o = LayerOps.backward .release l x y g o ∨
      LayerOps.backward .debug l x y g o = .error .overflow)
    (ht : ∀ l : L, LayerOps.switch_to_training .debug l = LayerOps.switch_to_training .release l ∨
      LayerOps.switch_to_training .debug l = .error .overflow)
    (hi : ∀ l : L, LayerOps.switch_to_inference .debug l = LayerOps.switch_to_inference .release l ∨
      LayerOps.switch_to_inference .debug l = .error .overflow)
    (n : Network F L) (l : L) (x : Tensor F) :
    (n.add_layer .debug l = n.add_layer .release l ∨ n.add_layer .debug l = .error .overflow) ∧
    (n.switch_to_training .debug = n.switch_to_training .release ∨
      n.switch_to_training .debug = .error .overflow) ∧
    (n.switch_to_inference .debug = n.switch_to_inference .release ∨
      n.switch_to_inference .debug = .error .overflow) ∧
    (n.infer .debug x = n.infer .release x ∨ n.infer .debug x = .error .overflow) ∧
    (n.backward .debug x = n.backward .release x ∨ n.backward .debug x = .error .overflow) :=
  have hL : LayersAgree F L := ⟨hf, hb, ht, hi⟩
  ⟨n.add_layer_agree hL l, n.switch_to_training_agree hL, n.switch_to_inference_agree hL,
    n.infer_agree hL x, n.backward_agree hL x⟩

/-- C76: a client program compiled in debug mode ends with the same result, the same files or the same
panic as compiled in release mode, or panics on arithmetic overflow. -/
theorem C76_program {α : Type} (p : Client α) (fs : FS) :
    p.run .debug fs = p.run .release fs ∨ p.run .debug fs = .error .overflow := by
  induction p generalizing fs with
  | done a => exact Agree.rfl
  | call c k ih => exact Agree.bind (C76_call c fs) fun r => ih r.1 r.2

/-- C76: a program that does not panic in a debug build has the same outcome in a release build. -/
theorem C76_debug_clean {α : Type} (p : Client α) (fs fs' : FS) (a : α)
    (h : p.run .debug fs = .ok (a, fs')) : p.run .release fs = .ok (a, fs') := by
  rcases C76_program p fs with e | e
  · rw [← e, h]
  · rw [e] at h; cases h

/-- C76: a program that panics in a release build panics in a debug build. -/
theorem C76_release_panics {α : Type} (p : Client α) (fs : FS) (k : PanicKind)
    (h : p.run .release fs = .error k) :
    p.run .debug fs = .error k ∨ p.run .debug fs = .error .overflow := by
  rcases C76_program p fs with e | e
  · exact .inl (e.trans h)
  · exact .inr e

end

/-- a platform for the examples -/
local instance : Libm := ⟨id, true⟩

/-- a program that makes a layer, puts it into a network and infers -/
private def good : Client Res :=
  .call (.fc_new 2 1 "l") fun l =>
  .call (.add_layer (Network.new .Inference) (.fc l)) fun r =>
  .call (.tensor_new ⟨2, 1, 1⟩) fun x =>
  .call (.infer r.2 x) fun r => .done r.1

/-- a program that asks for more entries than a `u32` counts -/
private def tooBig : Client UInt32 :=
  .call (.tensor_new ⟨65536, 65536, 1⟩) fun t =>
  .call (.total_items t) fun n => .done n

/-- the result of a run, without the files -/
private def result {α : Type} (e : Exec (α × FS)) : Option α := e.toOption.map Prod.fst

-- the first program runs in both builds
example : (result (good.run .debug fun _ => none)).isSome ∧
    (result (good.run .release fun _ => none)).isSome := by decide +kernel

-- the second one panics in the debug build only: the second alternative is needed
example : result (tooBig.run .debug fun _ => none) = none ∧
    result (tooBig.run .release fun _ => none) = some 0 := by decide +kernel

-- other panics happen in both
example : (Client.call (.fill_with_gaussian (fun _ => ⟨0⟩) ⟨⟨1, 1, 1⟩, ⟨1, 1, 1⟩, [⟨0⟩]⟩ ⟨0⟩ ⟨0x7f800000⟩)
      fun t => .done t).run .debug (fun _ => none) = .error .unwrap := rfl

end Rusty
