import Verif.Tests.Base

/-! # Unit tests of `/repo/src/network.rs` -/

namespace Rusty.Tests

open Rusty F32

/-- the two layers most tests use -/
def layers23 (b : Build) : Exec (FullyConnectedLayer F32 × FullyConnectedLayer F32) := do
  let layer_1 ← FullyConnectedLayer.new b 2 3 "full_layer_1"
  let layer_2 ← FullyConnectedLayer.new b 3 2 "full_layer_2"
  let layer_1 := (layer_1.fill_weights_with_value (f 1)).fill_bias_with_value (f 2)
  let layer_2 := (layer_2.fill_weights_with_value (f 3)).fill_bias_with_value (f 4)
  pure (layer_1, layer_2)

/-- `add_layer(..).unwrap()` -/
def added (b : Build) (n : Network F32 (AnyLayer F32)) (l : AnyLayer F32) :
    Exec (Network F32 (AnyLayer F32)) := do
  let (r, n) ← n.add_layer b l
  unwrap r
  pure n

/-- all layers are in the given mode -/
def allIn (m : NetworkRunState) (n : Network F32 (AnyLayer F32)) : Bool :=
  n.layers.all fun l => decide (l.get_run_mode = m)

/-- network.rs 302-325 -/
theorem test_adding_layer : passes (fun b => do
    let layer_1 : ConvolutionalLayer F32 ← unwrap (← ConvolutionalLayer.new b (TensorShape.new 2 2 1)
      (TensorShape.new 4 2 1) 1 1 "conv_layer_1")
    let layer_2 : FullyConnectedLayer F32 ← FullyConnectedLayer.new b 3 8 "full_layer_1"
    let layer_3 : FullyConnectedLayer F32 ← FullyConnectedLayer.new b 3 8 "full_layer_2"
    let expected_output_shape := layer_2.get_output_shape
    let expected_input_shape := layer_1.input_shape
    let network : Network F32 (AnyLayer F32) := Network.new .Inference
    let (r, network) ← network.add_layer b (.conv layer_1)
    assert (is_ok r)
    let (r, network) ← network.add_layer b (.fc layer_2)
    assert (is_ok r)
    let (r, network) ← network.add_layer b (.fc layer_3)
    assert (!is_ok r)
    assert (network.get_input_shape = expected_input_shape)
    assert (network.get_output_shape = expected_output_shape)) = true := by
  decide +kernel

/-- network.rs 327-349 -/
theorem test_run_state : passes (fun b => do
    let layer_1 : FullyConnectedLayer F32 ← FullyConnectedLayer.new b 3 8 "full_layer_1"
    let layer_2 : FullyConnectedLayer F32 ← FullyConnectedLayer.new b 8 4 "full_layer_2"
    let network : Network F32 (AnyLayer F32) := Network.new .Inference
    let (r, network) ← network.add_layer b (.fc layer_1)
    assert (is_ok r)
    assert (allIn .Inference network)
    let network ← network.switch_to_training b
    assert (allIn .Training network)
    let (r, network) ← network.add_layer b (.fc layer_2)
    assert (is_ok r)
    assert (allIn .Training network)
    let network ← network.switch_to_inference b
    assert (allIn .Inference network)) = true := by
  decide +kernel

/-- network.rs 351-369 -/
theorem test_getting_intermediate_states : passes (fun b => do
    let layer_1 : ConvolutionalLayer F32 ← unwrap (← ConvolutionalLayer.new b (TensorShape.new 2 2 1)
      (TensorShape.new 4 2 1) 1 1 "conv_layer_1")
    let layer_2 : FullyConnectedLayer F32 ← FullyConnectedLayer.new b 3 8 "full_layer_1"
    let expected_intermediate_shape := layer_1.output_shape
    let network : Network F32 (AnyLayer F32) := Network.new .Inference
    let (r, network) ← network.add_layer b (.conv layer_1)
    assert (is_ok r)
    let (r, network) ← network.add_layer b (.fc layer_2)
    assert (is_ok r)
    let state ← unwrap (network.get_intermediate_state 1)
    assert (state.get_shape = expected_intermediate_shape)) = true := by
  decide +kernel

/-- network.rs 370-407 -/
theorem test_network_infer : passes (fun b => do
    let (layer_1, layer_2) ← layers23 b
    let input_tensor ← full b (TensorShape.new 2 1 1) (f 1)
    let network ← added b (Network.new .Inference) (.fc layer_1)
    let network ← added b network (.fc layer_2)
    let (r, network) ← network.infer b input_tensor
    assert (is_ok r)
    let result ← unwrap network.get_output
    let expected_result ← full b ⟨2, 1, 1⟩ (f 40)
    assert (expected_result.eq result)) = true := by
  decide +kernel

/-- network.rs 409-469 -/
theorem test_network_backward : passes (fun b => do
    let (layer_1, layer_2) ← layers23 b
    let input_tensor ← full b (TensorShape.new 2 1 1) (f 1)
    let network ← added b (Network.new .Inference) (.fc layer_1)
    let network ← added b network (.fc layer_2)
    let network ← network.switch_to_training b
    let (r, network) ← network.infer b input_tensor
    assert (is_ok r)
    let result ← unwrap network.get_output
    let expected_result ← full b ⟨2, 1, 1⟩ (f 40)
    assert (expected_result.eq result)
    let incoming_gradient ← full b result.get_shape (f 1)
    let (r, network) ← network.backward b incoming_gradient
    assert (is_ok r)
    let expected_intermediate_gradient ← full b (TensorShape.new_1d 3) (f 6)
    let expected_final_gradient ← full b input_tensor.get_shape (f 18)
    assert (expected_intermediate_gradient.eq (← vget network.intermediate_gradients 1))
    assert (expected_final_gradient.eq (← vget network.intermediate_gradients 0))) = true := by
  decide +kernel

/-- network.rs 471-513 -/
theorem test_network_serialize_deserialize : passes (fun b => do
    let (layer_1, layer_2) ← layers23 b
    let network ← added b (Network.new .Inference) (.fc layer_1)
    let network ← added b network (.fc layer_2)
    let input_tensor ← full b (TensorShape.new 2 1 1) (f 1)
    let (r, network) ← network.infer b input_tensor
    unwrap r
    let output ← unwrap network.get_output
    let serialized_network := SerializedNetwork.new_from_network network
    let (r, deserialized_network) ← serialized_network.populate_network b (Network.new .Inference)
    assert (is_ok r)
    assert (deserialized_network.layers.length == 2)
    let nl1 := (← vget deserialized_network.layers 0).get_name
    let ol1 := (← vget network.layers 0).get_name
    assert (nl1 == ol1)
    let (r, deserialized_network) ← deserialized_network.infer b input_tensor
    assert (is_ok r)
    let other_output ← unwrap deserialized_network.get_output
    assert (output.eq other_output)) = true := by
  decide +kernel

end Rusty.Tests
