import Verif.Tests.Base

/-! # Unit tests of the layers -/

namespace Rusty.Tests

open Rusty F32

namespace Convolutional

/-- layer/convolutional.rs 335-367 -/
theorem test_serialize_deserialize : passes (fun b => do
    let conv_layer : ConvolutionalLayer F32 ←
      unwrap (← ConvolutionalLayer.new b ⟨2, 2, 1⟩ ⟨4, 4, 1⟩ 2 4 "Convolutional layer")
    let new_layer ← ConvolutionalLayer.empty b
    let (r, new_layer) ← new_layer.load_from_serialized b conv_layer.get_serialized
    assert (is_ok r)
    assert (eqs new_layer.kernels conv_layer.kernels)
    assert (eqs new_layer.biases conv_layer.biases)
    assert (new_layer.input_shape = conv_layer.input_shape)
    assert (new_layer.output_shape = conv_layer.output_shape)
    assert (new_layer.stride == conv_layer.stride)
    assert (new_layer.name == conv_layer.name)) = true := by
  decide +kernel

/-- layer/convolutional.rs 369-449 -/
theorem test_backprop : passes (fun b => do
    let shape_input := TensorShape.new 3 3 1
    let shape_kernel := TensorShape.new 2 2 1
    let shape_result := TensorShape.new 2 2 2
    let tensor_image ← filled b shape_input [f 1, f 1, f 0, f 0, f 1, q 1 2, f 0, f 0, f 1]
    let kernel1 ← filled b shape_kernel [f 1, f 0, f 0, f 1]
    let kernel2 ← filled b shape_kernel [f 1, f 1, f 0, f 0]
    let bias1 ← full b (TensorShape.new_1d 1) (f 0)
    let bias2 ← full b (TensorShape.new_1d 1) (q (-3) 2)
    let conv_layer ← ConvolutionalLayer.empty b
    let (r, conv_layer) ← conv_layer.fill_from_state b [kernel1, kernel2] [bias1, bias2]
      shape_input 1 "Convolutional layer"
    assert (is_ok r)
    let result ← Tensor.new b shape_result
    let expected_result ← filled b shape_result [f 2, q 3 2, f 0, f 2, q 1 2, f 0, f 0, f 0]
    let (r, conv_layer, result) ← conv_layer.forward b tensor_image result
    assert (is_ok r)
    assert (result.eq expected_result)
    let conv_layer ← conv_layer.switch_to_training b
    let (r, conv_layer, result) ← conv_layer.forward b tensor_image result
    assert (is_ok r)
    assert (result.eq expected_result)
    let incoming_gradient ← filled b result.get_shape [f 1, f 0, f 0, f 1, f 0, f 1, f 1, f 0]
    let outgoing_gradient ← Tensor.new b tensor_image.get_shape
    let expected_outgoing_gradient ← Tensor.new b tensor_image.get_shape
    let (r, _, outgoing_gradient) ←
      conv_layer.backward b tensor_image result incoming_gradient outgoing_gradient
    assert (is_ok r)
    assert (outgoing_gradient.ne expected_outgoing_gradient)) = true := by
  decide +kernel

end Convolutional

namespace MaxPool

/-- layer/max_pool.rs 252-307 -/
theorem test_serialize_deserialize : passes (fun b => do
    let mpl ← unwrap (← MaxPoolLayer.new b ⟨2, 2, 1⟩ ⟨4, 4, 1⟩ 1 "Max pooling")
    let mpl2 ← unwrap (← MaxPoolLayer.new b ⟨1, 1, 1⟩ ⟨1, 1, 1⟩ 1 "Empty layer")
    let (r, mpl2) ← mpl2.load_from_serialized b mpl.get_serialized
    assert (is_ok r)
    assert (mpl2.name == "Max pooling")
    assert (mpl2.mask_shape = ⟨2, 2, 1⟩)
    assert (mpl2.input_shape = ⟨4, 4, 1⟩)
    assert (mpl2.stride == 1)) = true := by
  decide +kernel

/-- layer/max_pool.rs 309-364 -/
theorem test_backprop : passes (fun b => do
    let mpl := MaxPoolLayer.empty
    let image ← filled b (TensorShape.new_2d 3 3) [f 1, f 2, f 3, f 4, f 5, f 6, f 7, f 8, f 9]
    let output_shape := TensorShape.new_2d 2 2
    let output ← Tensor.new b output_shape
    let expected_output ← filled b output_shape [f 5, f 6, f 8, f 9]
    let incoming_gradient ← filled b output_shape [f 5, f 4, f 3, f 2]
    let outgoing_gradient ← Tensor.new b image.get_shape
    let expected_outgoing_gradient ← filled b image.get_shape
      [f 0, f 0, f 0, f 0, f 5, f 4, f 0, f 3, f 2]
    let (r, mpl) ← mpl.fill_from_state b image.get_shape (TensorShape.new_2d 2 2) 1 "Test layer"
    assert (is_ok r)
    let mpl ← mpl.switch_to_training b
    let (r, mpl, output) ← mpl.forward b image output
    assert (is_ok r)
    assert (output.eq expected_output)
    assert (mpl.max_pool_origin == [4, 5, 7, 8])
    let (r, _, outgoing_gradient) ← mpl.backward b image output incoming_gradient outgoing_gradient
    assert (is_ok r)
    assert (outgoing_gradient.eq expected_outgoing_gradient)) = true := by
  decide +kernel

end MaxPool

namespace FullyConnected

/-- layer/fully_connected.rs 280-291 -/
theorem test_value_filling : passes (fun b => do
    let fc_layer : FullyConnectedLayer F32 ← FullyConnectedLayer.new b 4 4 "Test layer"
    let fc_layer := fc_layer.fill_weights_with_value (f 7)
    let fc_layer := fc_layer.fill_bias_with_value (f 25)
    let bias_probe ← fc_layer.bias.get_item b (TensorIndex.index_1d 2)
    let weight_probe ← fc_layer.weights.get_item b (TensorIndex.index_2d 1 2)
    assert (feq bias_probe (f 25))
    assert (feq weight_probe (f 7))) = true := by
  decide +kernel

/-- layer/fully_connected.rs 293-308 -/
theorem test_serialize_deserialize : passes (fun b => do
    let fc_layer : FullyConnectedLayer F32 ← FullyConnectedLayer.new b 4 4 "Test layer"
    let fc_layer := fc_layer.fill_weights_with_value (f 7)
    let fc_layer := fc_layer.fill_bias_with_value (f 25)
    let other_layer ← FullyConnectedLayer.empty b
    let (r, other_layer) ← other_layer.load_from_serialized b fc_layer.get_serialized
    assert (is_ok r)
    assert (other_layer.weights.eq fc_layer.weights)
    assert (other_layer.bias.eq fc_layer.bias)
    assert (other_layer.name == fc_layer.name)) = true := by
  decide +kernel

/-- layer/fully_connected.rs 310-374 -/
theorem test_backprop : passes (fun b => do
    let s3 := TensorShape.new_1d 3
    let fcl ← FullyConnectedLayer.empty b
    let weights ← filled b (TensorShape.new_2d 3 3)
      [f 1, f 2, f 3, f (-1), f (-2), f (-8), f 1, f 1, f (-2)]
    let bias ← filled b s3 [f 1, f 0, f 2]
    let input ← filled b s3 [f 2, f 1, f 1]
    let expected_output ← filled b s3 [f 3, f 3, f 0]
    let output ← Tensor.new b s3
    let outgoing_gradient ← Tensor.new b s3
    let expected_outgoing_gradient ← filled b s3 [f 5, f (-5), f 3]
    let expected_bias_gradient ← filled b s3 [f 1, f 2, f 0]
    let expected_weights_gradient ← filled b (TensorShape.new_2d 3 3)
      [f 2, f 4, f 0, f 1, f 2, f 0, f 1, f 2, f 0]
    let expected_relu_mask ← filled b s3 [f 1, f 1, f 0]
    let incoming_gradient ← filled b s3 [f 1, f 2, f 3]
    let (r, fcl) ← fcl.fill_from_state b weights bias "Test layer"
    assert (is_ok r)
    let fcl ← fcl.switch_to_training b
    let (r, fcl, output) ← fcl.forward b input output
    assert (is_ok r)
    assert (output.eq expected_output)
    assert (fcl.relu_mask.eq expected_relu_mask)
    let (r, fcl, outgoing_gradient) ←
      fcl.backward b input output incoming_gradient outgoing_gradient
    assert (is_ok r)
    assert (outgoing_gradient.eq expected_outgoing_gradient)
    assert (fcl.bias_gradients.eq expected_bias_gradient)
    assert (fcl.weights_gradients.eq expected_weights_gradient)) = true := by
  decide +kernel

end FullyConnected

namespace Softmax

/-- layer/softmax.rs 205-231 -/
theorem test_serialize_deserialize : passes (fun b => do
    let sml : SoftmaxLayer F32 ← unwrap (← SoftmaxLayer.new b ⟨5, 4, 3⟩ "Softmax layer")
    let sml2 : SoftmaxLayer F32 ← unwrap (← SoftmaxLayer.new b (TensorShape.new 1 1 1) "Nothing")
    let (r, sml2) ← sml2.load_from_serialized b sml.get_serialized
    assert (is_ok r)
    assert (sml2.name == "Softmax layer")
    assert (sml2.shape = ⟨5, 4, 3⟩)) = true := by
  decide +kernel

/-- layer/softmax.rs 233-281 -/
theorem test_backprop : passes (fun b => do
    let s3 := TensorShape.new_1d 3
    let input ← filled b s3 [f 1, f 2, f 3]
    let output ← Tensor.new b s3
    let outgoing_gradient ← Tensor.new b s3
    let sum := F32.add (F32.add (Libm.exp (f 1)) (Libm.exp (f 2))) (Libm.exp (f 3))
    let expected_output ← filled b s3
      [F32.div (Libm.exp (f 1)) sum, F32.div (Libm.exp (f 2)) sum, F32.div (Libm.exp (f 3)) sum]
    let incoming_gradient ← filled b s3 [f 4, f 5, f 6]
    let sml : SoftmaxLayer F32 ← unwrap (← SoftmaxLayer.new b input.get_shape "softmax layer")
    let sml ← sml.switch_to_training b
    let (r, sml, output) ← sml.forward b input output
    assert (is_ok r)
    assert (output.eq expected_output)
    let (r, _, _) ← sml.backward b input output incoming_gradient outgoing_gradient
    assert (is_ok r)) = true := by
  decide +kernel

end Softmax

end Rusty.Tests
