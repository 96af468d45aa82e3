import Verif.Tests.Base

/-! # Unit tests of `/repo/src/tensor/operations/convolution.rs` -/

namespace Rusty.Tests

open Rusty F32

/-- the image of the tests -/
def image44 : List F32 :=
  [f 1, f 1, f 0, f 0, f 0, f 1, q 1 2, f 0, f 0, f 0, f 1, q 1 2, f 0, f 0, f 0, q 1 2]

/-- tensor/operations/convolution.rs 310-350 -/
theorem test_convolution : passes (fun b => do
    let tensor_image ← filled b (TensorShape.new 4 4 1) image44
    let tensor_kernel ← lit b (TensorShape.new 3 3 1)
      [f 1, f 0, f 0, f 0, f 1, f 0, f 0, f 0, f 1]
    let tensor_bias ← lit b (TensorShape.new 1 1 1) [f 1]
    let tensor_result ← Tensor.new b (TensorShape.new 2 2 1)
    let tensor_expected_result ← lit b (TensorShape.new 2 2 1)
      [f 4, f 3, f 1, q 7 2]
    let (r, tensor_result) ←
      convolution_bias b tensor_image tensor_kernel tensor_bias 1 tensor_result 0
    assert (is_ok r)
    assert (tensor_result.eq tensor_expected_result)) = true := by
  decide +kernel

/-- tensor/operations/convolution.rs 351-387 -/
theorem test_convolution_bias_relu : passes (fun b => do
    let tensor_image ← filled b (TensorShape.new 4 4 1) image44
    let tensor_kernel ← lit b (TensorShape.new 3 3 1)
      [f 1, f 0, f 0, f 0, f 1, f 0, f 0, f 0, f 1]
    let tensor_bias ← full b (TensorShape.new_1d 1) (q (-21) 10)
    let tensor_result ← Tensor.new b (TensorShape.new 2 2 1)
    let tensor_expected_result ← lit b (TensorShape.new 2 2 1)
      [F32.add (f 3) (q (-21) 10), f 0, f 0, F32.add (q 5 2) (q (-21) 10)]
    let (r, tensor_result) ←
      convolution_bias_relu b tensor_image tensor_kernel tensor_bias 1 tensor_result 0
    assert (is_ok r)
    assert (tensor_result.eq tensor_expected_result)) = true := by
  decide +kernel

/-- tensor/operations/convolution.rs 389-420 -/
theorem test_convolution_backprop_kernel : passes (fun b => do
    let tensor_image ← filled b (TensorShape.new 4 4 1) image44
    let tensor_incoming_gradient ← filled b (TensorShape.new 2 2 1) [f 1, f 2, f 0, f 2]
    let tensor_kernel_gradient ← Tensor.new b (TensorShape.new 2 2 1)
    let tensor_expected_kernel_gradient ← filled b (TensorShape.new 2 2 1) [f 3, f 2, f 1, f 2]
    let (r, tensor_kernel_gradient) ←
      convolution_backprop_kernel b tensor_incoming_gradient tensor_image 2 0 tensor_kernel_gradient
    assert (is_ok r)
    assert (tensor_kernel_gradient.eq tensor_expected_kernel_gradient)) = true := by
  decide +kernel

/-- tensor/operations/convolution.rs 422-461 -/
theorem test_convolution_backprop_outgoing_gradient : passes (fun b => do
    let tensor_incoming_gradient ← filled b (TensorShape.new 2 2 2)
      [f 1, f 2, f 0, f 2, f 1, f 0, f 0, f 1]
    let kernel_1 ← filled b (TensorShape.new 2 2 1) [f 1, f 2, f 3, f 4]
    let kernel_2 ← filled b (TensorShape.new 2 2 1) [f 8, f 7, f 6, f 5]
    let tensor_outgoing_gradient ← Tensor.new b (TensorShape.new 3 3 1)
    let tensor_expected_outgoing_gradient ← filled b (TensorShape.new 3 3 1)
      [f 9, f 11, f 4, f 9, f 25, f 19, f 0, f 12, f 13]
    let (r, tensor_outgoing_gradient) ← convolution_backprop_outgoing_gradient b
      tensor_incoming_gradient [kernel_1, kernel_2] 1 tensor_outgoing_gradient
    assert (is_ok r)
    assert (tensor_expected_outgoing_gradient.eq tensor_outgoing_gradient)) = true := by
  decide +kernel

/-- tensor/operations/convolution.rs 463-487 -/
theorem test_convolution_check_dimensions : passes (fun b => do
    let shape_image := TensorShape.new 17 25 7
    let shape_kernel := TensorShape.new 3 3 7
    let shape_result := TensorShape.new 8 12 3
    assert (is_ok (← check_convolution_dimensions b shape_image shape_kernel 2 shape_result 1))
    assert (!is_ok (← check_convolution_dimensions b shape_image shape_kernel 3 shape_result 1))) = true := by
  decide +kernel

end Rusty.Tests
