import Verif.Tests.Base
import Verif.Model.Random

/-! # Unit tests of `/repo/src/tensor.rs` and `/repo/src/tensor/helper.rs` -/

namespace Rusty.Tests

open Rusty F32

/-! ## helper.rs -/

/-- helper.rs 124-133 -/
theorem test_tensorshape_total_size : passes (fun b => do
    let ts := TensorShape.new 5 4 8
    assert ((← ts.total_size b) == 160)
    let ts := TensorShape.new 0 2 0
    assert ((← ts.total_size b) == 2)) = true := by
  decide +kernel

/-- helper.rs 135-149 -/
theorem test_tensor_shape_serialize_deserialize : passes (fun _ => do
    let ts1 : TensorShape := ⟨2, 3, 5⟩
    let serialized := encShape ts1
    assert (deserialize decShape serialized = some ts1)
    assert (serialized.length == 12)) = true := by
  decide +kernel

/-- helper.rs 151-157 -/
theorem test_tensor_stride_from_shape : passes (fun b => do
    let generated_stride ← TensorStride.new_from_shape b (TensorShape.new 5 6 10)
    assert (generated_stride = ⟨1, 5, 30⟩)) = true := by
  decide +kernel

/-- helper.rs 159-167 -/
theorem test_index_fits_shape : passes (fun _ => do
    let test_shape := TensorShape.new 5 6 10
    assert (test_shape.fits_index ⟨2, 4, 7⟩ == true)
    assert (test_shape.fits_index ⟨5, 4, 7⟩ == false)) = true := by
  decide +kernel

/-- helper.rs 169-176 -/
theorem test_index_stride_multiply : passes (fun b => do
    let test_stride ← TensorStride.new_from_shape b (TensorShape.new 5 6 10)
    assert ((← test_stride.mulIndex b ⟨2, 4, 7⟩) == 232)) = true := by
  decide +kernel

/-! ## tensor.rs -/

/-- tensor.rs 615-620 -/
theorem test_create_tensor : passes (fun b => do
    let t : Tensor F32 ← Tensor.new b (TensorShape.new 3 4 5)
    assert ((← t.total_items b) == 60)) = true := by
  decide +kernel

/-- tensor.rs 622-637 -/
theorem test_get_set_tensor : passes (fun b => do
    let t : Tensor F32 ← Tensor.new b (TensorShape.new 3 4 5)
    assert (feq (← t.get_item b ⟨1, 3, 2⟩) (f 0))
    let t ← t.set_item b ⟨1, 3, 2⟩ (f 7)
    assert (feq (← t.get_item b ⟨1, 3, 2⟩) (f 7))
    let t ← t.set_item b ⟨5, 3, 2⟩ (f 16)
    assert (feq (← t.get_item b ⟨5, 3, 2⟩) (f 0))) = true := by
  decide +kernel

/-- tensor.rs 639-651, with given random words; `C75_uniform` has all of them -/
theorem test_uniform_fill : passes (fun b => do
    let t : Tensor F32 ← Tensor.new b ⟨2, 3, 4⟩
    let t ← t.fill_with_uniform b (fun n => UInt32.ofNat (n * 178956971 + 4294967)) (f (-1)) (f 1)
    for d in t.data do
      assert (F32.le d (f 1))
      assert (F32.le (f (-1)) d)) = true := by
  decide +kernel

/-- tensor.rs 652-663 -/
theorem test_value_fill : passes (fun b => do
    let t : Tensor F32 ← Tensor.new b ⟨2, 3, 4⟩
    let t := t.fill_with_value (f 7)
    for d in t.data do assert (feq d (f 7))) = true := by
  decide +kernel

/-- tensor.rs 665-675 -/
theorem test_vec_fill : passes (fun b => do
    let t : Tensor F32 ← Tensor.new b ⟨2, 2, 2⟩
    let (r, t) ← t.fill_with_vec b [f 1, f 2, f 3, f 4, f 5, f 6, f 7, f 8]
    assert (is_ok r)
    assert (feq (← t.get_item b ⟨0, 1, 1⟩) (f 7))) = true := by
  decide +kernel

/-- tensor.rs 676-686 -/
theorem test_get_norm : passes (fun b => do
    let t : Tensor F32 ← Tensor.new b ⟨1, 3, 1⟩
    let (r, t) ← t.fill_with_vec b [f 1, f 2, f 3]
    assert (is_ok r)
    assert (feq t.get_norm (sqrt (f 14)))) = true := by
  decide +kernel

/-- tensor.rs 687-708 -/
theorem test_tensor_equals : passes (fun b => do
    let shape := TensorShape.new 2 3 1
    let t1 ← lit b shape [f 1, f 2, f 3, f 4, f 5, f 6]
    let t2 ← lit b shape [f 2, f 3, f 4, f 5, f 6, f 7]
    let t3 ← lit b shape [f 1, f 2, f 3, f 4, f 5, f 6]
    assert (t1.eq t3)
    assert (t1.ne t2)) = true := by
  decide +kernel

/-- tensor.rs 710-734 -/
theorem test_tensor_add : passes (fun b => do
    let shape := TensorShape.new 2 3 1
    let t1 ← lit b shape [f 1, f 2, f 3, f 4, f 5, f 6]
    let t2 ← lit b shape [f 2, f 3, f 4, f 5, f 6, f 7]
    let result ← Tensor.new b shape
    let expected_result ← lit b shape [f 3, f 5, f 7, f 9, f 11, f 13]
    assert (expected_result.eq (Tensor.add t1 t2 result))) = true := by
  decide +kernel

/-- tensor.rs 736-758 -/
theorem test_tensor_add_to_self : passes (fun b => do
    let shape := TensorShape.new 2 3 1
    let t1 ← lit b shape [f 1, f 2, f 3, f 4, f 5, f 6]
    let t2 ← lit b shape [f 2, f 3, f 4, f 5, f 6, f 7]
    let expected_result ← lit b shape [f 3, f 5, f 7, f 9, f 11, f 13]
    assert (expected_result.eq (Tensor.add_to_self t1 t2))) = true := by
  decide +kernel

/-- tensor.rs 760-781 -/
theorem test_tensor_add_from_index_list : passes (fun b => do
    let max_pool_output ← lit b (TensorShape.new 2 2 1) [f 1, f 2, f 3, f 4]
    let expected_image ← lit b (TensorShape.new 3 3 1)
      [f 4, f 2, f 0, f 4, f 0, f 0, f 0, f 0, f 0]
    let image ← Tensor.new b (TensorShape.new 3 3 1)
    let (r, image) ← Tensor.add_from_index_list b max_pool_output image [0, 1, 0, 3]
    assert (is_ok r)
    assert (expected_image.eq image)) = true := by
  decide +kernel

/-- tensor.rs 782-800 -/
theorem test_tensor_relu_self_and_store_mask : passes (fun b => do
    let shape := TensorShape.new 7 1 1
    let input ← lit b shape [f 1, f 2, f (-3), f (-4), f 5, f (-6), f 7]
    let mask ← Tensor.new b shape
    let expected_mask ← lit b shape [f 1, f 1, f 0, f 0, f 1, f 0, f 1]
    let (r, _, mask) := Tensor.relu_self_and_store_mask input mask
    assert (is_ok r)
    assert (expected_mask.eq mask)) = true := by
  decide +kernel

/-- tensor.rs 801-818 -/
theorem test_tensor_multiply_elementwise_self : passes (fun b => do
    let t1 ← filled b (TensorShape.new_2d 2 3) [f 1, f 2, f 3, f 4, f 5, f 6]
    let t2 ← filled b (TensorShape.new_2d 2 3) [f 2, f 1, f 3, f 5, f 2, f 1]
    let expected_result ← filled b (TensorShape.new_2d 2 3) [f 2, f 2, f 9, f 20, f 10, f 6]
    assert (expected_result.eq (Tensor.multiply_elementwise_self t1 t2))) = true := by
  decide +kernel

/-- tensor.rs 819-837 -/
theorem test_tensor_multiply_elementwise : passes (fun b => do
    let t1 ← filled b (TensorShape.new_2d 2 3) [f 1, f 2, f 3, f 4, f 5, f 6]
    let t2 ← filled b (TensorShape.new_2d 2 3) [f 2, f 1, f 3, f 5, f 2, f 1]
    let result ← Tensor.new b (TensorShape.new_2d 2 3)
    let expected_result ← filled b (TensorShape.new_2d 2 3) [f 2, f 2, f 9, f 20, f 10, f 6]
    assert (expected_result.eq (Tensor.multiply_elementwise t1 t2 result))) = true := by
  decide +kernel

/-- tensor.rs 838-862 -/
theorem test_tensor_transpose_ij : passes (fun b => do
    let input ← lit b (TensorShape.new 2 3 2)
      [f 1, f 2, f 3, f 4, f 5, f 6, f 7, f 8, f 9, f 10, f 11, f 12]
    let expected_output ← lit b (TensorShape.new 3 2 2)
      [f 1, f 3, f 5, f 2, f 4, f 6, f 7, f 9, f 11, f 8, f 10, f 12]
    let output ← Tensor.new b (TensorShape.new 3 2 2)
    let (r, output) ← Tensor.transpose_ij b input output
    assert (is_ok r)
    assert (expected_output.eq output)) = true := by
  decide +kernel

/-- tensor.rs 864-884 -/
theorem test_tensor_scale : passes (fun b => do
    let shape := TensorShape.new 2 3 1
    let t1 ← lit b shape [f 1, f 2, f 3, f 4, f 5, f 6]
    let result ← Tensor.new b shape
    let expected_result ← lit b shape [f 2, f 4, f 6, f 8, f 10, f 12]
    assert (expected_result.eq (t1.scale (f 2) result))) = true := by
  decide +kernel

/-- tensor.rs 886-904 -/
theorem test_tensor_scale_self : passes (fun b => do
    let shape := TensorShape.new 2 3 1
    let t1 ← lit b shape [f 1, f 2, f 3, f 4, f 5, f 6]
    let expected_result ← lit b shape [f 2, f 4, f 6, f 8, f 10, f 12]
    assert (expected_result.eq (t1.scale_self (f 2)))) = true := by
  decide +kernel

/-- tensor.rs 905-927 -/
theorem test_softmax : passes (fun b => do
    let shape := TensorShape.new 1 3 1
    let t1 ← lit b shape [f 1, f 2, f 3]
    let result ← Tensor.new b shape
    let f1 := Libm.exp (f 1)
    let f2 := Libm.exp (f 2)
    let f3 := Libm.exp (f 3)
    let sum := F32.add (F32.add f1 f2) f3
    let expected_result ← lit b shape [F32.div f1 sum, F32.div f2 sum, F32.div f3 sum]
    assert (expected_result.eq (← Tensor.softmax t1 result))) = true := by
  decide +kernel

/-- tensor.rs 929-955 -/
theorem test_tensor_matrix_multiply : passes (fun b => do
    let t1 ← lit b (TensorShape.new 2 3 1) [f 1, f 2, f 3, f 4, f 5, f 6]
    let t2 ← lit b (TensorShape.new 3 3 1) (List.replicate 9 (f 1))
    let result ← Tensor.new b (TensorShape.new 2 3 1)
    let expected_result ← lit b (TensorShape.new 2 3 1) [f 9, f 12, f 9, f 12, f 9, f 12]
    assert (expected_result.eq (← Tensor.matrix_multiply b t1 t2 result))) = true := by
  decide +kernel

/-- tensor.rs 956-982 -/
theorem test_tensor_matrix_multiply_transpose_first : passes (fun b => do
    let t1 ← lit b (TensorShape.new 3 1 1) [f 1, f 2, f 3]
    let t2 ← lit b (TensorShape.new 3 1 1) [f 3, f 4, f 5]
    let result ← Tensor.new b (TensorShape.new 1 1 1)
    let expected_result ← lit b (TensorShape.new 1 1 1) [f 26]
    let (r, result) ← Tensor.matrix_multiply_transpose_first b t1 t2 result
    assert (is_ok r)
    assert (expected_result.eq result)) = true := by
  decide +kernel

/-- tensor.rs 983-1009 -/
theorem test_tensor_matrix_multiply_transpose_second : passes (fun b => do
    let t1 ← lit b (TensorShape.new 3 1 1) [f 1, f 2, f 3]
    let t2 ← lit b (TensorShape.new 3 1 1) [f 3, f 4, f 5]
    let result ← Tensor.new b (TensorShape.new 3 3 1)
    let expected_result ← lit b (TensorShape.new 3 3 1)
      [f 3, f 6, f 9, f 4, f 8, f 12, f 5, f 10, f 15]
    let (r, result) ← Tensor.matrix_multiply_transpose_second b t1 t2 result
    assert (is_ok r)
    assert (expected_result.eq result)) = true := by
  decide +kernel

/-- tensor.rs 1010-1025 -/
theorem test_matrix_multiply_shape_check : passes (fun _ => do
    let shape_1 := TensorShape.new 5 6 7
    let shape_2 := TensorShape.new 6 8 7
    let shape_res := TensorShape.new 5 8 7
    assert (Tensor.check_matrix_multiply_dimensions shape_1 shape_2 shape_res)
    assert (!Tensor.check_matrix_multiply_dimensions shape_2 shape_1 shape_res)) = true := by
  decide +kernel

/-- tensor.rs 1028-1048 -/
theorem test_max_pooling : passes (fun b => do
    let tensor_image ← full b (TensorShape.new 5 5 3) (f 1)
    let tensor_image ← tensor_image.set_item b ⟨0, 0, 0⟩ (f 2)
    let tensor_image ← tensor_image.set_item b ⟨2, 2, 1⟩ (f 3)
    let tensor_image ← tensor_image.set_item b ⟨4, 4, 2⟩ (f 4)
    let tensor_result ← Tensor.new b (TensorShape.new 2 2 3)
    let tensor_expected_result ← lit b (TensorShape.new 2 2 3)
      [f 2, f 1, f 1, f 1, f 3, f 3, f 3, f 3, f 1, f 1, f 1, f 4]
    let tensor_result ← Tensor.max_pool b tensor_image (TensorShape.new 3 3 1) 2 tensor_result
    assert (tensor_result.eq tensor_expected_result)) = true := by
  decide +kernel

/-- tensor.rs 1049-1078 -/
theorem test_max_pooling_track_output : passes (fun b => do
    let shape_result := TensorShape.new 2 2 1
    let output_track := List.replicate (← shape_result.total_size b).toNat 0
    let tensor_image ← filled b (TensorShape.new 3 3 1)
      [f 1, f 2, f 3, f 4, f 5, f 6, f 7, f 8, f 9]
    let tensor_result ← Tensor.new b shape_result
    let tensor_expected_result ← lit b shape_result [f 5, f 6, f 8, f 9]
    let (r, tensor_result, output_track) ←
      Tensor.max_pool_track_origin b tensor_image (TensorShape.new 2 2 1) 1 tensor_result output_track
    assert (is_ok r)
    assert (tensor_result.eq tensor_expected_result)
    assert ([4, 5, 7, 8] == output_track)) = true := by
  decide +kernel

/-- tensor.rs 1080-1114 -/
theorem test_multiply_add_relu : passes (fun b => do
    let tensor_input ← lit b (TensorShape.new 2 1 1) [f 1, q 1 2]
    let tensor_bias ← lit b (TensorShape.new 3 1 1) [f 1, f 0, f (-1)]
    let tensor_weights ← lit b (TensorShape.new 3 2 1) [f 1, f 0, f 2, f 2, f (-1), f 0]
    let tensor_result ← Tensor.new b (TensorShape.new 3 1 1)
    let tensor_expected_result ← lit b (TensorShape.new 3 1 1) [f 3, f 0, f 1]
    let tensor_result ←
      Tensor.matrix_multiply_add_relu b tensor_input tensor_weights tensor_bias tensor_result
    assert (tensor_result.eq tensor_expected_result)) = true := by
  decide +kernel

/-- tensor.rs 1116-1129 -/
theorem test_tensor_serialize_deserialize : passes (fun b => do
    let tensor : Tensor F32 ← Tensor.new b ⟨5, 5, 5⟩
    match deserialize decTensor (encTensor tensor) with
    | none => .error .unwrap
    | some deserialized_tensor => assert (Tensor.eq deserialized_tensor tensor)) = true := by
  decide +kernel

/-- tensor.rs 1131-1150 -/
theorem test_write_read_tensor : passes (fun b => do
    let tensor : Tensor F32 ← Tensor.new b ⟨3, 4, 5⟩
    let tensor ← tensor.fill_with_gaussian (fun i => q (i + 1) 7) (f 0) (f 1)
    let (r, fs) := tensor.save_to_file .done (fun _ => none) "tensor.tsr"
    unwrap r
    let other_tensor ← unwrap (Tensor.from_file fs "tensor.tsr")
    assert (tensor.eq other_tensor)) = true := by
  decide +kernel

end Rusty.Tests
