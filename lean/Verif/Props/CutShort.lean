import Verif.Spec.CutShort
import Verif.Lemmas.CutShort
import Verif.Spec.Toy

/-! # C133: missing data are noticed, and what was computed before is right

`Tensor::from_file` and `load_from_serialized` accept tensors with fewer elements than their shape says: nothing in
the deserialiser compares the two.  The complete tensors are primed. -/

namespace Rusty

open F32Ops Unwind Spec

variable {F : Type} [F32Ops F]

/-- C133, matrix operations -/
theorem C133_matrix (b : Build) (u u' v v' w w' r : Tensor F) (hr : r.WF) (hu : Cut u u') (hv : Cut v v')
    (hw : Cut w w') :
    ((∀ p, (Tensor.transpose_ij_u b u' r).1 ≠ .error p) →
      AsFull r (Tensor.transpose_ij_u b u r) (Tensor.transpose_ij_u b u' r)) ∧
    ((∀ p, (Tensor.matrix_multiply_u b u' v' r).1 ≠ .error p) →
      AsFull r (Tensor.matrix_multiply_u b u v r) (Tensor.matrix_multiply_u b u' v' r)) ∧
    ((∀ p, (Tensor.matrix_multiply_transpose_first_u b u' v' r).1 ≠ .error p) →
      AsFull r (Tensor.matrix_multiply_transpose_first_u b u v r)
        (Tensor.matrix_multiply_transpose_first_u b u' v' r)) ∧
    ((∀ p, (Tensor.matrix_multiply_transpose_second_u b u' v' r).1 ≠ .error p) →
      AsFull r (Tensor.matrix_multiply_transpose_second_u b u v r)
        (Tensor.matrix_multiply_transpose_second_u b u' v' r)) ∧
    ((∀ p, (Tensor.matrix_multiply_add_relu_u b u' v' w' r).1 ≠ .error p) →
      AsFull r (Tensor.matrix_multiply_add_relu_u b u v w r) (Tensor.matrix_multiply_add_relu_u b u' v' w' r)) :=
  ⟨Tensor.transpose_full b u u' r hr hu, Tensor.mm_full b u u' v v' r hr hu hv,
    Tensor.mm_first_full b u u' v v' r hr hu hv, Tensor.mm_second_full b u u' v v' r hr hu hv,
    Tensor.mm_relu_full b u u' v v' w w' r hr hu hv hw⟩

/-- C133, convolutions -/
theorem C133_convolution (b : Build) (x x' k k' bi bi' g g' r : Tensor F) (ks ks' : List (Tensor F)) (st c : UInt32)
    (hr : r.WF) (hx : Cut x x') (hk : Cut k k') (hb : Cut bi bi') (hg : Cut g g') (hs : List.Forall₂ Cut ks ks') :
    ((∀ p, (convolution_bias_u b x' k' bi' st c r).1 ≠ .error p) →
      AsFull r (convolution_bias_u b x k bi st c r) (convolution_bias_u b x' k' bi' st c r)) ∧
    ((∀ p, (convolution_bias_relu_u b x' k' bi' st c r).1 ≠ .error p) →
      AsFull r (convolution_bias_relu_u b x k bi st c r) (convolution_bias_relu_u b x' k' bi' st c r)) ∧
    ((∀ p, (convolution_backprop_outgoing_gradient_u b g' ks' st r).1 ≠ .error p) →
      AsFull r (convolution_backprop_outgoing_gradient_u b g ks st r)
        (convolution_backprop_outgoing_gradient_u b g' ks' st r)) ∧
    ((∀ p, (convolution_backprop_kernel_u b g' x' st c r).1 ≠ .error p) →
      AsFull r (convolution_backprop_kernel_u b g x st c r) (convolution_backprop_kernel_u b g' x' st c r)) :=
  ⟨conv_bias_full b x x' k k' bi bi' r st c hr hx hk hb, conv_relu_full b x x' k k' bi bi' r st c hr hx hk hb,
    backprop_outgoing_full b g g' r ks ks' st hr hg hs, backprop_kernel_full b g g' x x' r st c hr hg hx⟩

/-- C133, pooling; the origins are cut at the same place as the output -/
theorem C133_pooling (b : Build) (x x' r : Tensor F) (o : List UInt32) (mask : TensorShape) (st : UInt32) (hr : r.WF)
    (hx : Cut x x') :
    ((∀ p, (Tensor.max_pool_u b x' mask st r).1 ≠ .error p) →
      AsFull r (Tensor.max_pool_u b x mask st r) (Tensor.max_pool_u b x' mask st r)) ∧
    ((∀ p, (Tensor.max_pool_track_origin_u b x' mask st (r, o)).1 ≠ .error p) →
      Tensor.max_pool_track_origin_u b x mask st (r, o) = Tensor.max_pool_track_origin_u b x' mask st (r, o) ∨
      ∃ p m, Tensor.max_pool_track_origin_u b x mask st (r, o) = (.error p,
        ({ r with data := (Tensor.max_pool_track_origin_u b x' mask st (r, o)).2.1.data.take m ++ r.data.drop m },
          (Tensor.max_pool_track_origin_u b x' mask st (r, o)).2.2.take m ++ o.drop m))) :=
  ⟨Tensor.max_pool_full b x x' r mask st hr hx, Tensor.track_full b x x' r o mask st hr hx⟩

open Toy in
/-- The operations that walk over the elements instead of indexing them do not notice: with two of three elements,
`add` and `softmax` return, with other results than for the complete tensor. -/
theorem C133_silent : ∃ x x' r : Tensor Int, Cut x x' ∧ x'.WF ∧ r.WF ∧ r.shape = x'.shape ∧
    (Tensor.add x x' r).data ≠ (Tensor.add x' x' r).data ∧
    ∃ t t', Tensor.softmax x r = .ok t ∧ Tensor.softmax x' r = .ok t' ∧ t.data ≠ t'.data :=
  ⟨⟨⟨1, 3, 3⟩, ⟨3, 1, 1⟩, [0, 0]⟩, ⟨⟨1, 3, 3⟩, ⟨3, 1, 1⟩, [0, 0, 1]⟩, ⟨⟨1, 3, 3⟩, ⟨3, 1, 1⟩, [0, 0, 5]⟩,
    ⟨rfl, rfl, 2, rfl⟩, by constructor <;> decide, by constructor <;> decide, rfl, by decide, _, _, rfl, rfl, by decide⟩

/-! The product of a 2×2 matrix and a column; the matrix has lost its last element.  The first element of the result
has been written when the product panics; the second is left as it was. -/

open Toy in
example : ∃ u u' v r : Tensor Int, u'.WF ∧ r.WF ∧ Cut u u' ∧
    Tensor.matrix_multiply_u .release u' v r = (.ok (), { r with data := [17, 39] }) ∧
    Tensor.matrix_multiply_u .release u v r = (.error .oob, { r with data := [17, 0] }) :=
  ⟨⟨⟨1, 2, 4⟩, ⟨2, 2, 1⟩, [1, 3, 2]⟩, ⟨⟨1, 2, 4⟩, ⟨2, 2, 1⟩, [1, 3, 2, 4]⟩, ⟨⟨1, 2, 2⟩, ⟨2, 1, 1⟩, [5, 6]⟩,
    ⟨⟨1, 2, 2⟩, ⟨2, 1, 1⟩, [0, 0]⟩, by constructor <;> decide, by constructor <;> decide,
    ⟨rfl, rfl, 3, rfl⟩, by decide +kernel, by decide +kernel⟩

end Rusty
