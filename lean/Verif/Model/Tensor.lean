import Verif.Model.Base

/-!
# Model of `/repo/src/tensor/helper.rs` and `/repo/src/tensor.rs` lines 12-605

Rust methods taking `&mut self` (or a `&mut Tensor` argument) return the new value.
-/

namespace Rusty

open F32Ops

/-- `/repo/src/tensor/helper.rs` lines 5-10. -/
structure TensorShape where
  di : UInt32
  dj : UInt32
  dk : UInt32
  deriving DecidableEq, Repr

/-- `/repo/src/tensor/helper.rs` lines 72-76. -/
structure TensorIndex where
  i : UInt32
  j : UInt32
  k : UInt32
  deriving DecidableEq, Repr

/-- `/repo/src/tensor/helper.rs` lines 93-98. -/
structure TensorStride where
  i : UInt32
  j : UInt32
  k : UInt32
  deriving DecidableEq, Repr

namespace TensorShape

/-- `TensorShape::new`, `/repo/src/tensor/helper.rs` lines 13-19. -/
def new (di dj dk : UInt32) : TensorShape := ⟨maxU di 1, maxU dj 1, maxU dk 1⟩

/-- `TensorShape::new_1d`, `/repo/src/tensor/helper.rs` lines 22-28. -/
def new_1d (di : UInt32) : TensorShape := ⟨di, 1, 1⟩

/-- `TensorShape::new_2d`, `/repo/src/tensor/helper.rs` lines 31-37. -/
def new_2d (di dj : UInt32) : TensorShape := ⟨di, dj, 1⟩

/-- `TensorShape::total_size`, `/repo/src/tensor/helper.rs` lines 40-42. -/
def total_size (b : Build) (s : TensorShape) : Exec UInt32 := do
  let ij ← mulU b s.di s.dj
  mulU b ij s.dk

/-- `TensorShape::fits_index`, `/repo/src/tensor/helper.rs` lines 44-56. -/
def fits_index (s : TensorShape) (ix : TensorIndex) : Bool :=
  if ix.i ≥ s.di then false
  else if ix.j ≥ s.dj then false
  else if ix.k ≥ s.dk then false
  else true

/-- `TensorShape::transpose_ij`, `/repo/src/tensor/helper.rs` lines 62-68. -/
def transpose_ij (s : TensorShape) : TensorShape := ⟨s.dj, s.di, s.dk⟩

end TensorShape

namespace TensorIndex

/-- `TensorIndex::index_1d`, `/repo/src/tensor/helper.rs` lines 79-81. -/
def index_1d (i : UInt32) : TensorIndex := ⟨i, 0, 0⟩

/-- `TensorIndex::index_2d`, `/repo/src/tensor/helper.rs` lines 83-85. -/
def index_2d (i j : UInt32) : TensorIndex := ⟨i, j, 0⟩

/-- `TensorIndex::zero`, `/repo/src/tensor/helper.rs` lines 88-90. -/
def zero : TensorIndex := ⟨0, 0, 0⟩

end TensorIndex

namespace TensorStride

/-- `&TensorStride * &TensorIndex`, `/repo/src/tensor/helper.rs` lines 101-106. -/
def mulIndex (b : Build) (s : TensorStride) (ix : TensorIndex) : Exec UInt32 := do
  let x ← mulU b s.i ix.i
  let y ← mulU b s.j ix.j
  let xy ← addU b x y
  let z ← mulU b s.k ix.k
  addU b xy z

/-- `TensorStride::new_from_shape`, `/repo/src/tensor/helper.rs` lines 109-115. -/
def new_from_shape (b : Build) (s : TensorShape) : Exec TensorStride := do
  let k ← mulU b s.di s.dj
  pure ⟨1, s.di, k⟩

end TensorStride

/-- `/repo/src/tensor.rs` lines 12-17. -/
structure Tensor (F : Type) where
  strides : TensorStride
  shape : TensorShape
  data : List F
  deriving DecidableEq, Repr

/-- `for (rs, (a, c)) in rs.iter_mut().zip(xs.iter().zip(ys.iter())) { *rs = f(a, c) }`:
elements past the shortest list keep their value. -/
def zipAssign2 {F : Type} (f : F → F → F) : List F → List F → List F → List F
  | _ :: rs, x :: xs, y :: ys => f x y :: zipAssign2 f rs xs ys
  | rs, _, _ => rs

/-- `for (r, x) in rs.iter_mut().zip(xs.iter()) { *r = f(*r, x) }`. -/
def zipUpdate {F G : Type} (f : F → G → F) : List F → List G → List F
  | r :: rs, x :: xs => f r x :: zipUpdate f rs xs
  | rs, _ => rs

namespace Tensor

variable {F : Type} [F32Ops F]

/-- `Tensor::new`, `/repo/src/tensor.rs` lines 36-43. -/
def new (b : Build) (shape : TensorShape) : Exec (Tensor F) := do
  let total ← shape.total_size b
  let strides ← TensorStride.new_from_shape b shape
  pure ⟨strides, shape, List.replicate total.toNat zero⟩

/-- `Tensor::empty`, `/repo/src/tensor.rs` lines 45-52. -/
def empty (b : Build) : Exec (Tensor F) := new b ⟨1, 1, 1⟩

/-- `Tensor::total_items`, `/repo/src/tensor.rs` lines 54-56. -/
def total_items (b : Build) (t : Tensor F) : Exec UInt32 := t.shape.total_size b

/-- `Tensor::get_data_index`, `/repo/src/tensor.rs` lines 74-76. -/
def get_data_index (b : Build) (t : Tensor F) (ix : TensorIndex) : Exec UInt32 :=
  t.strides.mulIndex b ix

/-- `Tensor::get_shape`, `/repo/src/tensor.rs` lines 78-80. -/
def get_shape (t : Tensor F) : TensorShape := t.shape

/-- `t.data[id as usize]` with `id = t.get_data_index(ix)`, the access pattern of the numeric loops. -/
def read (b : Build) (t : Tensor F) (ix : TensorIndex) : Exec F := do
  let id ← t.get_data_index b ix
  vget t.data id.toNat

/-- `t.data[id as usize] = v` with `id = t.get_data_index(ix)`. -/
def write (b : Build) (t : Tensor F) (ix : TensorIndex) (v : F) : Exec (Tensor F) := do
  let id ← t.get_data_index b ix
  let d ← vset t.data id.toNat v
  pure { t with data := d }

/-- `Tensor::set_item`, `/repo/src/tensor.rs` lines 58-63. -/
def set_item (b : Build) (t : Tensor F) (ix : TensorIndex) (v : F) : Exec (Tensor F) :=
  if t.shape.fits_index ix then t.write b ix v else pure t

/-- `Tensor::get_item`, `/repo/src/tensor.rs` lines 65-72. -/
def get_item (b : Build) (t : Tensor F) (ix : TensorIndex) : Exec F :=
  if t.shape.fits_index ix then t.read b ix else pure zero

/-- `PartialEq for Tensor`, `/repo/src/tensor.rs` lines 19-33 (`Vec<f32>` equality: same length
and elementwise `==`). -/
def eq (t u : Tensor F) : Bool :=
  if t.shape ≠ u.shape then false
  else if ¬ (t.data.length = u.data.length ∧ (t.data.zip u.data).all (fun p => feq p.1 p.2)) then false
  else true

/-- `ne`, `/repo/src/tensor.rs` lines 30-32. -/
def ne (t u : Tensor F) : Bool := !(t.eq u)

/-- `Tensor::get_norm`, `/repo/src/tensor.rs` lines 82-88. -/
def get_norm (t : Tensor F) : F := sqrt (t.data.foldl (fun total d => add total (square d)) zero)

/-- `fill_with_uniform` / `fill_with_gaussian`, `/repo/src/tensor.rs` lines 90-104.
Simplification: the random generator is the environment, `rng n` is the `n`-th sample drawn;
the distributions and their panics are in `Model/Random.lean`. -/
def fill_with_samples (rng : Nat → F) (t : Tensor F) : Tensor F :=
  { t with data := (List.range t.data.length).map rng }

/-- `Tensor::fill_with_value`, `/repo/src/tensor.rs` lines 106-110. -/
def fill_with_value (t : Tensor F) (v : F) : Tensor F :=
  { t with data := t.data.map (fun _ => v) }

/-- `Tensor::fill_with_vec`, `/repo/src/tensor.rs` lines 112-118. -/
def fill_with_vec (b : Build) (t : Tensor F) (data : List F) : Exec (Res × Tensor F) := do
  let total ← t.total_items b
  if data.length ≠ total.toNat then
    pure (.error "Vec data did not contain the correct number of items", t)
  else
    pure (.ok (), { t with data := data })

/-- `Tensor::add`, `/repo/src/tensor.rs` lines 132-141. -/
def add (t1 t2 result : Tensor F) : Tensor F :=
  if t1.shape = t2.shape ∧ t1.shape = result.shape then
    { result with data := zipAssign2 F32Ops.add result.data t1.data t2.data }
  else result

/-- `Tensor::add_to_self`, `/repo/src/tensor.rs` lines 142-151. -/
def add_to_self (t1 t2 : Tensor F) : Tensor F :=
  if t1.shape = t2.shape then { t1 with data := zipUpdate F32Ops.add t1.data t2.data } else t1

/-- `Tensor::add_from_index_list`, `/repo/src/tensor.rs` lines 153-170.
The second component is `tensor2` afterwards. -/
def add_from_index_list (b : Build) (t1 t2 : Tensor F) (index_list : List UInt32) :
    Exec (Res × Tensor F) := do
  let n1 ← t1.shape.total_size b
  if index_list.length > n1.toNat then
    pure (.error "Index list is too long", t2)
  else
    let t2_items ← t2.shape.total_size b
    forListE index_list.zipIdx t2 (fun (t2_index, t1_index) t2 =>
      if t2_index ≥ t2_items then
        pure (.error "Tensor 2 index out of bounds", t2)
      else do
        let x ← vget t1.data t1_index
        let y ← vget t2.data t2_index.toNat
        let d ← vset t2.data t2_index.toNat (F32Ops.add y x)
        pure (.ok (), { t2 with data := d }))

/-- `Tensor::scale`, `/repo/src/tensor.rs` lines 172-179. -/
def scale (t : Tensor F) (scalar : F) (result : Tensor F) : Tensor F :=
  if t.shape = result.shape then
    { result with data := zipUpdate (fun _ op => mul op scalar) result.data t.data }
  else result

/-- `Tensor::scale_self`, `/repo/src/tensor.rs` lines 181-186. -/
def scale_self (t : Tensor F) (scalar : F) : Tensor F :=
  { t with data := t.data.map (fun x => mul x scalar) }

/-- `Tensor::multiply_elementwise_self`, `/repo/src/tensor.rs` lines 187-196. -/
def multiply_elementwise_self (t1 t2 : Tensor F) : Tensor F :=
  if t1.shape = t2.shape then { t1 with data := zipUpdate mul t1.data t2.data } else t1

/-- `Tensor::multiply_elementwise`, `/repo/src/tensor.rs` lines 197-206. -/
def multiply_elementwise (t1 t2 result : Tensor F) : Tensor F :=
  if t1.shape = t2.shape ∧ t1.shape = result.shape then
    { result with data := zipAssign2 mul result.data t1.data t2.data }
  else result

/-- the loop of `/repo/src/tensor.rs` lines 215-224 over the zipped input and mask -/
def reluZip : List F → List F → List F × List F
  | x :: xs, _ :: ms =>
      let r := reluZip xs ms
      if gt x zero then (x :: r.1, one :: r.2) else (zero :: r.1, zero :: r.2)
      -- the old mask value is overwritten in both branches
  | xs, ms => (xs, ms)

/-- `Tensor::relu_self_and_store_mask`, `/repo/src/tensor.rs` lines 208-226.
Returns the result, the new input and the new mask. -/
def relu_self_and_store_mask (input mask : Tensor F) : Res × Tensor F × Tensor F :=
  if input.shape ≠ mask.shape then
    (.error "relu_self_and_store_mask: Input and mask must have the same shape", input, mask)
  else
    let r := reluZip input.data mask.data
    (.ok (), { input with data := r.1 }, { mask with data := r.2 })

/-- `Tensor::transpose_ij`, `/repo/src/tensor.rs` lines 228-255. -/
def transpose_ij (b : Build) (input output : Tensor F) : Exec (Res × Tensor F) :=
  let input_shape := input.shape
  let output_shape := output.shape
  if input_shape.dk ≠ output_shape.dk then
    pure (.error "Third dimension must match for transpose ij", output)
  else if input_shape.di ≠ output_shape.dj then
    pure (.error "i and j of input and output must match", output)
  else if input_shape.dj ≠ output_shape.di then
    pure (.error "j and i of input and output must match", output)
  else do
    let out ← forRange 0 output_shape.dk output fun k out =>
      forRange 0 output_shape.dj out fun j out =>
        forRange 0 output_shape.di out fun i out => do
          let v ← input.read b ⟨j, i, k⟩
          out.write b ⟨i, j, k⟩ v
    pure (.ok (), out)

/-- `Tensor::check_matrix_multiply_dimensions`, `/repo/src/tensor.rs` lines 373-387. -/
def check_matrix_multiply_dimensions (st1 st2 sr : TensorShape) : Bool :=
  if st1.dk ≠ st2.dk ∨ st1.dk ≠ sr.dk then false
  else if st1.dj ≠ st2.di ∨ st1.di ≠ sr.di ∨ st2.dj ≠ sr.dj then false
  else true

/-- `Tensor::matrix_multiply_transpose_first`, `/repo/src/tensor.rs` lines 257-296. -/
def matrix_multiply_transpose_first (b : Build) (t1 t2 result : Tensor F) :
    Exec (Res × Tensor F) :=
  let shape_1 := t1.shape
  let shape_2 := t2.shape
  let shape_r := result.shape
  if ¬ check_matrix_multiply_dimensions shape_1.transpose_ij shape_2 shape_r then
    pure (.error "Shapes do not match for matrix multiply transpose", result)
  else do
    let r ← forRange 0 shape_r.dk result fun k r =>
      forRange 0 shape_r.dj r fun j r =>
        forRange 0 shape_r.di r fun i r => do
          let acc ← forRange 0 shape_1.di (zero : F) fun ii acc => do
            let x ← t1.read b ⟨ii, i, k⟩
            let y ← t2.read b ⟨ii, j, k⟩
            pure (F32Ops.add acc (mul x y))
          r.write b ⟨i, j, k⟩ acc
    pure (.ok (), r)

/-- `Tensor::matrix_multiply_transpose_second`, `/repo/src/tensor.rs` lines 297-336. -/
def matrix_multiply_transpose_second (b : Build) (t1 t2 result : Tensor F) :
    Exec (Res × Tensor F) :=
  let shape_1 := t1.shape
  let shape_2 := t2.shape
  let shape_r := result.shape
  if ¬ check_matrix_multiply_dimensions shape_1 shape_2.transpose_ij shape_r then
    pure (.error "Shapes do not match for matrix multiply transpose", result)
  else do
    let r ← forRange 0 shape_r.dk result fun k r =>
      forRange 0 shape_r.dj r fun j r =>
        forRange 0 shape_r.di r fun i r => do
          let acc ← forRange 0 shape_1.dj (zero : F) fun ii acc => do
            let x ← t1.read b ⟨i, ii, k⟩
            let y ← t2.read b ⟨j, ii, k⟩
            pure (F32Ops.add acc (mul x y))
          r.write b ⟨i, j, k⟩ acc
    pure (.ok (), r)

/-- `Tensor::matrix_multiply`, `/repo/src/tensor.rs` lines 337-371. -/
def matrix_multiply (b : Build) (t1 t2 result : Tensor F) : Exec (Tensor F) :=
  let sr := result.shape
  let s1 := t1.shape
  if check_matrix_multiply_dimensions t1.shape t2.shape result.shape then
    forRange 0 sr.dk result fun k r =>
      forRange 0 sr.dj r fun j r =>
        forRange 0 sr.di r fun i r => do
          let acc ← forRange 0 s1.dj (zero : F) fun ii acc => do
            let x ← t1.read b ⟨i, ii, k⟩
            let y ← t2.read b ⟨ii, j, k⟩
            pure (F32Ops.add acc (mul x y))
          r.write b ⟨i, j, k⟩ acc
  else pure result

/-- `Tensor::matrix_multiply_add_relu`, `/repo/src/tensor.rs` lines 389-445.
(The code computes `bias_index` and `set_index` before reading the bias; the order of two
pure index computations is not observable.) -/
def matrix_multiply_add_relu (b : Build) (input weights bias result : Tensor F) :
    Exec (Tensor F) :=
  if check_matrix_multiply_dimensions weights.shape input.shape result.shape then
    if bias.shape = result.shape then
      let result_shape := result.shape
      let weights_shape := weights.shape
      forRange 0 result_shape.dk result fun k r =>
        forRange 0 result_shape.dj r fun j r =>
          forRange 0 result_shape.di r fun i r => do
            let acc ← forRange 0 weights_shape.dj (zero : F) fun ii acc => do
              let x ← weights.read b ⟨i, ii, k⟩
              let y ← input.read b ⟨ii, j, k⟩
              pure (F32Ops.add acc (mul x y))
            let bv ← bias.read b ⟨i, j, k⟩
            let acc := F32Ops.add acc bv
            let acc := fmax acc zero
            r.write b ⟨i, j, k⟩ acc
    else pure result
  else pure result

/-- `Tensor::does_kernel_stride_fit_image`, `/repo/src/tensor.rs` lines 447-460. -/
def does_kernel_stride_fit_image (b : Build) (image_shape kernel_shape : TensorShape)
    (stride : UInt32) : Exec Bool := do
  let d0 ← subU b image_shape.di kernel_shape.di
  let r0 ← remU d0 stride
  if r0 ≠ 0 then pure false
  else
    let d1 ← subU b image_shape.dj kernel_shape.dj
    let r1 ← remU d1 stride
    if r1 ≠ 0 then pure false
    else pure true

/-- `Tensor::get_convolution_dim_fit`, `/repo/src/tensor.rs` lines 462-470. -/
def get_convolution_dim_fit (b : Build) (image_shape kernel_shape : TensorShape)
    (stride : UInt32) : Exec (UInt32 × UInt32) := do
  let d0 ← subU b image_shape.di kernel_shape.di
  let q0 ← divU d0 stride
  let dim0_kernel_fits ← addU b q0 1
  let d1 ← subU b image_shape.dj kernel_shape.dj
  let q1 ← divU d1 stride
  let dim1_kernel_fits ← addU b q1 1
  pure (dim0_kernel_fits, dim1_kernel_fits)

/-- `Tensor::check_max_pooling_dimensions`, `/repo/src/tensor.rs` lines 474-507. -/
def check_max_pooling_dimensions (b : Build) (image_shape mask_shape : TensorShape)
    (stride : UInt32) (result_shape : TensorShape) : Exec Bool :=
  if result_shape.dk ≠ image_shape.dk then pure false
  else do
    let d0 ← subU b image_shape.di mask_shape.di
    let r0 ← remU d0 stride
    if r0 ≠ 0 then pure false
    else
      let d1 ← subU b image_shape.dj mask_shape.dj
      let r1 ← remU d1 stride
      if r1 ≠ 0 then pure false
      else
        let d0' ← subU b image_shape.di mask_shape.di
        let q0 ← divU d0' stride
        let dim0_mask_fits ← addU b q0 1
        let d1' ← subU b image_shape.dj mask_shape.dj
        let q1 ← divU d1' stride
        let dim1_mask_fits ← addU b q1 1
        if result_shape.di ≠ dim0_mask_fits then pure false
        else if result_shape.dj ≠ dim1_mask_fits then pure false
        else pure true

/-- `Tensor::max_pool`, `/repo/src/tensor.rs` lines 509-540. -/
def max_pool (b : Build) (image : Tensor F) (mask_shape : TensorShape) (stride : UInt32)
    (result : Tensor F) : Exec (Tensor F) := do
  let ok ← check_max_pooling_dimensions b image.shape mask_shape stride result.shape
  if ok then
    let result_shape := result.shape
    forRange 0 result_shape.dk result fun k r =>
      forRange 0 result_shape.dj r fun j r =>
        forRange 0 result_shape.di r fun i r => do
          let running_max ← forRange 0 mask_shape.dj (negInf : F) fun jj m =>
            forRange 0 mask_shape.di m fun ii m => do
              let i0 ← mulU b i stride
              let ix_i ← addU b i0 ii
              let j0 ← mulU b j stride
              let ix_j ← addU b j0 jj
              let current_item ← image.get_item b ⟨ix_i, ix_j, k⟩
              pure (if gt current_item m then current_item else m)
          r.set_item b ⟨i, j, k⟩ running_max
  else pure result

/-- `Tensor::max_pool_track_origin`, `/repo/src/tensor.rs` lines 541-590.
Returns the result, the new result tensor and the new origin list. -/
def max_pool_track_origin (b : Build) (image : Tensor F) (mask_shape : TensorShape)
    (stride : UInt32) (result : Tensor F) (origin_list : List UInt32) :
    Exec (Res × Tensor F × List UInt32) := do
  let ok ← check_max_pooling_dimensions b image.shape mask_shape stride result.shape
  if ¬ ok then
    pure (.error "Max pooling dimensions don't match", result, origin_list)
  else
    let result_shape := result.shape
    let total ← result_shape.total_size b
    if total.toNat ≠ origin_list.length then
      pure (.error "Origin tracker list size is not equal to number of output items",
        result, origin_list)
    else
      let (r, o) ← forRange 0 result_shape.dk (result, origin_list) fun k (r, o) =>
        forRange 0 result_shape.dj (r, o) fun j (r, o) =>
          forRange 0 result_shape.di (r, o) fun i (r, o) => do
            let output_index ← r.get_data_index b ⟨i, j, k⟩
            let (running_max, input_index) ←
              forRange 0 mask_shape.dj ((negInf : F), (0 : UInt32)) fun jj (m, oi) =>
                forRange 0 mask_shape.di (m, oi) fun ii (m, oi) => do
                  let i0 ← mulU b i stride
                  let ix_i ← addU b i0 ii
                  let j0 ← mulU b j stride
                  let ix_j ← addU b j0 jj
                  let current_item ← image.get_item b ⟨ix_i, ix_j, k⟩
                  if gt current_item m then do
                    let id ← image.get_data_index b ⟨ix_i, ix_j, k⟩
                    pure (current_item, id)
                  else pure (m, oi)
            let r ← r.set_item b ⟨i, j, k⟩ running_max
            let o ← vset o output_index.toNat input_index
            pure (r, o)
      pure (.ok (), r, o)

/-- `Tensor::softmax`, `/repo/src/tensor.rs` lines 592-604. -/
def softmax (input output : Tensor F) : Exec (Tensor F) :=
  if input.shape = output.shape then do
    let (out, sum) ← forNat input.data.length (output.data, (zero : F)) fun i (out, sum) => do
      let x ← vget input.data i
      let e := exp x
      let out ← vset out i e
      pure (out, F32Ops.add sum e)
    pure { output with data := out.map (fun f => div f sum) }
  else pure output

end Tensor

end Rusty
