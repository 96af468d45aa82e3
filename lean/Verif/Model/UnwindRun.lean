import Verif.Model.Unwind

/-!
# What a panic in the middle of a calculation leaves behind

The numeric functions, `forward`, `infer` and `backward` once more, write by write, with the state in which a
panic leaves the tensors they write to.  `Lemmas/UnwindRun.lean` shows that the results are those of the plain
model.
-/

namespace Rusty

open F32Ops

namespace Unwind

variable {σ τ ι α : Type}

/-- a loop with a local variable -/
def loop : List ι → α → (ι → α → Unwind σ α) → Unwind σ α
  | [], a, _ => pure a
  | i :: is, a, body => do
    let a ← body i a
    loop is a body

/-- `for i in lo..hi` -/
def for_u (lo hi : UInt32) (body : UInt32 → Unwind σ Unit) : Unwind σ Unit :=
  loop ((List.range' lo.toNat (hi.toNat - lo.toNat)).map UInt32.ofNat) () fun i _ => body i

/-- a loop whose body may leave the function through `?` -/
def try_u : List ι → (ι → Unwind σ Res) → Unwind σ Res
  | [], _ => pure (.ok ())
  | i :: is, body => do
    match ← body i with
    | .error e => pure (.error e)
    | .ok () => try_u is body

/-- a call that gets a part of the object as `&mut` -/
def zoom (get : σ → τ) (set : τ → σ → σ) (m : Unwind τ α) : Unwind σ α := fun s =>
  ((m (get s)).1, set (m (get s)).2 s)

/-- a call that gets element `i` of a vector of the object as `&mut` -/
def zoomAt (get : σ → List τ) (set : List τ → σ → σ) (i : Nat) (m : Unwind τ α) : Unwind σ α := fun s =>
  match (get s)[i]? with
  | none => (.error .oob, s)
  | some x => ((m x).1, set ((get s).set i (m x).2) s)

/-- a call that gets the second of two objects as `&mut` -/
def onOut (m : Unwind τ α) : Unwind (σ × τ) α := zoom (fun s => s.2) (fun t s => (s.1, t)) m

end Unwind

open Unwind

variable {F : Type} [F32Ops F]

namespace Tensor

/-- `t.data[id as usize] = v` with `id = t.get_data_index(ix)`. -/
def write_u (b : Build) (ix : TensorIndex) (v : F) : Unwind (Tensor F) Unit := do
  let id ← eval fun t => t.get_data_index b ix
  let d ← eval fun t => vset t.data id.toNat v
  assign fun t => { t with data := d }

/-- `Tensor::set_item`, `/repo/src/tensor.rs` lines 58-63. -/
def set_item_u (b : Build) (ix : TensorIndex) (v : F) : Unwind (Tensor F) Unit := do
  if ← eval fun t => .ok (t.shape.fits_index ix) then write_u b ix v else pure ()

/-- three nested loops that compute a value and write it: the shape of most functions of
`/repo/src/tensor.rs` -/
def write_all_u (b : Build) (s : TensorShape) (value : UInt32 → UInt32 → UInt32 → Exec F) :
    Unwind (Tensor F) Unit :=
  for_u 0 s.dk fun k => for_u 0 s.dj fun j => for_u 0 s.di fun i => do
    let v ← eval fun _ => value i j k
    write_u b ⟨i, j, k⟩ v

/-- `Tensor::add_from_index_list`, `/repo/src/tensor.rs` lines 153-170, on `tensor2`. -/
def add_from_index_list_u (b : Build) (t1 : Tensor F) (index_list : List UInt32) : Unwind (Tensor F) Res := do
  let n1 ← eval fun _ => t1.shape.total_size b
  if index_list.length > n1.toNat then pure (.error "Index list is too long")
  else
    let t2_items ← eval fun t2 => t2.shape.total_size b
    try_u index_list.zipIdx fun e => do
      if e.1 ≥ t2_items then pure (.error "Tensor 2 index out of bounds")
      else
        let x ← eval fun _ => vget t1.data e.2
        let y ← eval fun t2 => vget t2.data e.1.toNat
        let d ← eval fun t2 => vset t2.data e.1.toNat (F32Ops.add y x)
        assign fun t2 => { t2 with data := d }
        pure (.ok ())

/-- `Tensor::transpose_ij`, `/repo/src/tensor.rs` lines 228-255, on `output`. -/
def transpose_ij_u (b : Build) (input : Tensor F) : Unwind (Tensor F) Res := do
  let output_shape ← eval fun o => .ok o.shape
  if input.shape.dk ≠ output_shape.dk then pure (.error "Third dimension must match for transpose ij")
  else if input.shape.di ≠ output_shape.dj then pure (.error "i and j of input and output must match")
  else if input.shape.dj ≠ output_shape.di then pure (.error "j and i of input and output must match")
  else
    write_all_u b output_shape fun i j k => input.read b ⟨j, i, k⟩
    pure (.ok ())

/-- `Tensor::matrix_multiply_transpose_first`, `/repo/src/tensor.rs` lines 257-296, on `result`. -/
def matrix_multiply_transpose_first_u (b : Build) (t1 t2 : Tensor F) : Unwind (Tensor F) Res := do
  let shape_r ← eval fun r => .ok r.shape
  if ¬ check_matrix_multiply_dimensions t1.shape.transpose_ij t2.shape shape_r then
    pure (.error "Shapes do not match for matrix multiply transpose")
  else
    write_all_u b shape_r fun i j k =>
      forRange 0 t1.shape.di (zero : F) fun ii acc => do
        let x ← t1.read b ⟨ii, i, k⟩
        let y ← t2.read b ⟨ii, j, k⟩
        pure (F32Ops.add acc (mul x y))
    pure (.ok ())

/-- `Tensor::matrix_multiply_transpose_second`, `/repo/src/tensor.rs` lines 297-336, on `result`. -/
def matrix_multiply_transpose_second_u (b : Build) (t1 t2 : Tensor F) : Unwind (Tensor F) Res := do
  let shape_r ← eval fun r => .ok r.shape
  if ¬ check_matrix_multiply_dimensions t1.shape t2.shape.transpose_ij shape_r then
    pure (.error "Shapes do not match for matrix multiply transpose")
  else
    write_all_u b shape_r fun i j k =>
      forRange 0 t1.shape.dj (zero : F) fun ii acc => do
        let x ← t1.read b ⟨i, ii, k⟩
        let y ← t2.read b ⟨j, ii, k⟩
        pure (F32Ops.add acc (mul x y))
    pure (.ok ())

/-- `Tensor::matrix_multiply`, `/repo/src/tensor.rs` lines 337-371, on `result`. -/
def matrix_multiply_u (b : Build) (t1 t2 : Tensor F) : Unwind (Tensor F) Unit := do
  let sr ← eval fun r => .ok r.shape
  if check_matrix_multiply_dimensions t1.shape t2.shape sr then
    write_all_u b sr fun i j k =>
      forRange 0 t1.shape.dj (zero : F) fun ii acc => do
        let x ← t1.read b ⟨i, ii, k⟩
        let y ← t2.read b ⟨ii, j, k⟩
        pure (F32Ops.add acc (mul x y))
  else pure ()

/-- `Tensor::matrix_multiply_add_relu`, `/repo/src/tensor.rs` lines 389-445, on `result`. -/
def matrix_multiply_add_relu_u (b : Build) (input weights bias : Tensor F) : Unwind (Tensor F) Unit := do
  let sr ← eval fun r => .ok r.shape
  if check_matrix_multiply_dimensions weights.shape input.shape sr then
    if bias.shape = sr then
      write_all_u b sr fun i j k => do
        let acc ← forRange 0 weights.shape.dj (zero : F) fun ii acc => do
          let x ← weights.read b ⟨i, ii, k⟩
          let y ← input.read b ⟨ii, j, k⟩
          pure (F32Ops.add acc (mul x y))
        let bv ← bias.read b ⟨i, j, k⟩
        pure (fmax (F32Ops.add acc bv) zero)
    else pure ()
  else pure ()

/-- `Tensor::max_pool`, `/repo/src/tensor.rs` lines 509-540, on `result`. -/
def max_pool_u (b : Build) (image : Tensor F) (mask_shape : TensorShape) (stride : UInt32) :
    Unwind (Tensor F) Unit := do
  let result_shape ← eval fun r => .ok r.shape
  if ← eval fun _ => check_max_pooling_dimensions b image.shape mask_shape stride result_shape then
    for_u 0 result_shape.dk fun k => for_u 0 result_shape.dj fun j => for_u 0 result_shape.di fun i => do
      let running_max ← eval fun _ =>
        forRange 0 mask_shape.dj (negInf : F) fun jj m =>
          forRange 0 mask_shape.di m fun ii m => do
            let i0 ← mulU b i stride
            let ix_i ← addU b i0 ii
            let j0 ← mulU b j stride
            let ix_j ← addU b j0 jj
            let current_item ← image.get_item b ⟨ix_i, ix_j, k⟩
            pure (if gt current_item m then current_item else m)
      set_item_u b ⟨i, j, k⟩ running_max
  else pure ()

/-- `Tensor::max_pool_track_origin`, `/repo/src/tensor.rs` lines 541-590, on `result` and the origin list. -/
def max_pool_track_origin_u (b : Build) (image : Tensor F) (mask_shape : TensorShape) (stride : UInt32) :
    Unwind (Tensor F × List UInt32) Res := do
  let result_shape ← eval fun s => .ok s.1.shape
  if ¬ (← eval fun _ => check_max_pooling_dimensions b image.shape mask_shape stride result_shape) then
    pure (.error "Max pooling dimensions don't match")
  else
    let total ← eval fun _ => result_shape.total_size b
    if total.toNat ≠ (← eval fun s => .ok s.2.length) then
      pure (.error "Origin tracker list size is not equal to number of output items")
    else
      for_u 0 result_shape.dk fun k => for_u 0 result_shape.dj fun j => for_u 0 result_shape.di fun i => do
        let output_index ← eval fun s => s.1.get_data_index b ⟨i, j, k⟩
        let best ← eval fun _ =>
          forRange 0 mask_shape.dj ((negInf : F), (0 : UInt32)) fun jj (m, oi) =>
            forRange 0 mask_shape.di (m, oi) fun ii (m, oi) => do
              let i0 ← mulU b i stride
              let ix_i ← addU b i0 ii
              let j0 ← mulU b j stride
              let ix_j ← addU b j0 jj
              let current_item ← image.get_item b ⟨ix_i, ix_j, k⟩
              if gt current_item m then do
                let id ← image.get_data_index b ⟨ix_i, ix_j, k⟩
                pure (current_item, id)
              else pure (m, oi)
        zoom (fun s => s.1) (fun t s => (t, s.2)) (set_item_u b ⟨i, j, k⟩ best.1)
        let o ← eval fun s => vset s.2 output_index.toNat best.2
        assign fun s => (s.1, o)
      pure (.ok ())

/-- `Tensor::softmax`, `/repo/src/tensor.rs` lines 592-604, on `output`. -/
def softmax_u (input : Tensor F) : Unwind (Tensor F) Unit := do
  if input.shape = (← eval fun o => .ok o.shape) then
    let sum ← loop (List.range input.data.length) (zero : F) fun i sum => do
      let x ← eval fun _ => vget input.data i
      let d ← eval fun o => vset o.data i (exp x)
      assign fun o => { o with data := d }
      pure (F32Ops.add sum (exp x))
    assign fun o => { o with data := o.data.map fun f => div f sum }
  else pure ()

end Tensor

open Tensor

/-- `convolution_bias`, `/repo/src/tensor/operations/convolution.rs` lines 46-109, on `result`. -/
def convolution_bias_u (b : Build) (image kernel bias : Tensor F) (stride result_channel : UInt32) :
    Unwind (Tensor F) Res := do
  let result_shape ← eval fun r => .ok r.shape
  match ← eval fun _ => check_convolution_dimensions b image.shape kernel.shape stride result_shape
      result_channel with
  | .error e => pure (.error e)
  | .ok () =>
    if bias.shape.di > 1 ∨ bias.shape.dj > 1 ∨ bias.shape.dk > 1 then
      pure (.error "bias should be a 1x1x1 tensor")
    else
      let bias_value ← eval fun _ => bias.get_item b ⟨0, 0, 0⟩
      for_u 0 result_shape.dj fun j => for_u 0 result_shape.di fun i => do
        let acc ← eval fun _ => convolution_window b image kernel stride i j
        write_u b ⟨i, j, result_channel⟩ (F32Ops.add acc bias_value)
      pure (.ok ())

/-- `convolution_bias_relu`, `/repo/src/tensor/operations/convolution.rs` lines 110-179, on `result`. -/
def convolution_bias_relu_u (b : Build) (image kernel bias : Tensor F) (stride result_channel : UInt32) :
    Unwind (Tensor F) Res := do
  let result_shape ← eval fun r => .ok r.shape
  match ← eval fun _ => check_convolution_dimensions b image.shape kernel.shape stride result_shape
      result_channel with
  | .error e => pure (.error e)
  | .ok () =>
    if bias.shape.di > 1 ∨ bias.shape.dj > 1 ∨ bias.shape.dk > 1 then
      pure (.error "bias should be a 1x1x1 tensor")
    else
      let bias_value ← eval fun _ => bias.get_item b ⟨0, 0, 0⟩
      for_u 0 result_shape.dj fun j => for_u 0 result_shape.di fun i => do
        let acc ← eval fun _ => convolution_window b image kernel stride i j
        write_u b ⟨i, j, result_channel⟩ (fmax (F32Ops.add acc bias_value) zero)
      pure (.ok ())

/-- `convolution_backprop_outgoing_gradient`, `/repo/src/tensor/operations/convolution.rs` lines 181-250, on
`outgoing`. -/
def convolution_backprop_outgoing_gradient_u (b : Build) (incoming : Tensor F) (kernels : List (Tensor F))
    (stride : UInt32) : Unwind (Tensor F) Res := do
  let out_shape ← eval fun o => .ok o.shape
  let chk ← eval fun _ => forListE kernels.zipIdx () (fun (kernel, i) _ => do
    let r ← check_convolution_dimensions b out_shape kernel.shape stride incoming.shape (UInt32.ofNat i)
    pure (r, ()))
  match chk.1 with
  | .error e => pure (.error e)
  | .ok () =>
    let inc_shape := incoming.shape
    if UInt32.ofNat kernels.length ≠ inc_shape.dk then
      pure (.error "Number of kernels does not match output dimension dk")
    else
      write_all_u b out_shape fun a bb c =>
        forRange 0 inc_shape.dk (zero : F) fun k acc => do
          let kernel ← vget kernels k.toNat
          let i_start ← backprop_start b a kernel.shape.di stride
          let i_stop ← backprop_stop b a kernel.shape.di stride
          let j_start ← backprop_start b bb kernel.shape.dj stride
          let j_stop ← backprop_stop b bb kernel.shape.dj stride
          forRange j_start j_stop acc fun j acc =>
            forRange i_start i_stop acc fun i acc => do
              let incoming_gradient_id ← incoming.get_data_index b ⟨i, j, k⟩
              let si ← mulU b stride i
              let ki ← subU b a si
              let sj ← mulU b stride j
              let kj ← subU b bb sj
              let kernel_id ← kernel.get_data_index b ⟨ki, kj, c⟩
              let x ← vget kernel.data kernel_id.toNat
              let y ← vget incoming.data incoming_gradient_id.toNat
              pure (F32Ops.add acc (mul x y))
      pure (.ok ())

/-- `convolution_backprop_kernel`, `/repo/src/tensor/operations/convolution.rs` lines 252-304, on
`kernel_gradient`. -/
def convolution_backprop_kernel_u (b : Build) (incoming image : Tensor F) (stride kernel_channel : UInt32) :
    Unwind (Tensor F) Res := do
  let kernel_shape ← eval fun g => .ok g.shape
  match ← eval fun _ => check_convolution_dimensions b image.shape kernel_shape stride incoming.shape
      kernel_channel with
  | .error e => pure (.error e)
  | .ok () =>
    let result_shape := incoming.shape
    write_all_u b kernel_shape fun l m n =>
      forRange 0 result_shape.dk (zero : F) fun k acc =>
        forRange 0 result_shape.dj acc fun j acc =>
          forRange 0 result_shape.di acc fun i acc => do
            let incoming_gradient_id ← incoming.get_data_index b ⟨i, j, k⟩
            let si ← mulU b i stride
            let li ← addU b l si
            let sj ← mulU b j stride
            let mj ← addU b m sj
            let image_id ← image.get_data_index b ⟨li, mj, n⟩
            let x ← vget image.data image_id.toNat
            let y ← vget incoming.data incoming_gradient_id.toNat
            pure (F32Ops.add acc (mul x y))
    pure (.ok ())

/-! ## Layers: the state is the layer and the tensor written to -/

/-- `Tensor::relu_self_and_store_mask(output, &mut self.relu_mask)`, which does not panic -/
def relu_u {L : Type} (mask : L → Tensor F) (set : Tensor F → L → L) : Unwind (L × Tensor F) Res := do
  let p ← eval fun s => .ok (relu_self_and_store_mask s.2 (mask s.1))
  assign fun s => (set p.2.2 s.1, p.2.1)
  pure p.1

namespace FullyConnectedLayer

/-- `forward`, `/repo/src/layer/fully_connected.rs` lines 149-167. -/
def forward_u (b : Build) (input : Tensor F) : Unwind (FullyConnectedLayer F × Tensor F) Res := do
  let l ← eval fun s => .ok s.1
  match l.run_state with
  | .Inference =>
    onOut (matrix_multiply_add_relu_u b input l.weights l.bias)
    pure (.ok ())
  | .Training =>
    onOut (matrix_multiply_u b l.weights input)
    assign fun s => (s.1, add_to_self s.2 s.1.bias)
    relu_u (fun l => l.relu_mask) fun t l => { l with relu_mask := t }

/-- `backward`, `/repo/src/layer/fully_connected.rs` lines 169-202. -/
def backward_u (b : Build) (input _output incoming : Tensor F) :
    Unwind (FullyConnectedLayer F × Tensor F) Res := do
  if (← eval fun s => .ok s.1.run_state) = .Training then
    assign fun s => ({ s.1 with relu_mask := multiply_elementwise_self s.1.relu_mask incoming }, s.2)
    assign fun s => ({ s.1 with bias_gradients := add_to_self s.1.bias_gradients s.1.relu_mask }, s.2)
    let mask ← eval fun s => .ok s.1.relu_mask
    match ← zoom (fun s => s.1.weights_gradients_intermediate)
        (fun t s => ({ s.1 with weights_gradients_intermediate := t }, s.2))
        (matrix_multiply_transpose_second_u b mask input) with
    | .error e => pure (.error e)
    | .ok () =>
      assign fun s =>
        ({ s.1 with weights_gradients := add_to_self s.1.weights_gradients s.1.weights_gradients_intermediate }, s.2)
      let l ← eval fun s => .ok s.1
      onOut (matrix_multiply_transpose_first_u b l.weights l.relu_mask)
  else pure (.error "Can only do backprop in training mode")

end FullyConnectedLayer

namespace MaxPoolLayer

/-- `forward`, `/repo/src/layer/max_pool.rs` lines 149-165. -/
def forward_u (b : Build) (input : Tensor F) : Unwind (MaxPoolLayer × Tensor F) Res := do
  let l ← eval fun s => .ok s.1
  match l.run_state with
  | .Inference =>
    onOut (max_pool_u b input l.mask_shape l.stride)
    pure (.ok ())
  | .Training =>
    zoom (fun s => (s.2, s.1.max_pool_origin)) (fun t s => ({ s.1 with max_pool_origin := t.2 }, t.1))
      (max_pool_track_origin_u b input l.mask_shape l.stride)

/-- `backward`, `/repo/src/layer/max_pool.rs` lines 167-179. -/
def backward_u (b : Build) (_input _output incoming : Tensor F) : Unwind (MaxPoolLayer × Tensor F) Res := do
  assign fun s => (s.1, s.2.fill_with_value zero)
  let l ← eval fun s => .ok s.1
  onOut (add_from_index_list_u b incoming l.max_pool_origin)

end MaxPoolLayer

namespace SoftmaxLayer

/-- `forward`, `/repo/src/layer/softmax.rs` lines 106-109. -/
def forward_u (_b : Build) (input : Tensor F) : Unwind (SoftmaxLayer F × Tensor F) Res := do
  onOut (softmax_u input)
  pure (.ok ())

/-- `backward`, `/repo/src/layer/softmax.rs` lines 110-142. -/
def backward_u (b : Build) (_input output incoming : Tensor F) : Unwind (SoftmaxLayer F × Tensor F) Res := do
  if (← eval fun s => .ok s.1.run_state) = .Inference then
    pure (.error "Can only do backprop in training mode")
  else
    match ← zoom (fun s => s.1.intermediate1) (fun t s => ({ s.1 with intermediate1 := t }, s.2))
        (matrix_multiply_transpose_first_u b output incoming) with
    | .error e => pure (.error e)
    | .ok () =>
      assign fun s => ({ s.1 with intermediate1 := scale_self s.1.intermediate1 negOne }, s.2)
      let i1 ← eval fun s => .ok s.1.intermediate1
      zoom (fun s => s.1.intermediate2) (fun t s => ({ s.1 with intermediate2 := t }, s.2))
        (matrix_multiply_u b output i1)
      assign fun s => (s.1, multiply_elementwise output incoming s.2)
      assign fun s => (s.1, add_to_self s.2 s.1.intermediate2)
      pure (.ok ())

end SoftmaxLayer

namespace ConvolutionalLayer

/-- `forward`, `/repo/src/layer/convolutional.rs` lines 196-228. -/
def forward_u (b : Build) (input : Tensor F) : Unwind (ConvolutionalLayer F × Tensor F) Res := do
  let l ← eval fun s => .ok s.1
  match l.run_state with
  | .Inference =>
    onOut (try_u (List.range l.output_shape.dk.toNat) fun i => do
      let kernel ← eval fun _ => vget l.kernels i
      let bias ← eval fun _ => vget l.biases i
      convolution_bias_relu_u b input kernel bias l.stride (UInt32.ofNat i))
  | .Training =>
    match ← onOut (try_u (List.range l.output_shape.dk.toNat) fun i => do
        let kernel ← eval fun _ => vget l.kernels i
        let bias ← eval fun _ => vget l.biases i
        convolution_bias_u b input kernel bias l.stride (UInt32.ofNat i)) with
    | .error e => pure (.error e)
    | .ok () => relu_u (fun l => l.relu_mask) fun t l => { l with relu_mask := t }

/-- `backward`, `/repo/src/layer/convolutional.rs` lines 229-264. -/
def backward_u (b : Build) (input _output incoming : Tensor F) :
    Unwind (ConvolutionalLayer F × Tensor F) Res := do
  assign fun s => ({ s.1 with relu_mask := multiply_elementwise_self s.1.relu_mask incoming }, s.2)
  let l ← eval fun s => .ok s.1
  match ← zoom (fun s => s.1.kernel_gradients) (fun t s => ({ s.1 with kernel_gradients := t }, s.2))
      (try_u (List.range l.kernels.length) fun i =>
        zoomAt id (fun t _ => t) i (convolution_backprop_kernel_u b incoming input l.stride (UInt32.ofNat i))) with
  | .error e => pure (.error e)
  | .ok () => onOut (convolution_backprop_outgoing_gradient_u b incoming l.kernels l.stride)

end ConvolutionalLayer

namespace AnyLayer

/-- rewrap the layer a method leaves -/
def rewrapRun {L : Type} (w : L → AnyLayer F) (r : Except PanicKind Res × L × Tensor F) :
    Except PanicKind Res × AnyLayer F × Tensor F := (r.1, w r.2.1, r.2.2)

/-- `Layer::forward`, `/repo/src/layer.rs` line 53. -/
def forward_u (b : Build) (input : Tensor F) : Unwind (AnyLayer F × Tensor F) Res
  | (.conv l, out) => rewrapRun .conv (ConvolutionalLayer.forward_u b input (l, out))
  | (.fc l, out) => rewrapRun .fc (FullyConnectedLayer.forward_u b input (l, out))
  | (.mp l, out) => rewrapRun .mp (MaxPoolLayer.forward_u b input (l, out))
  | (.sm l, out) => rewrapRun .sm (SoftmaxLayer.forward_u b input (l, out))

/-- `Layer::backward`, `/repo/src/layer.rs` lines 55-61. -/
def backward_u (b : Build) (input output incoming : Tensor F) : Unwind (AnyLayer F × Tensor F) Res
  | (.conv l, og) => rewrapRun .conv (ConvolutionalLayer.backward_u b input output incoming (l, og))
  | (.fc l, og) => rewrapRun .fc (FullyConnectedLayer.backward_u b input output incoming (l, og))
  | (.mp l, og) => rewrapRun .mp (MaxPoolLayer.backward_u b input output incoming (l, og))
  | (.sm l, og) => rewrapRun .sm (SoftmaxLayer.backward_u b input output incoming (l, og))

end AnyLayer

namespace Network

/-- one iteration of the loop of `infer`, `/repo/src/network.rs` lines 222-236 -/
def infer_step_u (b : Build) (i : Nat) : Unwind (Network F (AnyLayer F)) Res := fun n =>
  if n.intermediate_states.length < i + 1 then (.error .oob, n)
  else match n.layers[i]? with
    | none => (.error .oob, n)
    | some layer => match n.intermediate_states[i]?, n.intermediate_states[i + 1]? with
      | some input, some output =>
        let r := AnyLayer.forward_u b input (layer, output)
        (r.1, { n with layers := n.layers.set i r.2.1
                       intermediate_states := n.intermediate_states.set (i + 1) r.2.2 })
      | _, _ => (.error .unwrap, n)

/-- `infer`, `/repo/src/network.rs` lines 206-239. -/
def infer_u (b : Build) (input : Tensor F) : Unwind (Network F (AnyLayer F)) Res := do
  if input.shape ≠ (← eval fun n => .ok n.input_shape) then pure (.error "Input shape not as expected")
  else if (← eval fun n => .ok n.intermediate_states.length) < 2 then
    pure (.error "Network does not contain any layers")
  else
    let states ← eval fun n => vset n.intermediate_states 0 input
    assign fun n => { n with intermediate_states := states }
    try_u (List.range (← eval fun n => .ok n.layers.length)) fun i => infer_step_u b i

/-- one iteration of the loop of `backward`, `/repo/src/network.rs` lines 264-280 -/
def backward_step_u (b : Build) (i : Nat) : Unwind (Network F (AnyLayer F)) Res := fun n =>
  if n.intermediate_gradients.length < i + 1 then (.error .oob, n)
  else match n.layers[i]? with
    | none => (.error .oob, n)
    | some layer => match n.intermediate_gradients[i + 1]?, n.intermediate_gradients[i]? with
      | some incoming, some outgoing =>
        match n.intermediate_states[i]?, n.intermediate_states[i + 1]? with
        | some input, some output =>
          let r := AnyLayer.backward_u b input output incoming (layer, outgoing)
          (r.1, { n with layers := n.layers.set i r.2.1
                         intermediate_gradients := n.intermediate_gradients.set i r.2.2 })
        | _, _ => (.error .oob, n)
      | _, _ => (.error .unwrap, n)

/-- `backward`, `/repo/src/network.rs` lines 241-283. -/
def backward_u (b : Build) (incoming_loss_gradient : Tensor F) : Unwind (Network F (AnyLayer F)) Res := do
  if incoming_loss_gradient.shape ≠ (← eval fun n => .ok n.output_shape) then
    pure (.error "Incoming loss gradient shape not as expected")
  else if (← eval fun n => .ok n.layers.length) < 1 then pure (.error "Network does not contain any layers")
  else if (← eval fun n => .ok n.run_state) ≠ .Training then
    pure (.error "Can only propagate backwards in training mode")
  else
    let grads ← eval fun n => vset n.intermediate_gradients n.layers.length incoming_loss_gradient
    assign fun n => { n with intermediate_gradients := grads }
    try_u (List.range (← eval fun n => .ok n.layers.length)).reverse fun i => backward_step_u b i

end Network

end Rusty
