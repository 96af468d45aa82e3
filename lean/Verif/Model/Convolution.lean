import Verif.Model.Tensor

/-!
# Model of `/repo/src/tensor/operations/convolution.rs` lines 4-304
-/

namespace Rusty

open F32Ops

variable {F : Type} [F32Ops F]

/-- `check_convolution_dimensions`,
`/repo/src/tensor/operations/convolution.rs` lines 4-44. -/
def check_convolution_dimensions (b : Build) (image_shape kernel_shape : TensorShape)
    (stride : UInt32) (result_shape : TensorShape) (result_channel : UInt32) : Exec Res :=
  if image_shape.dk ≠ kernel_shape.dk then
    pure (.error "Third dimension of image and shpe don't match")
  else do
    let d0 ← subU b image_shape.di kernel_shape.di
    let r0 ← remU d0 stride
    if r0 ≠ 0 then
      pure (.error "First dimensions of kernel and shape do not match with stride")
    else
      let d1 ← subU b image_shape.dj kernel_shape.dj
      let r1 ← remU d1 stride
      if r1 ≠ 0 then
        pure (.error "Secon dimensions of kernel and shape do not match with stride")
      else
        let d0' ← subU b image_shape.di kernel_shape.di
        let q0 ← divU d0' stride
        let dim0_kernel_fits ← addU b q0 1
        let d1' ← subU b image_shape.dj kernel_shape.dj
        let q1 ← divU d1' stride
        let dim1_kernel_fits ← addU b q1 1
        if result_shape.di ≠ dim0_kernel_fits then
          pure (.error "Results shape first dimension does not match with stride")
        else if result_shape.dj ≠ dim1_kernel_fits then
          pure (.error "Results shape second dimension does not match with stride")
        else if result_channel ≥ result_shape.dk then
          pure (.error "Results channel is too high")
        else
          pure (.ok ())

/-- The multiply-add loop over the kernel, `convolution.rs` lines 78-97 and 143-163
(identical in both convolutions). -/
def convolution_window (b : Build) (image kernel : Tensor F) (stride : UInt32)
    (i j : UInt32) : Exec F := do
  let image_start_i ← mulU b i stride
  let image_start_j ← mulU b j stride
  forRange 0 kernel.shape.dk (zero : F) fun kk acc =>
    forRange 0 kernel.shape.dj acc fun kj acc =>
      forRange 0 kernel.shape.di acc fun ki acc => do
        let kernel_id ← kernel.get_data_index b ⟨ki, kj, kk⟩
        let ii ← addU b image_start_i ki
        let jj ← addU b image_start_j kj
        let image_id ← image.get_data_index b ⟨ii, jj, kk⟩
        let x ← vget image.data image_id.toNat
        let y ← vget kernel.data kernel_id.toNat
        pure (F32Ops.add acc (mul x y))

/-- `convolution_bias`, `/repo/src/tensor/operations/convolution.rs` lines 46-109. -/
def convolution_bias (b : Build) (image kernel bias : Tensor F) (stride : UInt32)
    (result : Tensor F) (result_channel : UInt32) : Exec (Res × Tensor F) := do
  let chk ← check_convolution_dimensions b image.shape kernel.shape stride result.shape
    result_channel
  match chk with
  | .error e => pure (.error e, result)
  | .ok () =>
    let bias_shape := bias.shape
    if bias_shape.di > 1 ∨ bias_shape.dj > 1 ∨ bias_shape.dk > 1 then
      pure (.error "bias should be a 1x1x1 tensor", result)
    else
      let bias_value ← bias.get_item b ⟨0, 0, 0⟩
      let result_shape := result.shape
      let r ← forRange 0 result_shape.dj result fun j r =>
        forRange 0 result_shape.di r fun i r => do
          let acc ← convolution_window b image kernel stride i j
          r.write b ⟨i, j, result_channel⟩ (F32Ops.add acc bias_value)
      pure (.ok (), r)

/-- `convolution_bias_relu`, `/repo/src/tensor/operations/convolution.rs` lines 110-179. -/
def convolution_bias_relu (b : Build) (image kernel bias : Tensor F) (stride : UInt32)
    (result : Tensor F) (result_channel : UInt32) : Exec (Res × Tensor F) := do
  let chk ← check_convolution_dimensions b image.shape kernel.shape stride result.shape
    result_channel
  match chk with
  | .error e => pure (.error e, result)
  | .ok () =>
    let bias_shape := bias.shape
    if bias_shape.di > 1 ∨ bias_shape.dj > 1 ∨ bias_shape.dk > 1 then
      pure (.error "bias should be a 1x1x1 tensor", result)
    else
      let bias_value ← bias.get_item b ⟨0, 0, 0⟩
      let result_shape := result.shape
      let r ← forRange 0 result_shape.dj result fun j r =>
        forRange 0 result_shape.di r fun i r => do
          let acc ← convolution_window b image kernel stride i j
          let acc := F32Ops.add acc bias_value
          let acc := fmax acc zero
          r.write b ⟨i, j, result_channel⟩ acc
      pure (.ok (), r)

/-- `let i_start = (a as i32 - kd as i32) / stride as i32 + 1; i_start.max(0) as u32`,
`/repo/src/tensor/operations/convolution.rs` lines 218-220 (and 223-224 for the other axis). -/
def backprop_start (b : Build) (a kd stride : UInt32) : Exec UInt32 := do
  let d ← chkI32 b (asI32 a - asI32 kd)
  let q ← divI32 d (asI32 stride)
  let s ← chkI32 b (q + 1)
  pure (i32AsU32 (max s 0))

/-- `let mut i_stop = a / stride + 1; i_stop = i_stop.min(kernel_shape.di)`,
`/repo/src/tensor/operations/convolution.rs` lines 221-222 (and 225-226 for the other axis). -/
def backprop_stop (b : Build) (a kd stride : UInt32) : Exec UInt32 := do
  let q ← divU a stride
  let s ← addU b q 1
  pure (minU s kd)

/-- `convolution_backprop_outgoing_gradient`,
`/repo/src/tensor/operations/convolution.rs` lines 181-250. -/
def convolution_backprop_outgoing_gradient (b : Build) (incoming : Tensor F)
    (kernels : List (Tensor F)) (stride : UInt32) (outgoing : Tensor F) :
    Exec (Res × Tensor F) := do
  let (chk, _) ← forListE kernels.zipIdx () (fun (kernel, i) _ => do
    let r ← check_convolution_dimensions b outgoing.shape kernel.shape stride incoming.shape
      (UInt32.ofNat i)
    pure (r, ()))
  match chk with
  | .error e => pure (.error e, outgoing)
  | .ok () =>
    let inc_shape := incoming.shape
    if UInt32.ofNat kernels.length ≠ inc_shape.dk then
      pure (.error "Number of kernels does not match output dimension dk", outgoing)
    else
      let out_shape := outgoing.shape
      let r ← forRange 0 out_shape.dk outgoing fun c r =>
        forRange 0 out_shape.dj r fun bb r =>
          forRange 0 out_shape.di r fun a r => do
            let acc ← forRange 0 inc_shape.dk (zero : F) fun k acc => do
              let kernel ← vget kernels k.toNat
              let i_start ← backprop_start b a kernel.shape.di stride
              let i_stop ← backprop_stop b a kernel.shape.di stride
              let j_start ← backprop_start b bb kernel.shape.dj stride
              let j_stop ← backprop_stop b bb kernel.shape.dj stride
              forRange j_start j_stop acc fun j acc =>
                forRange i_start i_stop acc fun i acc => do
                  let incoming_gradient_id ← incoming.get_data_index b ⟨i, j, k⟩
                  let si ← mulU b stride i
                  let ki ← subU b a si
                  let sj ← mulU b stride j
                  let kj ← subU b bb sj
                  let kernel_id ← kernel.get_data_index b ⟨ki, kj, c⟩
                  let x ← vget kernel.data kernel_id.toNat
                  let y ← vget incoming.data incoming_gradient_id.toNat
                  pure (F32Ops.add acc (mul x y))
            r.write b ⟨a, bb, c⟩ acc
      pure (.ok (), r)

/-- `convolution_backprop_kernel`,
`/repo/src/tensor/operations/convolution.rs` lines 252-304. -/
def convolution_backprop_kernel (b : Build) (incoming image : Tensor F) (stride : UInt32)
    (kernel_channel : UInt32) (kernel_gradient : Tensor F) : Exec (Res × Tensor F) := do
  let chk ← check_convolution_dimensions b image.shape kernel_gradient.shape stride
    incoming.shape kernel_channel
  match chk with
  | .error e => pure (.error e, kernel_gradient)
  | .ok () =>
    let result_shape := incoming.shape
    let kernel_shape := kernel_gradient.shape
    let r ← forRange 0 kernel_shape.dk kernel_gradient fun n r =>
      forRange 0 kernel_shape.dj r fun m r =>
        forRange 0 kernel_shape.di r fun l r => do
          let acc ← forRange 0 result_shape.dk (zero : F) fun k acc =>
            forRange 0 result_shape.dj acc fun j acc =>
              forRange 0 result_shape.di acc fun i acc => do
                let incoming_gradient_id ← incoming.get_data_index b ⟨i, j, k⟩
                let si ← mulU b i stride
                let li ← addU b l si
                let sj ← mulU b j stride
                let mj ← addU b m sj
                let image_id ← image.get_data_index b ⟨li, mj, n⟩
                let x ← vget image.data image_id.toNat
                let y ← vget incoming.data incoming_gradient_id.toNat
                pure (F32Ops.add acc (mul x y))
          r.write b ⟨l, m, n⟩ acc
    pure (.ok (), r)

end Rusty
