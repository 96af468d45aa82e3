import Verif.Model.Convolution
import Verif.Model.Bincode

/-!
# Model of `/repo/src/layer.rs` and `/repo/src/layer/*.rs`
-/

namespace Rusty

open F32Ops

/-- `/repo/src/network.rs` lines 14-18. -/
inductive NetworkRunState
  | Inference
  | Training
  deriving DecidableEq, Repr

/-! ## Serialisation keys -/

/-- `/repo/src/layer/convolutional.rs` lines 9-16. -/
inductive ConvKey | Kernels | Biases | InputShape | Stride | Name
  deriving DecidableEq, Repr

/-- `/repo/src/layer/fully_connected.rs` lines 9-14. -/
inductive FCKey | Weights | Bias | Name
  deriving DecidableEq, Repr

/-- `/repo/src/layer/max_pool.rs` lines 8-14. -/
inductive MPKey | InputShape | MaskShape | Stride | Name
  deriving DecidableEq, Repr

/-- `/repo/src/layer/softmax.rs` lines 13-17. -/
inductive SMKey | Shape | Name
  deriving DecidableEq, Repr

/-- derived variant indices of `ConvolutionalSerialKeys`, `/repo/src/layer/convolutional.rs` lines 9-16 -/
instance : SerKey ConvKey where
  idx | .Kernels => 0 | .Biases => 1 | .InputShape => 2 | .Stride => 3 | .Name => 4
  ofIdx | 0 => some .Kernels | 1 => some .Biases | 2 => some .InputShape | 3 => some .Stride
        | 4 => some .Name | _ => none

/-- derived variant indices of `FullyConnectedSerialKeys`, `/repo/src/layer/fully_connected.rs` lines 9-14 -/
instance : SerKey FCKey where
  idx | .Weights => 0 | .Bias => 1 | .Name => 2
  ofIdx | 0 => some .Weights | 1 => some .Bias | 2 => some .Name | _ => none

/-- derived variant indices of `MaxPoolSerialKeys`, `/repo/src/layer/max_pool.rs` lines 8-14 -/
instance : SerKey MPKey where
  idx | .InputShape => 0 | .MaskShape => 1 | .Stride => 2 | .Name => 3
  ofIdx | 0 => some .InputShape | 1 => some .MaskShape | 2 => some .Stride | 3 => some .Name
        | _ => none

/-- derived variant indices of `SoftMaxSerialKeys`, `/repo/src/layer/softmax.rs` lines 13-17 -/
instance : SerKey SMKey where
  idx | .Shape => 0 | .Name => 1
  ofIdx | 0 => some .Shape | 1 => some .Name | _ => none

/-- `SerializedLayer`, `/repo/src/layer.rs` lines 13-19. -/
inductive SerializedLayer
  | SerialConvolutionalLayer (m : HMap ConvKey)
  | SerialFullyConnectedLayer (m : HMap FCKey)
  | SerialMaxPoolLayer (m : HMap MPKey)
  | SerialSoftMaxLayer (m : HMap SMKey)

/-- `.get(&key).expect(..)` then `bincode::deserialize(..).expect(..)`, the access pattern of the
`load_from_serialized_data` functions. -/
def fetch {K α : Type} [DecidableEq K] (m : HMap K) (k : K) (d : Dec α) : Exec α :=
  match m.get k with
  | none => .error .expect
  | some bs =>
    match deserialize d bs with
    | none => .error .expect
    | some a => .ok a

variable {F : Type} [F32Ops F]

/-! ## Fully connected layer -/

/-- `/repo/src/layer/fully_connected.rs` lines 16-25. -/
structure FullyConnectedLayer (F : Type) where
  weights : Tensor F
  weights_gradients : Tensor F
  weights_gradients_intermediate : Tensor F
  bias : Tensor F
  bias_gradients : Tensor F
  relu_mask : Tensor F
  name : String
  run_state : NetworkRunState

namespace FullyConnectedLayer

/-- `get_output_shape`, `/repo/src/layer/fully_connected.rs` lines 204-206. -/
def get_output_shape (l : FullyConnectedLayer F) : TensorShape := l.bias.shape

/-- `get_input_shape`, `/repo/src/layer/fully_connected.rs` lines 208-214. -/
def get_input_shape (l : FullyConnectedLayer F) : TensorShape := ⟨l.weights.shape.dj, 1, 1⟩

/-- `clear_gradients`, `/repo/src/layer/fully_connected.rs` lines 238-243. -/
def clear_gradients (l : FullyConnectedLayer F) : FullyConnectedLayer F :=
  { l with
    weights_gradients_intermediate := l.weights_gradients_intermediate.fill_with_value zero
    weights_gradients := l.weights_gradients.fill_with_value zero
    bias_gradients := l.bias_gradients.fill_with_value zero
    relu_mask := l.relu_mask.fill_with_value zero }

/-- `update_gradient_and_intermediate_tensors`, `/repo/src/layer/fully_connected.rs` lines 28-47. -/
def update_tensors (b : Build) (l : FullyConnectedLayer F) : Exec (FullyConnectedLayer F) :=
  match l.run_state with
  | .Inference => do
    let e1 ← Tensor.empty b
    let e2 ← Tensor.empty b
    let e3 ← Tensor.empty b
    let e4 ← Tensor.empty b
    pure { l with weights_gradients := e1, weights_gradients_intermediate := e2,
                  bias_gradients := e3, relu_mask := e4 }
  | .Training => do
    let wg ← Tensor.new b l.weights.shape
    let wgi ← Tensor.new b l.weights.shape
    let bg ← Tensor.new b l.bias.shape
    let rm ← Tensor.new b l.get_output_shape
    pure (clear_gradients { l with weights_gradients := wg, weights_gradients_intermediate := wgi,
                                   bias_gradients := bg, relu_mask := rm })

/-- `empty`, `/repo/src/layer/fully_connected.rs` lines 61-75. -/
def empty (b : Build) : Exec (FullyConnectedLayer F) := do
  let weights ← Tensor.empty b
  let bias ← Tensor.empty b
  let wg ← Tensor.empty b
  let wgi ← Tensor.empty b
  let bg ← Tensor.empty b
  let rm ← Tensor.empty b
  pure { weights := weights, bias := bias, weights_gradients := wg,
         weights_gradients_intermediate := wgi, bias_gradients := bg, relu_mask := rm,
         name := "Empty fully connected layer", run_state := .Inference }

/-- `fill_from_state`, `/repo/src/layer/fully_connected.rs` lines 77-103. -/
def fill_from_state (b : Build) (l : FullyConnectedLayer F) (weights bias : Tensor F)
    (name : String) : Exec (Res × FullyConnectedLayer F) :=
  let weight_shape := weights.shape
  let bias_shape := bias.shape
  if weight_shape.dk ≠ bias_shape.dk then
    pure (.error "Third dimension of bias and weights don't match", l)
  else if weight_shape.di ≠ bias_shape.di then
    pure (.error "First dimension of bias and weight don't match", l)
  else if bias_shape.dj ≠ 1 then
    pure (.error "The second dimension of bias must be 1", l)
  else do
    let l' ← update_tensors b { l with weights := weights, bias := bias, name := name }
    pure (.ok (), l')

/-- `new`, `/repo/src/layer/fully_connected.rs` lines 49-59. -/
def new (b : Build) (input_size output_size : UInt32) (name : String) :
    Exec (FullyConnectedLayer F) := do
  let fcl ← empty b
  let weights ← Tensor.new b (TensorShape.new output_size input_size 1)
  let bias ← Tensor.new b ⟨output_size, 1, 1⟩
  let (r, fcl) ← fill_from_state b fcl weights bias name
  match r with
  | .error _ => .error .unwrap
  | .ok () => pure fcl

/-- `fill_weights_with_value`, `/repo/src/layer/fully_connected.rs` lines 105-107. -/
def fill_weights_with_value (l : FullyConnectedLayer F) (v : F) : FullyConnectedLayer F :=
  { l with weights := l.weights.fill_with_value v }

/-- `fill_bias_with_value`, `/repo/src/layer/fully_connected.rs` lines 109-111. -/
def fill_bias_with_value (l : FullyConnectedLayer F) (v : F) : FullyConnectedLayer F :=
  { l with bias := l.bias.fill_with_value v }

/-- `load_from_serialized_data`, `/repo/src/layer/fully_connected.rs` lines 113-145. -/
def load_from_serialized_data [F32Bits F] (b : Build) (l : FullyConnectedLayer F) (m : HMap FCKey) :
    Exec (Res × FullyConnectedLayer F) :=
  if !m.contains_key .Name then pure (.error "Data does not contain --name-- key", l)
  else if !m.contains_key .Weights then pure (.error "Data does not contain --weights-- key", l)
  else if !m.contains_key .Bias then pure (.error "Data does not contain --bias-- key", l)
  else do
    let weights ← fetch m .Weights decTensor
    let bias ← fetch m .Bias decTensor
    let name ← fetch m .Name decString
    fill_from_state b l weights bias name

/-- `forward`, `/repo/src/layer/fully_connected.rs` lines 149-167.
Returns the result, the new layer and the new output. -/
def forward (b : Build) (l : FullyConnectedLayer F) (input output : Tensor F) :
    Exec (Res × FullyConnectedLayer F × Tensor F) :=
  match l.run_state with
  | .Inference => do
    let out ← Tensor.matrix_multiply_add_relu b input l.weights l.bias output
    pure (.ok (), l, out)
  | .Training => do
    let out ← Tensor.matrix_multiply b l.weights input output
    let out := Tensor.add_to_self out l.bias
    let (r, out, mask) := Tensor.relu_self_and_store_mask out l.relu_mask
    pure (r, { l with relu_mask := mask }, out)

/-- `backward`, `/repo/src/layer/fully_connected.rs` lines 169-202.
Returns the result, the new layer and the new outgoing gradient. -/
def backward (b : Build) (l : FullyConnectedLayer F) (input _output incoming outgoing : Tensor F) :
    Exec (Res × FullyConnectedLayer F × Tensor F) :=
  if l.run_state = .Training then do
    let l := { l with relu_mask := Tensor.multiply_elementwise_self l.relu_mask incoming }
    let l := { l with bias_gradients := Tensor.add_to_self l.bias_gradients l.relu_mask }
    let (r, wgi) ← Tensor.matrix_multiply_transpose_second b l.relu_mask input
      l.weights_gradients_intermediate
    let l := { l with weights_gradients_intermediate := wgi }
    match r with
    | .error e => pure (.error e, l, outgoing)
    | .ok () =>
      let l := { l with weights_gradients :=
        Tensor.add_to_self l.weights_gradients l.weights_gradients_intermediate }
      let (r, og) ← Tensor.matrix_multiply_transpose_first b l.weights l.relu_mask outgoing
      match r with
      | .error e => pure (.error e, l, og)
      | .ok () => pure (.ok (), l, og)
  else pure (.error "Can only do backprop in training mode", l, outgoing)

/-- `switch_to_inference`, `/repo/src/layer/fully_connected.rs` lines 224-229. -/
def switch_to_inference (b : Build) (l : FullyConnectedLayer F) : Exec (FullyConnectedLayer F) :=
  update_tensors b { l with run_state := .Inference }

/-- `switch_to_training`, `/repo/src/layer/fully_connected.rs` lines 231-236. -/
def switch_to_training (b : Build) (l : FullyConnectedLayer F) : Exec (FullyConnectedLayer F) :=
  update_tensors b { l with run_state := .Training }

/-- `get_serialized`, `/repo/src/layer/fully_connected.rs` lines 245-258. (`bincode::serialize` to
memory does not fail.) -/
def get_serialized [F32Bits F] (l : FullyConnectedLayer F) : SerializedLayer :=
  .SerialFullyConnectedLayer
    (((HMap.new.insert .Weights (encTensor l.weights)).insert .Bias (encTensor l.bias)).insert
      .Name (encString l.name))

/-- `load_from_serialized`, `/repo/src/layer/fully_connected.rs` lines 260-273. -/
def load_from_serialized [F32Bits F] (b : Build) (l : FullyConnectedLayer F) (s : SerializedLayer) :
    Exec (Res × FullyConnectedLayer F) :=
  match s with
  | .SerialFullyConnectedLayer m => l.load_from_serialized_data b m
  | _ => pure (.error "Layer type does not match max pool type", l)

end FullyConnectedLayer

/-! ## Max pool layer -/

/-- `/repo/src/layer/max_pool.rs` lines 16-24. -/
structure MaxPoolLayer where
  input_shape : TensorShape
  mask_shape : TensorShape
  output_shape : TensorShape
  stride : UInt32
  name : String
  run_state : NetworkRunState
  max_pool_origin : List UInt32

namespace MaxPoolLayer

/-- `clear_gradients`, `/repo/src/layer/max_pool.rs` lines 227-231. -/
def clear_gradients (l : MaxPoolLayer) : MaxPoolLayer :=
  { l with max_pool_origin := l.max_pool_origin.map (fun _ => 0) }

/-- `update_gradient_and_intermediate_tensors`, `/repo/src/layer/max_pool.rs` lines 64-77. -/
def update_tensors (b : Build) (l : MaxPoolLayer) : Exec MaxPoolLayer :=
  match l.run_state with
  | .Inference => pure { l with max_pool_origin := [] }
  | .Training => do
    let n ← l.output_shape.total_size b
    pure (clear_gradients { l with max_pool_origin := List.replicate n.toNat 0 })

/-- `empty`, `/repo/src/layer/max_pool.rs` lines 39-62. -/
def empty : MaxPoolLayer :=
  { input_shape := ⟨1, 1, 1⟩, mask_shape := ⟨1, 1, 1⟩, output_shape := ⟨1, 1, 1⟩, stride := 1,
    name := "Empty max pool layer", run_state := .Inference, max_pool_origin := [] }

/-- `fill_from_state`, `/repo/src/layer/max_pool.rs` lines 79-104. -/
def fill_from_state (b : Build) (l : MaxPoolLayer) (input_shape mask_shape : TensorShape)
    (stride : UInt32) (name : String) : Exec (Res × MaxPoolLayer) := do
  let ok ← Tensor.does_kernel_stride_fit_image b input_shape mask_shape stride
  if ¬ ok then pure (.error "Mask does not fit in image with given stride", l)
  else
    let (dim0, dim1) ← Tensor.get_convolution_dim_fit b input_shape mask_shape stride
    pure (.ok (), { l with input_shape := input_shape, output_shape := ⟨dim0, dim1, input_shape.dk⟩,
                           mask_shape := mask_shape, stride := stride, name := name })

/-- `new`, `/repo/src/layer/max_pool.rs` lines 27-38. -/
def new (b : Build) (mask_shape input_shape : TensorShape) (stride : UInt32) (name : String) :
    Exec (Except String MaxPoolLayer) := do
  let (r, l) ← fill_from_state b empty input_shape mask_shape stride name
  match r with
  | .ok () => pure (.ok l)
  | .error e => pure (.error e)

/-- `load_from_serialized_data`, `/repo/src/layer/max_pool.rs` lines 106-145. -/
def load_from_serialized_data (b : Build) (l : MaxPoolLayer) (m : HMap MPKey) :
    Exec (Res × MaxPoolLayer) :=
  if !m.contains_key .Name then pure (.error "Data does not contain --name-- key", l)
  else if !m.contains_key .MaskShape then pure (.error "Data does not contain --mask shape-- key", l)
  else if !m.contains_key .InputShape then pure (.error "Data does not contain --input shape-- key", l)
  else if !m.contains_key .Stride then pure (.error "Data does not contain --stride-- key", l)
  else do
    let mask_shape ← fetch m .MaskShape decShape
    let input_shape ← fetch m .InputShape decShape
    let stride ← fetch m .Stride decU32
    let name ← fetch m .Name decString
    fill_from_state b l input_shape mask_shape stride name

/-- `forward`, `/repo/src/layer/max_pool.rs` lines 149-165. -/
def forward (b : Build) (l : MaxPoolLayer) (input output : Tensor F) :
    Exec (Res × MaxPoolLayer × Tensor F) :=
  match l.run_state with
  | .Inference => do
    let out ← Tensor.max_pool b input l.mask_shape l.stride output
    pure (.ok (), l, out)
  | .Training => do
    let (r, out, o) ← Tensor.max_pool_track_origin b input l.mask_shape l.stride output
      l.max_pool_origin
    pure (r, { l with max_pool_origin := o }, out)

/-- `backward`, `/repo/src/layer/max_pool.rs` lines 167-179. -/
def backward (b : Build) (l : MaxPoolLayer) (_input _output incoming outgoing : Tensor F) :
    Exec (Res × MaxPoolLayer × Tensor F) := do
  let outgoing := outgoing.fill_with_value zero
  let (r, og) ← Tensor.add_from_index_list b incoming outgoing l.max_pool_origin
  pure (r, l, og)

/-- `switch_to_inference`, `/repo/src/layer/max_pool.rs` lines 233-238. -/
def switch_to_inference (b : Build) (l : MaxPoolLayer) : Exec MaxPoolLayer :=
  update_tensors b { l with run_state := .Inference }

/-- `switch_to_training`, `/repo/src/layer/max_pool.rs` lines 240-245. -/
def switch_to_training (b : Build) (l : MaxPoolLayer) : Exec MaxPoolLayer :=
  update_tensors b { l with run_state := .Training }

/-- `get_serialized`, `/repo/src/layer/max_pool.rs` lines 195-210. -/
def get_serialized (l : MaxPoolLayer) : SerializedLayer :=
  .SerialMaxPoolLayer
    ((((HMap.new.insert .MaskShape (encShape l.mask_shape)).insert
      .InputShape (encShape l.input_shape)).insert .Stride (encU32 l.stride)).insert
      .Name (encString l.name))

/-- `load_from_serialized`, `/repo/src/layer/max_pool.rs` lines 212-225. -/
def load_from_serialized (b : Build) (l : MaxPoolLayer) (s : SerializedLayer) :
    Exec (Res × MaxPoolLayer) :=
  match s with
  | .SerialMaxPoolLayer m => l.load_from_serialized_data b m
  | _ => pure (.error "Layer type does not match max pool type", l)

end MaxPoolLayer

/-! ## Softmax layer -/

/-- `/repo/src/layer/softmax.rs` lines 19-25. -/
structure SoftmaxLayer (F : Type) where
  shape : TensorShape
  name : String
  intermediate1 : Tensor F
  intermediate2 : Tensor F
  run_state : NetworkRunState

namespace SoftmaxLayer

/-- `clear_gradients`, `/repo/src/layer/softmax.rs` lines 195-198. -/
def clear_gradients (l : SoftmaxLayer F) : SoftmaxLayer F :=
  { l with intermediate1 := l.intermediate1.fill_with_value zero,
           intermediate2 := l.intermediate2.fill_with_value zero }

/-- `update_gradient_and_intermediate_tensors`, `/repo/src/layer/softmax.rs` lines 50-66. -/
def update_tensors (b : Build) (l : SoftmaxLayer F) : Exec (SoftmaxLayer F) :=
  match l.run_state with
  | .Inference => do
    let e1 ← Tensor.empty b
    let e2 ← Tensor.empty b
    pure { l with intermediate1 := e1, intermediate2 := e2 }
  | .Training => do
    let i1 ← Tensor.new b (TensorShape.new_1d 1)
    let i2 ← Tensor.new b l.shape
    pure (clear_gradients { l with intermediate1 := i1, intermediate2 := i2 })

/-- `empty`, `/repo/src/layer/softmax.rs` lines 34-48. -/
def empty (b : Build) : Exec (SoftmaxLayer F) := do
  let e1 ← Tensor.empty b
  let e2 ← Tensor.empty b
  pure { shape := ⟨1, 1, 1⟩, name := "Empty softmax layer", intermediate1 := e1,
         intermediate2 := e2, run_state := .Inference }

/-- `fill_from_state`, `/repo/src/layer/softmax.rs` lines 68-77. -/
def fill_from_state (b : Build) (l : SoftmaxLayer F) (shape : TensorShape) (name : String) :
    Exec (Res × SoftmaxLayer F) := do
  let l' ← update_tensors b { l with shape := shape, name := name }
  pure (.ok (), l')

/-- `new`, `/repo/src/layer/softmax.rs` lines 28-32. -/
def new (b : Build) (shape : TensorShape) (name : String) :
    Exec (Except String (SoftmaxLayer F)) := do
  let sm ← empty b
  let (r, sm) ← fill_from_state b sm shape name
  match r with
  | .error e => pure (.error e)
  | .ok () => pure (.ok sm)

/-- `load_from_serialized_data`, `/repo/src/layer/softmax.rs` lines 79-102. The helper tensors are
not updated. -/
def load_from_serialized_data (l : SoftmaxLayer F) (m : HMap SMKey) :
    Exec (Res × SoftmaxLayer F) :=
  if !m.contains_key .Name then pure (.error "Data does not contain --name-- key", l)
  else if !m.contains_key .Shape then pure (.error "Data does not contain --shape-- key", l)
  else do
    let shape ← fetch m .Shape decShape
    let l := { l with shape := shape }
    let name ← fetch m .Name decString
    let l := { l with name := name }
    pure (.ok (), l)

/-- `forward`, `/repo/src/layer/softmax.rs` lines 106-109. -/
def forward (_b : Build) (l : SoftmaxLayer F) (input output : Tensor F) :
    Exec (Res × SoftmaxLayer F × Tensor F) := do
  let out ← Tensor.softmax input output
  pure (.ok (), l, out)

/-- `backward`, `/repo/src/layer/softmax.rs` lines 110-142. -/
def backward (b : Build) (l : SoftmaxLayer F) (_input output incoming outgoing : Tensor F) :
    Exec (Res × SoftmaxLayer F × Tensor F) :=
  if l.run_state = .Inference then
    pure (.error "Can only do backprop in training mode", l, outgoing)
  else do
    let (r, i1) ← Tensor.matrix_multiply_transpose_first b output incoming l.intermediate1
    let l := { l with intermediate1 := i1 }
    match r with
    | .error e => pure (.error e, l, outgoing)
    | .ok () =>
      let l := { l with intermediate1 := Tensor.scale_self l.intermediate1 negOne }
      let i2 ← Tensor.matrix_multiply b output l.intermediate1 l.intermediate2
      let l := { l with intermediate2 := i2 }
      let og := Tensor.multiply_elementwise output incoming outgoing
      let og := Tensor.add_to_self og l.intermediate2
      pure (.ok (), l, og)

/-- `switch_to_inference`, `/repo/src/layer/softmax.rs` lines 185-188. -/
def switch_to_inference (b : Build) (l : SoftmaxLayer F) : Exec (SoftmaxLayer F) :=
  update_tensors b { l with run_state := .Inference }

/-- `switch_to_training`, `/repo/src/layer/softmax.rs` lines 190-193. -/
def switch_to_training (b : Build) (l : SoftmaxLayer F) : Exec (SoftmaxLayer F) :=
  update_tensors b { l with run_state := .Training }

/-- `get_serialized`, `/repo/src/layer/softmax.rs` lines 157-168. -/
def get_serialized (l : SoftmaxLayer F) : SerializedLayer :=
  .SerialSoftMaxLayer
    ((HMap.new.insert .Shape (encShape l.shape)).insert .Name (encString l.name))

/-- `load_from_serialized`, `/repo/src/layer/softmax.rs` lines 170-183. -/
def load_from_serialized (_b : Build) (l : SoftmaxLayer F) (s : SerializedLayer) :
    Exec (Res × SoftmaxLayer F) :=
  match s with
  | .SerialSoftMaxLayer m => l.load_from_serialized_data m
  | _ => pure (.error "Layer type does not match soft max type", l)

end SoftmaxLayer

/-! ## Convolutional layer -/

/-- `/repo/src/layer/convolutional.rs` lines 18-29. -/
structure ConvolutionalLayer (F : Type) where
  kernels : List (Tensor F)
  biases : List (Tensor F)
  kernel_gradients : List (Tensor F)
  bias_gradients : List (Tensor F)
  stride : UInt32
  relu_mask : Tensor F
  input_shape : TensorShape
  output_shape : TensorShape
  name : String
  run_state : NetworkRunState

namespace ConvolutionalLayer

/-- `update_gradient_and_intermediate_tensors`, `/repo/src/layer/convolutional.rs` lines 32-51. -/
def update_tensors (b : Build) (l : ConvolutionalLayer F) : Exec (ConvolutionalLayer F) :=
  match l.run_state with
  | .Inference => do
    let e ← Tensor.empty b
    pure { l with kernel_gradients := [], bias_gradients := [], relu_mask := e }
  | .Training => do
    let kg ← l.kernels.foldlM (fun kg k => do
      let g ← Tensor.new b k.shape
      pure (kg ++ [g])) []
    let bg ← Tensor.new b (TensorShape.new_1d 1)
    let rm ← Tensor.new b l.output_shape
    pure { l with kernel_gradients := kg, bias_gradients := List.replicate l.kernels.length bg,
                  relu_mask := rm }

/-- `empty`, `/repo/src/layer/convolutional.rs` lines 74-96. -/
def empty (b : Build) : Exec (ConvolutionalLayer F) := do
  let e ← Tensor.empty b
  pure { kernels := [], biases := [], kernel_gradients := [], bias_gradients := [],
         relu_mask := e, stride := 1, input_shape := ⟨1, 1, 1⟩, output_shape := ⟨1, 1, 1⟩,
         name := "Empty convolutional layer", run_state := .Inference }

/-- `fill_from_state`, `/repo/src/layer/convolutional.rs` lines 98-140. The number of biases, the
bias shapes and the kernel depth are not checked, and the helper tensors are not updated. -/
def fill_from_state (b : Build) (l : ConvolutionalLayer F) (kernels biases : List (Tensor F))
    (input_shape : TensorShape) (stride : UInt32) (name : String) :
    Exec (Res × ConvolutionalLayer F) :=
  match kernels with
  | [] => pure (.error "Kernel list should contain at least 1 kernel", l)
  | k0 :: _ =>
    let kernel_shape := k0.shape
    if kernels.any (fun k => k.shape ≠ kernel_shape) then
      pure (.error "All kernels in kernel list should have the same shape", l)
    else do
      let ok ← Tensor.does_kernel_stride_fit_image b input_shape kernel_shape stride
      if ¬ ok then pure (.error "Kernel does not fit in image with given stride", l)
      else
        let output_depth := UInt32.ofNat kernels.length
        let (dim0, dim1) ← Tensor.get_convolution_dim_fit b input_shape kernel_shape stride
        pure (.ok (), { l with name := name, kernels := kernels, biases := biases,
                               input_shape := input_shape,
                               output_shape := ⟨dim0, dim1, output_depth⟩, stride := stride })

/-- `new`, `/repo/src/layer/convolutional.rs` lines 52-72. -/
def new (b : Build) (kernel_shape input_shape : TensorShape) (stride output_depth : UInt32)
    (name : String) : Exec (Except String (ConvolutionalLayer F)) := do
  let new_layer ← empty b
  let k ← Tensor.new b kernel_shape
  let kernels := List.replicate output_depth.toNat k
  let bi ← Tensor.new b (TensorShape.new_1d 1)
  let biases := List.replicate output_depth.toNat bi
  let (r, l) ← fill_from_state b new_layer kernels biases input_shape stride name
  match r with
  | .ok () => pure (.ok l)
  | .error e => pure (.error e)

/-- `load_from_serialized_data`, `/repo/src/layer/convolutional.rs` lines 141-192. -/
def load_from_serialized_data [F32Bits F] (b : Build) (l : ConvolutionalLayer F)
    (m : HMap ConvKey) : Exec (Res × ConvolutionalLayer F) :=
  if !m.contains_key .Name then pure (.error "Data does not contain --name-- key", l)
  else if !m.contains_key .Kernels then pure (.error "Data does not contain --kernels-- key", l)
  else if !m.contains_key .Biases then pure (.error "Data does not contain --biases-- key", l)
  else if !m.contains_key .InputShape then pure (.error "Data does not contain --input shape-- key", l)
  else if !m.contains_key .Stride then pure (.error "Data does not contain --stride-- key", l)
  else do
    let kernels ← fetch m .Kernels (decVec decTensor)
    let biases ← fetch m .Biases (decVec decTensor)
    let input_shape ← fetch m .InputShape decShape
    let stride ← fetch m .Stride decU32
    let name ← fetch m .Name decString
    fill_from_state b l kernels biases input_shape stride name

/-- `forward`, `/repo/src/layer/convolutional.rs` lines 196-228. -/
def forward (b : Build) (l : ConvolutionalLayer F) (input output : Tensor F) :
    Exec (Res × ConvolutionalLayer F × Tensor F) :=
  match l.run_state with
  | .Inference => do
    let (r, out) ← forListE (List.range l.output_shape.dk.toNat) output fun i out => do
      let kernel ← vget l.kernels i
      let bias ← vget l.biases i
      convolution_bias_relu b input kernel bias l.stride out (UInt32.ofNat i)
    pure (r, l, out)
  | .Training => do
    let (r, out) ← forListE (List.range l.output_shape.dk.toNat) output fun i out => do
      let kernel ← vget l.kernels i
      let bias ← vget l.biases i
      convolution_bias b input kernel bias l.stride out (UInt32.ofNat i)
    match r with
    | .error e => pure (.error e, l, out)
    | .ok () =>
      let (r, out, mask) := Tensor.relu_self_and_store_mask out l.relu_mask
      pure (r, { l with relu_mask := mask }, out)

/-- `backward`, `/repo/src/layer/convolutional.rs` lines 229-264. -/
def backward (b : Build) (l : ConvolutionalLayer F) (input _output incoming outgoing : Tensor F) :
    Exec (Res × ConvolutionalLayer F × Tensor F) := do
  let l := { l with relu_mask := Tensor.multiply_elementwise_self l.relu_mask incoming }
  let (r, kg) ← forListE (List.range l.kernels.length) l.kernel_gradients fun i kg => do
    let g ← vget kg i
    let (r, g) ← convolution_backprop_kernel b incoming input l.stride (UInt32.ofNat i) g
    let kg ← vset kg i g
    pure (r, kg)
  let l := { l with kernel_gradients := kg }
  match r with
  | .error e => pure (.error e, l, outgoing)
  | .ok () =>
    let (r, og) ← convolution_backprop_outgoing_gradient b incoming l.kernels l.stride outgoing
    match r with
    | .error e => pure (.error e, l, og)
    | .ok () => pure (.ok (), l, og)

/-- `clear_gradients`, `/repo/src/layer/convolutional.rs` lines 280-285. -/
def clear_gradients (l : ConvolutionalLayer F) : ConvolutionalLayer F :=
  { l with kernel_gradients := l.kernel_gradients.map (fun v => v.fill_with_value zero) }

/-- `switch_to_inference`, `/repo/src/layer/convolutional.rs` lines 287-290. -/
def switch_to_inference (b : Build) (l : ConvolutionalLayer F) : Exec (ConvolutionalLayer F) :=
  update_tensors b { l with run_state := .Inference }

/-- `switch_to_training`, `/repo/src/layer/convolutional.rs` lines 291-294. -/
def switch_to_training (b : Build) (l : ConvolutionalLayer F) : Exec (ConvolutionalLayer F) :=
  update_tensors b { l with run_state := .Training }

/-- `get_serialized`, `/repo/src/layer/convolutional.rs` lines 296-313. -/
def get_serialized [F32Bits F] (l : ConvolutionalLayer F) : SerializedLayer :=
  .SerialConvolutionalLayer
    (((((HMap.new.insert .Kernels (encVec encTensor l.kernels)).insert
      .Biases (encVec encTensor l.biases)).insert .InputShape (encShape l.input_shape)).insert
      .Stride (encU32 l.stride)).insert .Name (encString l.name))

/-- `load_from_serialized`, `/repo/src/layer/convolutional.rs` lines 315-328. -/
def load_from_serialized [F32Bits F] (b : Build) (l : ConvolutionalLayer F) (s : SerializedLayer) :
    Exec (Res × ConvolutionalLayer F) :=
  match s with
  | .SerialConvolutionalLayer m => l.load_from_serialized_data b m
  | _ => pure (.error "Layer type does not match max pool type", l)

end ConvolutionalLayer

/-! ## The `Layer` trait -/

/-- `trait Layer`, `/repo/src/layer.rs` lines 52-75, as far as `Network` uses it
(serialisation is handled for the built-in layers in `Model/Network.lean`). -/
class LayerOps (F : outParam Type) (L : Type) where
  forward : Build → L → Tensor F → Tensor F → Exec (Res × L × Tensor F)
  backward : Build → L → Tensor F → Tensor F → Tensor F → Tensor F → Exec (Res × L × Tensor F)
  apply_gradients : L → L
  clear_gradients : L → L
  switch_to_training : Build → L → Exec L
  switch_to_inference : Build → L → Exec L
  get_run_mode : L → NetworkRunState
  get_input_shape : L → TensorShape
  get_output_shape : L → TensorShape
  get_name : L → String

/-- `Box<dyn Layer>` holding one of the four layer types of the library. -/
inductive AnyLayer (F : Type)
  | conv (l : ConvolutionalLayer F)
  | fc (l : FullyConnectedLayer F)
  | mp (l : MaxPoolLayer)
  | sm (l : SoftmaxLayer F)

namespace AnyLayer

/-- rewrap the layer component of a layer method's result -/
def rewrap {L : Type} (w : L → AnyLayer F) (e : Exec (Res × L × Tensor F)) :
    Exec (Res × AnyLayer F × Tensor F) := do
  let (r, l, t) ← e
  pure (r, w l, t)

/-- dynamic dispatch of `forward` -/
def forward (b : Build) (l : AnyLayer F) (input output : Tensor F) :
    Exec (Res × AnyLayer F × Tensor F) :=
  match l with
  | .conv l => rewrap .conv (l.forward b input output)
  | .fc l => rewrap .fc (l.forward b input output)
  | .mp l => rewrap .mp (l.forward b input output)
  | .sm l => rewrap .sm (l.forward b input output)

/-- dynamic dispatch of `backward` -/
def backward (b : Build) (l : AnyLayer F) (input output incoming outgoing : Tensor F) :
    Exec (Res × AnyLayer F × Tensor F) :=
  match l with
  | .conv l => rewrap .conv (l.backward b input output incoming outgoing)
  | .fc l => rewrap .fc (l.backward b input output incoming outgoing)
  | .mp l => rewrap .mp (l.backward b input output incoming outgoing)
  | .sm l => rewrap .sm (l.backward b input output incoming outgoing)

/-- `apply_gradients`: no layer overrides the empty default, `/repo/src/layer.rs` line 62. -/
def apply_gradients (l : AnyLayer F) : AnyLayer F := l

/-- dynamic dispatch of `clear_gradients` -/
def clear_gradients : AnyLayer F → AnyLayer F
  | .conv l => .conv l.clear_gradients
  | .fc l => .fc l.clear_gradients
  | .mp l => .mp l.clear_gradients
  | .sm l => .sm l.clear_gradients

/-- dynamic dispatch of `switch_to_training` -/
def switch_to_training (b : Build) : AnyLayer F → Exec (AnyLayer F)
  | .conv l => do let l' ← l.switch_to_training b; pure (.conv l')
  | .fc l => do let l' ← l.switch_to_training b; pure (.fc l')
  | .mp l => do let l' ← l.switch_to_training b; pure (.mp l')
  | .sm l => do let l' ← l.switch_to_training b; pure (.sm l')

/-- dynamic dispatch of `switch_to_inference` -/
def switch_to_inference (b : Build) : AnyLayer F → Exec (AnyLayer F)
  | .conv l => do let l' ← l.switch_to_inference b; pure (.conv l')
  | .fc l => do let l' ← l.switch_to_inference b; pure (.fc l')
  | .mp l => do let l' ← l.switch_to_inference b; pure (.mp l')
  | .sm l => do let l' ← l.switch_to_inference b; pure (.sm l')

/-- `get_run_mode`: convolutional.rs 276-278, fully_connected.rs 220-222, max_pool.rs 191-193,
softmax.rs 154-156. -/
def get_run_mode : AnyLayer F → NetworkRunState
  | .conv l => l.run_state
  | .fc l => l.run_state
  | .mp l => l.run_state
  | .sm l => l.run_state

/-- `get_input_shape`: convolutional.rs 269-271, fully_connected.rs 208-214, max_pool.rs 184-186,
softmax.rs 147-149. -/
def get_input_shape : AnyLayer F → TensorShape
  | .conv l => l.input_shape
  | .fc l => l.get_input_shape
  | .mp l => l.input_shape
  | .sm l => l.shape

/-- `get_output_shape`: convolutional.rs 265-267, fully_connected.rs 204-206, max_pool.rs 180-182,
softmax.rs 143-145. -/
def get_output_shape : AnyLayer F → TensorShape
  | .conv l => l.output_shape
  | .fc l => l.get_output_shape
  | .mp l => l.output_shape
  | .sm l => l.shape

/-- `get_name`: convolutional.rs 273-275, fully_connected.rs 216-218, max_pool.rs 188-190,
softmax.rs 151-153. -/
def get_name : AnyLayer F → String
  | .conv l => l.name
  | .fc l => l.name
  | .mp l => l.name
  | .sm l => l.name

/-- dynamic dispatch of `get_serialized` -/
def get_serialized [F32Bits F] : AnyLayer F → SerializedLayer
  | .conv l => l.get_serialized
  | .fc l => l.get_serialized
  | .mp l => l.get_serialized
  | .sm l => l.get_serialized

/-- dynamic dispatch of `load_from_serialized` -/
def load_from_serialized [F32Bits F] (b : Build) (l : AnyLayer F) (s : SerializedLayer) :
    Exec (Res × AnyLayer F) :=
  match l with
  | .conv l => do let (r, l) ← l.load_from_serialized b s; pure (r, .conv l)
  | .fc l => do let (r, l) ← l.load_from_serialized b s; pure (r, .fc l)
  | .mp l => do let (r, l) ← l.load_from_serialized b s; pure (r, .mp l)
  | .sm l => do let (r, l) ← l.load_from_serialized b s; pure (r, .sm l)

instance : LayerOps F (AnyLayer F) where
  forward := forward
  backward := backward
  apply_gradients := apply_gradients
  clear_gradients := clear_gradients
  switch_to_training := switch_to_training
  switch_to_inference := switch_to_inference
  get_run_mode := get_run_mode
  get_input_shape := get_input_shape
  get_output_shape := get_output_shape
  get_name := get_name

end AnyLayer

end Rusty
