import Verif.Model.Network

/-!
# What a panic leaves behind

The other model files say of a call that panics only that it panics.  Here the methods that change a layer or
a network, apart from the numeric ones, are modelled again, statement by statement, so that the state the object
is left in when a panic unwinds is known too.  `Lemmas/Unwind.lean` shows that both models agree on results.
-/

namespace Rusty

open F32Ops

/-- A method on `&mut self`: result or panic, and in either case the state of the object. -/
def Unwind (σ α : Type) : Type := σ → Except PanicKind α × σ

namespace Unwind

variable {σ α β : Type}

/-- sequencing: a panic keeps the state reached so far -/
protected def bind (m : Unwind σ α) (f : α → Unwind σ β) : Unwind σ β := fun s =>
  match m s with
  | (.ok a, s') => f a s'
  | (.error p, s') => (.error p, s')

instance : Monad (Unwind σ) where
  pure a := fun s => (.ok a, s)
  bind := Unwind.bind

/-- evaluate something that does not change the object -/
def eval (x : σ → Exec α) : Unwind σ α := fun s => (x s, s)

/-- an assignment to fields of the object -/
def assign (f : σ → σ) : Unwind σ Unit := fun s => (.ok (), f s)

/-- the same as a function of the old model: the state is forgotten when there is a panic -/
def forget (m : Unwind σ α) (s : σ) : Exec (α × σ) :=
  match m s with
  | (.ok a, s') => .ok (a, s')
  | (.error p, _) => .error p

end Unwind

open Unwind

variable {F : Type} [F32Ops F]

namespace FullyConnectedLayer

/-- `update_gradient_and_intermediate_tensors`, `/repo/src/layer/fully_connected.rs` lines 28-47. -/
def update_tensors_u (b : Build) : Unwind (FullyConnectedLayer F) Unit := do
  match ← eval (fun l => .ok l.run_state) with
  | .Inference =>
    let t ← eval fun _ => Tensor.empty b
    assign fun l => { l with weights_gradients := t }
    let t ← eval fun _ => Tensor.empty b
    assign fun l => { l with weights_gradients_intermediate := t }
    let t ← eval fun _ => Tensor.empty b
    assign fun l => { l with bias_gradients := t }
    let t ← eval fun _ => Tensor.empty b
    assign fun l => { l with relu_mask := t }
  | .Training =>
    let t ← eval fun l => Tensor.new b l.weights.shape
    assign fun l => { l with weights_gradients := t }
    let t ← eval fun l => Tensor.new b l.weights.shape
    assign fun l => { l with weights_gradients_intermediate := t }
    let t ← eval fun l => Tensor.new b l.bias.shape
    assign fun l => { l with bias_gradients := t }
    let t ← eval fun l => Tensor.new b l.get_output_shape
    assign fun l => { l with relu_mask := t }
    assign clear_gradients

/-- `fill_from_state`, `/repo/src/layer/fully_connected.rs` lines 77-103. -/
def fill_from_state_u (b : Build) (weights bias : Tensor F) (name : String) :
    Unwind (FullyConnectedLayer F) Res :=
  if weights.shape.dk ≠ bias.shape.dk then
    pure (.error "Third dimension of bias and weights don't match")
  else if weights.shape.di ≠ bias.shape.di then
    pure (.error "First dimension of bias and weight don't match")
  else if bias.shape.dj ≠ 1 then pure (.error "The second dimension of bias must be 1")
  else do
    assign fun l => { l with weights := weights }
    assign fun l => { l with bias := bias }
    assign fun l => { l with name := name }
    update_tensors_u b
    pure (.ok ())

/-- `load_from_serialized`, `/repo/src/layer/fully_connected.rs` lines 113-145, 260-273. -/
def load_from_serialized_u [F32Bits F] (b : Build) (s : SerializedLayer) :
    Unwind (FullyConnectedLayer F) Res :=
  match s with
  | .SerialFullyConnectedLayer m =>
    if !m.contains_key .Name then pure (.error "Data does not contain --name-- key")
    else if !m.contains_key .Weights then pure (.error "Data does not contain --weights-- key")
    else if !m.contains_key .Bias then pure (.error "Data does not contain --bias-- key")
    else do
      let weights ← eval fun _ => fetch m .Weights decTensor
      let bias ← eval fun _ => fetch m .Bias decTensor
      let name ← eval fun _ => fetch m .Name decString
      fill_from_state_u b weights bias name
  | _ => pure (.error "Layer type does not match max pool type")

/-- `switch_to_inference`, `/repo/src/layer/fully_connected.rs` lines 224-229. -/
def switch_to_inference_u (b : Build) : Unwind (FullyConnectedLayer F) Unit := do
  assign fun l => { l with run_state := .Inference }
  update_tensors_u b

/-- `switch_to_training`, `/repo/src/layer/fully_connected.rs` lines 231-236. -/
def switch_to_training_u (b : Build) : Unwind (FullyConnectedLayer F) Unit := do
  assign fun l => { l with run_state := .Training }
  update_tensors_u b

end FullyConnectedLayer

namespace MaxPoolLayer

/-- `update_gradient_and_intermediate_tensors`, `/repo/src/layer/max_pool.rs` lines 64-77. -/
def update_tensors_u (b : Build) : Unwind MaxPoolLayer Unit := do
  match ← eval (fun l => .ok l.run_state) with
  | .Inference => assign fun l => { l with max_pool_origin := [] }
  | .Training =>
    let n ← eval fun l => l.output_shape.total_size b
    assign fun l => { l with max_pool_origin := List.replicate n.toNat 0 }
    assign clear_gradients

/-- `fill_from_state`, `/repo/src/layer/max_pool.rs` lines 79-104. -/
def fill_from_state_u (b : Build) (input_shape mask_shape : TensorShape) (stride : UInt32) (name : String) :
    Unwind MaxPoolLayer Res := do
  let ok ← eval fun _ => Tensor.does_kernel_stride_fit_image b input_shape mask_shape stride
  if ¬ ok then pure (.error "Mask does not fit in image with given stride")
  else
    let d ← eval fun _ => Tensor.get_convolution_dim_fit b input_shape mask_shape stride
    assign fun l => { l with input_shape := input_shape }
    assign fun l => { l with output_shape := ⟨d.1, d.2, input_shape.dk⟩ }
    assign fun l => { l with mask_shape := mask_shape }
    assign fun l => { l with stride := stride }
    assign fun l => { l with name := name }
    pure (.ok ())

/-- `load_from_serialized`, `/repo/src/layer/max_pool.rs` lines 106-145, 212-225. -/
def load_from_serialized_u (b : Build) (s : SerializedLayer) : Unwind MaxPoolLayer Res :=
  match s with
  | .SerialMaxPoolLayer m =>
    if !m.contains_key .Name then pure (.error "Data does not contain --name-- key")
    else if !m.contains_key .MaskShape then pure (.error "Data does not contain --mask shape-- key")
    else if !m.contains_key .InputShape then pure (.error "Data does not contain --input shape-- key")
    else if !m.contains_key .Stride then pure (.error "Data does not contain --stride-- key")
    else do
      let mask_shape ← eval fun _ => fetch m .MaskShape decShape
      let input_shape ← eval fun _ => fetch m .InputShape decShape
      let stride ← eval fun _ => fetch m .Stride decU32
      let name ← eval fun _ => fetch m .Name decString
      fill_from_state_u b input_shape mask_shape stride name
  | _ => pure (.error "Layer type does not match max pool type")

/-- `switch_to_inference`, `/repo/src/layer/max_pool.rs` lines 233-238. -/
def switch_to_inference_u (b : Build) : Unwind MaxPoolLayer Unit := do
  assign fun l => { l with run_state := .Inference }
  update_tensors_u b

/-- `switch_to_training`, `/repo/src/layer/max_pool.rs` lines 240-245. -/
def switch_to_training_u (b : Build) : Unwind MaxPoolLayer Unit := do
  assign fun l => { l with run_state := .Training }
  update_tensors_u b

end MaxPoolLayer

namespace SoftmaxLayer

/-- `update_gradient_and_intermediate_tensors`, `/repo/src/layer/softmax.rs` lines 50-66. -/
def update_tensors_u (b : Build) : Unwind (SoftmaxLayer F) Unit := do
  match ← eval (fun l => .ok l.run_state) with
  | .Inference =>
    let t ← eval fun _ => Tensor.empty b
    assign fun l => { l with intermediate1 := t }
    let t ← eval fun _ => Tensor.empty b
    assign fun l => { l with intermediate2 := t }
  | .Training =>
    let t ← eval fun _ => Tensor.new b (TensorShape.new_1d 1)
    assign fun l => { l with intermediate1 := t }
    let t ← eval fun l => Tensor.new b l.shape
    assign fun l => { l with intermediate2 := t }
    assign clear_gradients

/-- `fill_from_state`, `/repo/src/layer/softmax.rs` lines 68-77. -/
def fill_from_state_u (b : Build) (shape : TensorShape) (name : String) : Unwind (SoftmaxLayer F) Res := do
  assign fun l => { l with shape := shape }
  assign fun l => { l with name := name }
  update_tensors_u b
  pure (.ok ())

/-- `load_from_serialized`, `/repo/src/layer/softmax.rs` lines 79-102, 170-183. -/
def load_from_serialized_u (_b : Build) (s : SerializedLayer) : Unwind (SoftmaxLayer F) Res :=
  match s with
  | .SerialSoftMaxLayer m =>
    if !m.contains_key .Name then pure (.error "Data does not contain --name-- key")
    else if !m.contains_key .Shape then pure (.error "Data does not contain --shape-- key")
    else do
      let shape ← eval fun _ => fetch m .Shape decShape
      assign fun l => { l with shape := shape }
      let name ← eval fun _ => fetch m .Name decString
      assign fun l => { l with name := name }
      pure (.ok ())
  | _ => pure (.error "Layer type does not match soft max type")

/-- `switch_to_inference`, `/repo/src/layer/softmax.rs` lines 185-188. -/
def switch_to_inference_u (b : Build) : Unwind (SoftmaxLayer F) Unit := do
  assign fun l => { l with run_state := .Inference }
  update_tensors_u b

/-- `switch_to_training`, `/repo/src/layer/softmax.rs` lines 190-193. -/
def switch_to_training_u (b : Build) : Unwind (SoftmaxLayer F) Unit := do
  assign fun l => { l with run_state := .Training }
  update_tensors_u b

end SoftmaxLayer

namespace ConvolutionalLayer

/-- the loop over the kernels, `/repo/src/layer/convolutional.rs` lines 43-46 -/
def push_gradients_u (b : Build) : List (Tensor F) → Unwind (ConvolutionalLayer F) Unit
  | [] => pure ()
  | k :: ks => do
    let g ← eval fun _ => Tensor.new b k.shape
    assign fun l => { l with kernel_gradients := l.kernel_gradients ++ [g] }
    push_gradients_u b ks

/-- `update_gradient_and_intermediate_tensors`, `/repo/src/layer/convolutional.rs` lines 32-51. -/
def update_tensors_u (b : Build) : Unwind (ConvolutionalLayer F) Unit := do
  match ← eval (fun l => .ok l.run_state) with
  | .Inference =>
    assign fun l => { l with kernel_gradients := [] }
    assign fun l => { l with bias_gradients := [] }
    let t ← eval fun _ => Tensor.empty b
    assign fun l => { l with relu_mask := t }
  | .Training =>
    assign fun l => { l with kernel_gradients := [] }
    push_gradients_u b (← eval fun l => .ok l.kernels)
    let t ← eval fun _ => Tensor.new b (TensorShape.new_1d 1)
    assign fun l => { l with bias_gradients := List.replicate l.kernels.length t }
    let t ← eval fun l => Tensor.new b l.output_shape
    assign fun l => { l with relu_mask := t }

/-- `fill_from_state`, `/repo/src/layer/convolutional.rs` lines 98-140. -/
def fill_from_state_u (b : Build) (kernels biases : List (Tensor F)) (input_shape : TensorShape)
    (stride : UInt32) (name : String) : Unwind (ConvolutionalLayer F) Res :=
  match kernels with
  | [] => pure (.error "Kernel list should contain at least 1 kernel")
  | k0 :: _ =>
    if kernels.any (fun k => k.shape ≠ k0.shape) then
      pure (.error "All kernels in kernel list should have the same shape")
    else do
      let ok ← eval fun _ => Tensor.does_kernel_stride_fit_image b input_shape k0.shape stride
      if ¬ ok then pure (.error "Kernel does not fit in image with given stride")
      else
        let d ← eval fun _ => Tensor.get_convolution_dim_fit b input_shape k0.shape stride
        assign fun l => { l with name := name }
        assign fun l => { l with kernels := kernels }
        assign fun l => { l with biases := biases }
        assign fun l => { l with input_shape := input_shape }
        assign fun l => { l with output_shape := ⟨d.1, d.2, UInt32.ofNat kernels.length⟩ }
        assign fun l => { l with stride := stride }
        pure (.ok ())

/-- `load_from_serialized`, `/repo/src/layer/convolutional.rs` lines 141-195, 315-328. -/
def load_from_serialized_u [F32Bits F] (b : Build) (s : SerializedLayer) :
    Unwind (ConvolutionalLayer F) Res :=
  match s with
  | .SerialConvolutionalLayer m =>
    if !m.contains_key .Name then pure (.error "Data does not contain --name-- key")
    else if !m.contains_key .Kernels then pure (.error "Data does not contain --kernels-- key")
    else if !m.contains_key .Biases then pure (.error "Data does not contain --biases-- key")
    else if !m.contains_key .InputShape then pure (.error "Data does not contain --input shape-- key")
    else if !m.contains_key .Stride then pure (.error "Data does not contain --stride-- key")
    else do
      let kernels ← eval fun _ => fetch m .Kernels (decVec decTensor)
      let biases ← eval fun _ => fetch m .Biases (decVec decTensor)
      let input_shape ← eval fun _ => fetch m .InputShape decShape
      let stride ← eval fun _ => fetch m .Stride decU32
      let name ← eval fun _ => fetch m .Name decString
      fill_from_state_u b kernels biases input_shape stride name
  | _ => pure (.error "Layer type does not match max pool type")

/-- `switch_to_inference`, `/repo/src/layer/convolutional.rs` lines 287-290. -/
def switch_to_inference_u (b : Build) : Unwind (ConvolutionalLayer F) Unit := do
  assign fun l => { l with run_state := .Inference }
  update_tensors_u b

/-- `switch_to_training`, `/repo/src/layer/convolutional.rs` lines 291-294. -/
def switch_to_training_u (b : Build) : Unwind (ConvolutionalLayer F) Unit := do
  assign fun l => { l with run_state := .Training }
  update_tensors_u b

end ConvolutionalLayer

namespace AnyLayer

/-- rewrap the state a method of a layer leaves -/
def rewrap_u {L α : Type} (w : L → AnyLayer F) (r : Except PanicKind α × L) :
    Except PanicKind α × AnyLayer F := (r.1, w r.2)

/-- `Layer::switch_to_inference`, `/repo/src/layer.rs` line 65. -/
def switch_to_inference_u (b : Build) : Unwind (AnyLayer F) Unit
  | .conv l => rewrap_u .conv (ConvolutionalLayer.switch_to_inference_u b l)
  | .fc l => rewrap_u .fc (FullyConnectedLayer.switch_to_inference_u b l)
  | .mp l => rewrap_u .mp (MaxPoolLayer.switch_to_inference_u b l)
  | .sm l => rewrap_u .sm (SoftmaxLayer.switch_to_inference_u b l)

/-- `Layer::switch_to_training`, `/repo/src/layer.rs` line 64. -/
def switch_to_training_u (b : Build) : Unwind (AnyLayer F) Unit
  | .conv l => rewrap_u .conv (ConvolutionalLayer.switch_to_training_u b l)
  | .fc l => rewrap_u .fc (FullyConnectedLayer.switch_to_training_u b l)
  | .mp l => rewrap_u .mp (MaxPoolLayer.switch_to_training_u b l)
  | .sm l => rewrap_u .sm (SoftmaxLayer.switch_to_training_u b l)

/-- `Layer::load_from_serialized`, `/repo/src/layer.rs` lines 71-74. -/
def load_from_serialized_u [F32Bits F] (b : Build) (s : SerializedLayer) : Unwind (AnyLayer F) Res
  | .conv l => rewrap_u .conv (ConvolutionalLayer.load_from_serialized_u b s l)
  | .fc l => rewrap_u .fc (FullyConnectedLayer.load_from_serialized_u b s l)
  | .mp l => rewrap_u .mp (MaxPoolLayer.load_from_serialized_u b s l)
  | .sm l => rewrap_u .sm (SoftmaxLayer.load_from_serialized_u b s l)

end AnyLayer

namespace Network

/-- a loop over `iter_mut()` of a vector -/
def each {L : Type} (m : Unwind L Unit) : List L → Except PanicKind Unit × List L
  | [] => (.ok (), [])
  | x :: xs => match m x with
    | (.error p, x') => (.error p, x' :: xs)
    | (.ok (), x') => ((each m xs).1, x' :: (each m xs).2)

/-- `add_layer`, `/repo/src/network.rs` lines 102-159.  The layer is an owned argument: when its switch
panics, it is gone. -/
def add_layer_u (b : Build) (layer : AnyLayer F) : Unwind (Network F (AnyLayer F)) Res := do
  let layer ← eval fun n => enter_mode b n.run_state layer
  match ← eval fun n => .ok n.layers.getLast? with
  | none =>
    assign fun n => { n with input_shape := layer.get_input_shape }
    assign fun n => { n with output_shape := layer.get_output_shape }
    assign fun n => { n with layers := n.layers ++ [layer] }
    let t ← eval fun n => Tensor.new b n.input_shape
    assign fun n => { n with intermediate_states := n.intermediate_states ++ [t] }
    let t ← eval fun n => Tensor.new b n.output_shape
    assign fun n => { n with intermediate_states := n.intermediate_states ++ [t] }
    if (← eval fun n => .ok n.run_state) = .Training then
      let t ← eval fun n => Tensor.new b n.input_shape
      assign fun n => { n with intermediate_gradients := n.intermediate_gradients ++ [t] }
      let t ← eval fun n => Tensor.new b n.output_shape
      assign fun n => { n with intermediate_gradients := n.intermediate_gradients ++ [t] }
      pure (.ok ())
    else pure (.ok ())
  | some last =>
    if last.get_output_shape ≠ layer.get_input_shape then
      pure (.error "Last output and new input shapes don't match")
    else
      assign fun n => { n with output_shape := layer.get_output_shape }
      assign fun n => { n with layers := n.layers ++ [layer] }
      let t ← eval fun n => Tensor.new b n.output_shape
      assign fun n => { n with intermediate_states := n.intermediate_states ++ [t] }
      if (← eval fun n => .ok n.run_state) = .Training then
        let t ← eval fun n => Tensor.new b n.output_shape
        assign fun n => { n with intermediate_gradients := n.intermediate_gradients ++ [t] }
        pure (.ok ())
      else pure (.ok ())

/-- a loop over the layers, `/repo/src/network.rs` lines 188-190 and 199-201 -/
def each_layer (m : Unwind (AnyLayer F) Unit) : Unwind (Network F (AnyLayer F)) Unit := fun n =>
  ((each m n.layers).1, { n with layers := (each m n.layers).2 })

/-- the loop over the states, `/repo/src/network.rs` lines 192-195 -/
def push_gradients_u (b : Build) : List (Tensor F) → Unwind (Network F (AnyLayer F)) Unit
  | [] => pure ()
  | t :: ts => do
    let g ← eval fun _ => Tensor.new b t.shape
    assign fun n => { n with intermediate_gradients := n.intermediate_gradients ++ [g] }
    push_gradients_u b ts

/-- `switch_to_training`, `/repo/src/network.rs` lines 186-196. -/
def switch_to_training_u (b : Build) : Unwind (Network F (AnyLayer F)) Unit := do
  assign fun n => { n with run_state := .Training }
  each_layer (AnyLayer.switch_to_training_u b)
  assign fun n => { n with intermediate_gradients := [] }
  push_gradients_u b (← eval fun n => .ok n.intermediate_states)

/-- `switch_to_inference`, `/repo/src/network.rs` lines 197-204. -/
def switch_to_inference_u (b : Build) : Unwind (Network F (AnyLayer F)) Unit := do
  assign fun n => { n with run_state := .Training }
  each_layer (AnyLayer.switch_to_inference_u b)
  assign fun n => { n with intermediate_gradients := [] }

/-- `SerializedLayer::add_to_network`, `/repo/src/layer.rs` lines 22-49.  The layer is a local variable. -/
def add_to_network_u [F32Bits F] (b : Build) (s : SerializedLayer) : Unwind (Network F (AnyLayer F)) Res :=
  let continue_ (L : Type) (w : L → AnyLayer F) (x : Exec (Res × L)) :
      Unwind (Network F (AnyLayer F)) Res := do
    let r ← eval fun _ => x
    match r.1 with
    | .error e => pure (.error e)
    | .ok () => add_layer_u b (w r.2)
  match s with
  | .SerialConvolutionalLayer _ => do
    let l ← eval fun _ => ConvolutionalLayer.empty b
    continue_ _ .conv (l.load_from_serialized b s)
  | .SerialFullyConnectedLayer _ => do
    let l ← eval fun _ => FullyConnectedLayer.empty b
    continue_ _ .fc (l.load_from_serialized b s)
  | .SerialMaxPoolLayer _ => continue_ _ .mp (MaxPoolLayer.empty.load_from_serialized b s)
  | .SerialSoftMaxLayer _ => do
    let l ← eval fun _ => SoftmaxLayer.empty b
    continue_ _ .sm (l.load_from_serialized b s)

/-- `populate_network`, `/repo/src/network.rs` lines 34-39. -/
def populate_u [F32Bits F] (b : Build) : List SerializedLayer → Unwind (Network F (AnyLayer F)) Res
  | [] => pure (.ok ())
  | s :: ss => do
    match ← add_to_network_u b s with
    | .error e => pure (.error e)
    | .ok () => populate_u b ss

/-- `load_from_file`, `/repo/src/network.rs` lines 95-100. -/
def load_from_file_u [F32Bits F] (b : Build) (fs : FS) (filename : String) :
    Unwind (Network F (AnyLayer F)) Res :=
  match fs filename with
  | none => pure (.error "io error")
  | some file_content =>
    match deserialize decSerializedNetwork file_content with
    | none => pure (.error "bincode error")
    | some sn => populate_u b sn.serial_layers

end Network

end Rusty
