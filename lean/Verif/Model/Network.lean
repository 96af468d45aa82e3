import Verif.Model.Layers

/-!
# Model of `/repo/src/network.rs` and of `SerializedLayer::add_to_network` (`/repo/src/layer.rs`)
-/

namespace Rusty

open F32Ops

variable {F : Type} [F32Ops F]

/-- `Network`, `/repo/src/network.rs` lines 59-66, over any type `L` of layers. -/
structure Network (F L : Type) where
  layers : List L
  intermediate_states : List (Tensor F)
  intermediate_gradients : List (Tensor F)
  input_shape : TensorShape
  output_shape : TensorShape
  run_state : NetworkRunState

namespace Network

variable {L : Type} [LayerOps F L]

/-- `new`, `/repo/src/network.rs` lines 70-87. -/
def new (run_state : NetworkRunState) : Network F L :=
  { layers := [], input_shape := ⟨0, 0, 0⟩, output_shape := ⟨0, 0, 0⟩, intermediate_states := [],
    intermediate_gradients := [], run_state := run_state }

/-- the `match` at the start of `add_layer`, `/repo/src/network.rs` lines 107-114 -/
def enter_mode (b : Build) (m : NetworkRunState) (layer : L) : Exec L :=
  match m with
  | .Inference => LayerOps.switch_to_inference b layer
  | .Training => LayerOps.switch_to_training b layer

/-- `add_layer`, `/repo/src/network.rs` lines 102-159. -/
def add_layer (b : Build) (n : Network F L) (layer : L) : Exec (Res × Network F L) := do
  let layer ← enter_mode b n.run_state layer
  match n.layers.getLast? with
  | none =>
    let ins := LayerOps.get_input_shape layer
    let outs := LayerOps.get_output_shape layer
    let t1 ← Tensor.new b ins
    let t2 ← Tensor.new b outs
    let n := { n with input_shape := ins, output_shape := outs, layers := n.layers ++ [layer],
                      intermediate_states := n.intermediate_states ++ [t1, t2] }
    if n.run_state = .Training then
      let g1 ← Tensor.new b ins
      let g2 ← Tensor.new b outs
      pure (.ok (), { n with intermediate_gradients := n.intermediate_gradients ++ [g1, g2] })
    else pure (.ok (), n)
  | some last =>
    if LayerOps.get_output_shape last ≠ LayerOps.get_input_shape layer then
      pure (.error "Last output and new input shapes don't match", n)
    else
      let outs := LayerOps.get_output_shape layer
      let t ← Tensor.new b outs
      let n := { n with output_shape := outs, layers := n.layers ++ [layer],
                        intermediate_states := n.intermediate_states ++ [t] }
      if n.run_state = .Training then
        let g ← Tensor.new b outs
        pure (.ok (), { n with intermediate_gradients := n.intermediate_gradients ++ [g] })
      else pure (.ok (), n)

/-- `get_intermediate_state`, `/repo/src/network.rs` lines 172-177. -/
def get_intermediate_state (n : Network F L) (id : Nat) : Except String (Tensor F) :=
  match n.intermediate_states[id]? with
  | none => .error "Trying to access an intermediate state that does not exist"
  | some t => .ok t

/-- `get_input_shape`, `/repo/src/network.rs` lines 162-164. -/
def get_input_shape (n : Network F L) : TensorShape := n.input_shape

/-- `get_output_shape`, `/repo/src/network.rs` lines 167-169. -/
def get_output_shape (n : Network F L) : TensorShape := n.output_shape

/-- `get_layers`, `/repo/src/network.rs` lines 179-181. -/
def get_layers (n : Network F L) : List L := n.layers

/-- `get_run_state`, `/repo/src/network.rs` lines 183-185. -/
def get_run_state (n : Network F L) : NetworkRunState := n.run_state

/-- `get_output`, `/repo/src/network.rs` lines 285-290. -/
def get_output (n : Network F L) : Except String (Tensor F) :=
  if n.intermediate_states.length < 2 then .error "Network does not contain an output"
  else match n.intermediate_states.getLast? with
    | none => .error "unreachable: the list has at least two elements"
    | some t => .ok t

/-- `switch_to_training`, `/repo/src/network.rs` lines 186-196. -/
def switch_to_training (b : Build) (n : Network F L) : Exec (Network F L) := do
  let layers ← n.layers.mapM (LayerOps.switch_to_training b)
  let grads ← n.intermediate_states.mapM (fun t => Tensor.new b t.shape)
  pure { n with run_state := .Training, layers := layers, intermediate_gradients := grads }

/-- `switch_to_inference`, `/repo/src/network.rs` lines 197-204. Line 198 assigns
`NetworkRunState::Training`; the model does the same. -/
def switch_to_inference (b : Build) (n : Network F L) : Exec (Network F L) := do
  let layers ← n.layers.mapM (LayerOps.switch_to_inference b)
  pure { n with run_state := .Training, layers := layers, intermediate_gradients := [] }

/-- one iteration of the loop of `infer`, `/repo/src/network.rs` lines 222-236 -/
def infer_step (b : Build) (s : List L × List (Tensor F)) (i : Nat) :
    Exec (Res × (List L × List (Tensor F))) := do
  let (layers, states) := s
  -- `split_at_mut(i + 1)`
  if states.length < i + 1 then .error .oob
  else
    let layer ← vget layers i
    match states[i]?, states[i + 1]? with
    | some input, some output =>
      let (r, layer, output) ← LayerOps.forward b layer input output
      let layers ← vset layers i layer
      let states ← vset states (i + 1) output
      pure (r, (layers, states))
    | _, _ => .error .unwrap

/-- `infer`, `/repo/src/network.rs` lines 206-239. -/
def infer (b : Build) (n : Network F L) (input : Tensor F) : Exec (Res × Network F L) :=
  if input.shape ≠ n.input_shape then pure (.error "Input shape not as expected", n)
  else if n.intermediate_states.length < 2 then
    pure (.error "Network does not contain any layers", n)
  else do
    let states ← vset n.intermediate_states 0 input
    let (r, (layers, states)) ← forListE (List.range n.layers.length) (n.layers, states)
      (fun i s => infer_step b s i)
    pure (r, { n with layers := layers, intermediate_states := states })

/-- one iteration of the loop of `backward`, `/repo/src/network.rs` lines 264-280 -/
def backward_step (b : Build) (states : List (Tensor F)) (s : List L × List (Tensor F)) (i : Nat) :
    Exec (Res × (List L × List (Tensor F))) := do
  let (layers, grads) := s
  -- `split_at_mut(i + 1)`
  if grads.length < i + 1 then .error .oob
  else
    let layer ← vget layers i
    match grads[i + 1]?, grads[i]? with
    | some incoming, some outgoing =>
      let input ← vget states i
      let output ← vget states (i + 1)
      let (r, layer, outgoing) ← LayerOps.backward b layer input output incoming outgoing
      let layers ← vset layers i layer
      let grads ← vset grads i outgoing
      pure (r, (layers, grads))
    | _, _ => .error .unwrap

/-- `backward`, `/repo/src/network.rs` lines 241-283. -/
def backward (b : Build) (n : Network F L) (incoming_loss_gradient : Tensor F) :
    Exec (Res × Network F L) :=
  if incoming_loss_gradient.shape ≠ n.output_shape then
    pure (.error "Incoming loss gradient shape not as expected", n)
  else if n.layers.length < 1 then pure (.error "Network does not contain any layers", n)
  else if n.run_state ≠ .Training then
    pure (.error "Can only propagate backwards in training mode", n)
  else do
    let grads ← vset n.intermediate_gradients n.layers.length incoming_loss_gradient
    let (r, (layers, grads)) ← forListE (List.range n.layers.length).reverse (n.layers, grads)
      (fun i s => backward_step b n.intermediate_states s i)
    pure (r, { n with layers := layers, intermediate_gradients := grads })

end Network

/-! ## Saving and loading -/

/-- `SerializedLayer::add_to_network`, `/repo/src/layer.rs` lines 22-49. -/
def SerializedLayer.add_to_network [F32Bits F] (b : Build) (s : SerializedLayer)
    (n : Network F (AnyLayer F)) : Exec (Res × Network F (AnyLayer F)) :=
  match s with
  | .SerialConvolutionalLayer _ => do
    let l ← ConvolutionalLayer.empty b
    let (r, l) ← l.load_from_serialized b s
    match r with
    | .error e => pure (.error e, n)
    | .ok () => n.add_layer b (.conv l)
  | .SerialFullyConnectedLayer _ => do
    let l ← FullyConnectedLayer.empty b
    let (r, l) ← l.load_from_serialized b s
    match r with
    | .error e => pure (.error e, n)
    | .ok () => n.add_layer b (.fc l)
  | .SerialMaxPoolLayer _ => do
    let l := MaxPoolLayer.empty
    let (r, l) ← l.load_from_serialized b s
    match r with
    | .error e => pure (.error e, n)
    | .ok () => n.add_layer b (.mp l)
  | .SerialSoftMaxLayer _ => do
    let l ← SoftmaxLayer.empty b
    let (r, l) ← l.load_from_serialized b s
    match r with
    | .error e => pure (.error e, n)
    | .ok () => n.add_layer b (.sm l)

/-- `SerializedNetwork`, `/repo/src/network.rs` lines 21-24. -/
structure SerializedNetwork where
  serial_layers : List SerializedLayer

namespace SerializedNetwork

/-- `populate_network`, `/repo/src/network.rs` lines 34-39. -/
def populate_network [F32Bits F] (b : Build) (sn : SerializedNetwork)
    (n : Network F (AnyLayer F)) : Exec (Res × Network F (AnyLayer F)) :=
  forListE sn.serial_layers n (fun layer n => layer.add_to_network b n)

/-- `new_from_network`, `/repo/src/network.rs` lines 41-49. It always returns `Ok`. -/
def new_from_network [F32Bits F] (n : Network F (AnyLayer F)) : SerializedNetwork :=
  ⟨n.get_layers.map AnyLayer.get_serialized⟩

end SerializedNetwork

/-- `#[derive(Serialize)]` of `SerializedLayer`, `/repo/src/layer.rs` lines 13-19: variant index, then
the map. -/
def encSerializedLayer : SerializedLayer → Bytes
  | .SerialConvolutionalLayer m => encU32 0 ++ encHMap m
  | .SerialFullyConnectedLayer m => encU32 1 ++ encHMap m
  | .SerialMaxPoolLayer m => encU32 2 ++ encHMap m
  | .SerialSoftMaxLayer m => encU32 3 ++ encHMap m

/-- `#[derive(Deserialize)]` of `SerializedLayer`, `/repo/src/layer.rs` lines 13-19. -/
def decSerializedLayer : Dec SerializedLayer := fun bs => do
  let (tag, r) ← decU32 bs
  match tag.toNat with
  | 0 => do let (m, r) ← decHMap r; pure (.SerialConvolutionalLayer m, r)
  | 1 => do let (m, r) ← decHMap r; pure (.SerialFullyConnectedLayer m, r)
  | 2 => do let (m, r) ← decHMap r; pure (.SerialMaxPoolLayer m, r)
  | 3 => do let (m, r) ← decHMap r; pure (.SerialSoftMaxLayer m, r)
  | _ => none

/-- `#[derive(Serialize)]` of `SerializedNetwork`, `/repo/src/network.rs` lines 21-24, and `to_byte_array`,
lines 51-56; serialising to memory does not fail. -/
def encSerializedNetwork (sn : SerializedNetwork) : Bytes :=
  encVec encSerializedLayer sn.serial_layers

/-- `#[derive(Deserialize)]` of `SerializedNetwork`, `/repo/src/network.rs` lines 21-24. -/
def decSerializedNetwork : Dec SerializedNetwork := fun bs => do
  let (ls, r) ← decVec decSerializedLayer bs
  pure (⟨ls⟩, r)

/-- The order in which iterating over a `HashMap` yields its entries is unspecified. A `HashOrder`
picks, for the map of the layer at each position, any permutation of its entries. -/
structure HashOrder where
  pick : Nat → {K : Type} → List (K × Bytes) → List (K × Bytes)
  perm : ∀ i {K : Type} (l : List (K × Bytes)), (pick i l).Perm l

namespace HashOrder

/-- the entries of one serialised layer put in iteration order -/
def layer (o : HashOrder) (i : Nat) : SerializedLayer → SerializedLayer
  | .SerialConvolutionalLayer m => .SerialConvolutionalLayer ⟨o.pick i m.entries⟩
  | .SerialFullyConnectedLayer m => .SerialFullyConnectedLayer ⟨o.pick i m.entries⟩
  | .SerialMaxPoolLayer m => .SerialMaxPoolLayer ⟨o.pick i m.entries⟩
  | .SerialSoftMaxLayer m => .SerialSoftMaxLayer ⟨o.pick i m.entries⟩

/-- all layers put in iteration order -/
def network (o : HashOrder) (sn : SerializedNetwork) : SerializedNetwork :=
  ⟨sn.serial_layers.mapIdx (fun i l => o.layer i l)⟩

/-- insertion order -/
def id : HashOrder := ⟨fun _ _ l => l, fun _ _ l => List.Perm.refl l⟩

/-- reversed insertion order -/
def rev : HashOrder := ⟨fun _ _ l => l.reverse, fun _ _ l => List.reverse_perm l⟩

end HashOrder

/-- the file system: file contents by name -/
abbrev FS := String → Option Bytes

namespace FS

/-- set the contents of a file -/
def set (fs : FS) (name : String) (bs : Bytes) : FS :=
  fun n => if n = name then some bs else fs n

end FS

/-- How `fs::write` (create/truncate, then write) can end: normally, failing before the file is
truncated, or being cut off (error or crash) after `n` bytes. -/
inductive WriteOutcome
  | done
  | notOpened
  | cutAt (n : Nat)

/-- `std::fs::write` -/
def fs_write (w : WriteOutcome) (fs : FS) (name : String) (bs : Bytes) : Res × FS :=
  match w with
  | .done => (.ok (), fs.set name bs)
  | .notOpened => (.error "io error", fs)
  | .cutAt n => (.error "io error", fs.set name (bs.take n))

namespace Network

/-- `save_to_file`, `/repo/src/network.rs` lines 89-94. (The error value `Box<dyn Error>` is
simplified to a string.) -/
def save_to_file [F32Bits F] (o : HashOrder) (w : WriteOutcome) (n : Network F (AnyLayer F))
    (fs : FS) (filename : String) : Res × FS :=
  fs_write w fs filename (encSerializedNetwork (o.network (SerializedNetwork.new_from_network n)))

/-- `load_from_file`, `/repo/src/network.rs` lines 95-100. -/
def load_from_file [F32Bits F] (b : Build) (n : Network F (AnyLayer F)) (fs : FS)
    (filename : String) : Exec (Res × Network F (AnyLayer F)) :=
  match fs filename with
  | none => pure (.error "io error", n)
  | some file_content =>
    match deserialize decSerializedNetwork file_content with
    | none => pure (.error "bincode error", n)
    | some sn => sn.populate_network b n

end Network

namespace Tensor

omit [F32Ops F]

/-- `save_to_file`, `/repo/src/tensor.rs` lines 120-124. -/
def save_to_file [F32Bits F] (w : WriteOutcome) (t : Tensor F) (fs : FS) (filename : String) :
    Res × FS :=
  fs_write w fs filename (encTensor t)

/-- `from_file`, `/repo/src/tensor.rs` lines 126-130. -/
def from_file [F32Bits F] (fs : FS) (filename : String) : Except String (Tensor F) :=
  match fs filename with
  | none => .error "io error"
  | some bs =>
    match deserialize decTensor bs with
    | none => .error "bincode error"
    | some t => .ok t

end Tensor

end Rusty
