import Verif.Spec.AnyLayer
import Verif.Model.Network

/-! # Networks: histories of API calls, the chain of layers, what a network computes -/

namespace Rusty.Spec

open F32Ops Rusty

variable {F : Type} [F32Ops F]

/-- a network of the layers of the library -/
abbrev Net (F : Type) := Network F (AnyLayer F)

/-- `Uses b n n'`: a call of `infer`, `backward` or a mode switch on `n`, with some arguments,
returns normally (with `Ok` or `Err`) and leaves `n'`. -/
inductive Uses (b : Build) : Net F → Net F → Prop
  | infer (n x r n') : n.infer b x = .ok (r, n') → Uses b n n'
  | backward (n g r n') : n.backward b g = .ok (r, n') → Uses b n n'
  | switch_to_training (n n') : n.switch_to_training b = .ok n' → Uses b n n'
  | switch_to_inference (n n') : n.switch_to_inference b = .ok n' → Uses b n n'

/-- a finite sequence of such calls -/
inductive UsesMany (b : Build) : Net F → Net F → Prop
  | none (n) : UsesMany b n n
  | more (n n' n'') : UsesMany b n n' → Uses b n' n'' → UsesMany b n n''

/-- the networks a client can get at through the API, adding layers, using the network and loading
files, in any order -/
inductive Reach [F32Bits F] (b : Build) : Net F → Prop
  | new (m) : Reach b (Network.new m)
  | add_layer (n l r n') : Reach b n → n.add_layer b l = .ok (r, n') → Reach b n'
  | uses (n n') : Reach b n → Uses b n n' → Reach b n'
  | load_from_file (n fs name r n') :
      Reach b n → n.load_from_file b fs name = .ok (r, n') → Reach b n'

/-- the same without `switch_to_inference` -/
inductive ReachNoInf [F32Bits F] (b : Build) : Net F → Prop
  | new (m) : ReachNoInf b (Network.new m)
  | add_layer (n l r n') : ReachNoInf b n → n.add_layer b l = .ok (r, n') → ReachNoInf b n'
  | infer (n x r n') : ReachNoInf b n → n.infer b x = .ok (r, n') → ReachNoInf b n'
  | backward (n g r n') : ReachNoInf b n → n.backward b g = .ok (r, n') → ReachNoInf b n'
  | switch_to_training (n n') :
      ReachNoInf b n → n.switch_to_training b = .ok n' → ReachNoInf b n'
  | load_from_file (n fs name r n') :
      ReachNoInf b n → n.load_from_file b fs name = .ok (r, n') → ReachNoInf b n'

/-- the networks of `Reach`, adding well formed layers only, and without loading -/
inductive Built (b : Build) : Net F → Prop
  | new (m) : Built b (Network.new m)
  | add_layer (n l r n') : Built b n → l.Ok → n.add_layer b l = .ok (r, n') → Built b n'
  | uses (n n') : Built b n → Uses b n n' → Built b n'

/-- the shapes of the intermediate states a list of layers requires -/
def stateShapes : List (AnyLayer F) → List TensorShape
  | [] => []
  | l :: ls => l.get_input_shape :: (l :: ls).map AnyLayer.get_output_shape

/-- Each layer's output shape is the next layer's input shape, the network's shapes are those of its
ends, and there is one state per layer boundary, of the shape required. -/
structure Chain (n : Net F) : Prop where
  links : ∀ i l l', n.layers[i]? = some l → n.layers[i + 1]? = some l' →
    l.get_output_shape = l'.get_input_shape
  first : ∀ l, n.layers.head? = some l → n.get_input_shape = l.get_input_shape
  last : ∀ l, n.layers.getLast? = some l → n.get_output_shape = l.get_output_shape
  states : n.intermediate_states.map (·.shape) = stateShapes n.layers

/-- every layer is well formed, and so is every state that some layer wrote -/
structure NetOk (n : Net F) : Prop where
  chain : Chain n
  layers : ∀ l ∈ n.layers, l.Ok
  states : ∀ s ∈ n.intermediate_states.tail, s.WF

/-- every layer is in training mode and there is one well formed gradient per state, of its
shape -/
structure TrainReady (n : Net F) : Prop where
  mode : n.run_state = .Training
  layers : ∀ l ∈ n.layers, l.get_run_mode = .Training
  grads : n.intermediate_gradients.map (·.shape) = n.intermediate_states.map (·.shape)
  wf : ∀ g ∈ n.intermediate_gradients, g.WF

/-- histories in training mode: made in that mode or switched to it, not switched to inference since,
and with well formed gradients passed in -/
inductive Trains (b : Build) : Net F → Prop
  | new : Trains b (Network.new .Training)
  | switch_to_training (n n') : Built b n → n.switch_to_training b = .ok n' → Trains b n'
  | add_layer (n l r n') : Trains b n → l.Ok → n.add_layer b l = .ok (r, n') → Trains b n'
  | infer (n x r n') : Trains b n → n.infer b x = .ok (r, n') → Trains b n'
  | backward (n g r n') : Trains b n → g.WF → n.backward b g = .ok (r, n') → Trains b n'

/-- not a convolutional layer -/
def notConv : AnyLayer F → Prop
  | .conv _ => False
  | _ => True

/-- a layer whose backward pass can succeed: a fully connected layer, a max-pool layer with a
nonempty input (unless it has no outputs), or a softmax layer on a column -/
def backable : AnyLayer F → Prop
  | .conv _ => False
  | .fc _ => True
  | .mp l => 0 < l.output_shape.count → 0 < l.input_shape.count
  | .sm l => l.shape.dj = 1 ∧ l.shape.dk = 1

/-- `s'` holds the layer's function of `s` at every index -/
def applies (b : Build) (l : AnyLayer F) (s s' : Tensor F) : Prop :=
  s'.WF ∧ s'.shape = l.get_output_shape ∧ ∀ i j k, l.get_output_shape.Inside i j k →
    s'.get_item b (ix i j k) = .ok (layerAt l s i j k)

end Rusty.Spec
