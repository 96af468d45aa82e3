import Verif.Spec.Network

/-! # Specification: how many numbers a network stores (C90) -/

namespace Rusty.Spec

open F32Ops

variable {F : Type} [F32Ops F]

/-- the numbers stored in a list of tensors -/
def cells (ts : List (Tensor F)) : Nat := (ts.map fun t => t.data.length).sum

/-- everything a layer stores: parameters, gradients, masks, intermediate results and positions of maxima -/
def layerCells : AnyLayer F → Nat
  | .conv l => cells l.kernels + cells l.biases + cells l.kernel_gradients + cells l.bias_gradients +
      cells [l.relu_mask]
  | .fc l => cells [l.weights, l.bias, l.weights_gradients, l.weights_gradients_intermediate, l.bias_gradients,
      l.relu_mask]
  | .mp l => l.max_pool_origin.length
  | .sm l => cells [l.intermediate1, l.intermediate2]

/-- everything a network stores -/
def netCells (n : Net F) : Nat :=
  (n.get_layers.map layerCells).sum + cells n.intermediate_states + cells n.intermediate_gradients

/-- the numbers of the parameters of a layer -/
def paramCells : AnyLayer F → Nat
  | .conv l => (l.kernels.map fun k => k.shape.count).sum + l.kernels.length
  | .fc l => l.weights.shape.count + l.bias.shape.count
  | .mp _ => 0
  | .sm _ => 0

/-- the numbers a layer stores besides its parameters, in either mode -/
def bufferCells : NetworkRunState → AnyLayer F → Nat
  | .Training, .conv l => (l.kernels.map fun k => k.shape.count).sum + l.kernels.length + l.output_shape.count
  | .Training, .fc l => 2 * l.weights.shape.count + 2 * l.bias.shape.count
  | .Training, .mp l => l.output_shape.count
  | .Training, .sm l => 1 + l.shape.count
  | .Inference, .conv _ => 1
  | .Inference, .fc _ => 4
  | .Inference, .mp _ => 0
  | .Inference, .sm _ => 2

/-- the numbers between the layers: the input and the output of every layer -/
def stateCells (ls : List (AnyLayer F)) : Nat := ((stateShapes ls).map TensorShape.count).sum

/-- all histories of a network with layers and tensors that are well formed -/
inductive Lives (b : Build) : Net F → Prop
  | new (m) : Lives b (Network.new m)
  | add_layer (n l r n') : Lives b n → l.Ok → n.add_layer b l = .ok (r, n') → Lives b n'
  | infer (n x r n') : Lives b n → x.WF → n.infer b x = .ok (r, n') → Lives b n'
  | backward (n g r n') : Lives b n → g.WF → n.backward b g = .ok (r, n') → Lives b n'
  | switch_to_training (n n') : Lives b n → n.switch_to_training b = .ok n' → Lives b n'
  | switch_to_inference (n n') : Lives b n → n.switch_to_inference b = .ok n' → Lives b n'

end Rusty.Spec
