import Verif.Spec.Pooling
import Verif.Model.Layers

/-!
# Well formed layers and what they compute

`Ok` is what the constructors establish (property C52) and all layer methods preserve: shapes fit
each other and the helper tensors of training mode have the sizes the parameters demand.
-/

namespace Rusty

open F32Ops Spec

/-- the laws of exact addition (reals, integers; not IEEE floats) -/
class ExactAdd (F : Type) [F32Ops F] : Prop where
  add_assoc : ∀ x y z : F, add (add x y) z = add x (add y z)
  add_comm : ∀ x y : F, add x y = add y x
  zero_add : ∀ x : F, add zero x = x

/-- a value that results from adding any number of values to `0.0`, one after the other -/
inductive Summed {F : Type} [F32Ops F] : F → Prop
  | zero : Summed zero
  | add (x y : F) : Summed x → Summed (add x y)

/-- For sums `x` that start from `0.0`, `max(x, 0.0)` is `x` where `x > 0.0` and `0.0` elsewhere.  IEEE
arithmetic satisfies this: such sums are never `-0.0` (`ieeeMaxZero` in `Verif/Lemmas/IEEELaws.lean`). -/
class MaxZero (F : Type) [F32Ops F] : Prop where
  fmax_zero : ∀ x : F, Summed x → fmax x zero = if gt x zero then x else zero

variable {F : Type} [F32Ops F]

/-- the index triples of a shape, in storage order -/
def TensorShape.indices (s : TensorShape) : List (Nat × Nat × Nat) :=
  idx3 s.di.toNat s.dj.toNat s.dk.toNat

/-- a fully connected layer with `W : out x in`, `bias : out x 1` -/
structure FullyConnectedLayer.Ok (l : FullyConnectedLayer F) : Prop where
  weights : l.weights.WF
  bias : l.bias.WF
  rows : l.bias.shape = ⟨l.weights.shape.di, 1, 1⟩
  depth : l.weights.shape.dk = 1
  buffers : l.run_state = .Training →
    (l.weights_gradients.WF ∧ l.weights_gradients.shape = l.weights.shape) ∧
    (l.weights_gradients_intermediate.WF ∧
      l.weights_gradients_intermediate.shape = l.weights.shape) ∧
    (l.bias_gradients.WF ∧ l.bias_gradients.shape = l.bias.shape) ∧
    (l.relu_mask.WF ∧ l.relu_mask.shape = l.bias.shape)

/-- a max-pool layer whose windows tile its input -/
structure MaxPoolLayer.Ok (l : MaxPoolLayer) : Prop where
  stride : l.stride ≠ 0
  tiles : windowsTile l.input_shape l.mask_shape l.stride l.output_shape
  depth : l.output_shape.dk = l.input_shape.dk
  input : l.input_shape.Fits
  output : l.output_shape.Fits
  buffers : l.run_state = .Training → l.max_pool_origin.length = l.output_shape.count

/-- a softmax layer of representable shape -/
structure SoftmaxLayer.Ok (l : SoftmaxLayer F) : Prop where
  shape : l.shape.Fits
  buffers : l.run_state = .Training →
    (l.intermediate1.WF ∧ l.intermediate1.shape = ⟨1, 1, 1⟩) ∧
    (l.intermediate2.WF ∧ l.intermediate2.shape = l.shape)

/-- a convolutional layer: kernels of one shape as deep as the input, one 1x1x1 bias each, windows
that tile the input -/
structure ConvolutionalLayer.Ok (l : ConvolutionalLayer F) : Prop where
  stride : l.stride ≠ 0
  input : l.input_shape.Fits
  output : l.output_shape.Fits
  count : l.kernels.length = l.output_shape.dk.toNat
  kernels : ∀ k ∈ l.kernels, k.WF ∧ k.shape.dk = l.input_shape.dk ∧
    windowsTile l.input_shape k.shape l.stride l.output_shape
  biasCount : l.biases.length = l.kernels.length
  biases : ∀ k ∈ l.biases, k.WF ∧ k.shape = ⟨1, 1, 1⟩
  buffers : l.run_state = .Training →
    (l.kernel_gradients.length = l.kernels.length ∧
      ∀ i (h : i < l.kernel_gradients.length) (h' : i < l.kernels.length),
        l.kernel_gradients[i].WF ∧ l.kernel_gradients[i].shape = l.kernels[i].shape) ∧
    (l.bias_gradients.length = l.kernels.length ∧
      ∀ g ∈ l.bias_gradients, g.WF ∧ g.shape = ⟨1, 1, 1⟩) ∧
    (l.relu_mask.WF ∧ l.relu_mask.shape = l.output_shape)

/-- a well formed layer of any of the four types -/
def AnyLayer.Ok : AnyLayer F → Prop
  | .conv l => l.Ok
  | .fc l => l.Ok
  | .mp l => l.Ok
  | .sm l => l.Ok

/-- the shapes of a layer's parameters and states have representable element counts -/
def ShapesFit : AnyLayer F → Prop
  | .conv l => (∀ k ∈ l.kernels, k.shape.Fits) ∧ l.output_shape.Fits
  | .fc l => l.weights.shape.Fits ∧ l.bias.shape.Fits
  | .mp l => l.output_shape.Fits
  | .sm l => l.shape.Fits

namespace Spec

/-- pre-activation of output `o` of a fully connected layer: `sum_l W(o,l) x(l) + bias(o)` -/
def preact (l : FullyConnectedLayer F) (x : Tensor F) (o : Nat) : F :=
  add (sum ((List.range l.weights.shape.dj.toNat).map fun i =>
    mul (val l.weights o i 0) (val x i 0 0))) (val l.bias o 0 0)

/-- pre-activation of output `(i,j,k)` of a convolutional layer: convolution with kernel `k` plus
bias `k` -/
def convPre (l : ConvolutionalLayer F) (x : Tensor F) (i j k : Nat) : F :=
  match l.kernels[k]?, l.biases[k]? with
  | some kernel, some bias => add (conv x kernel l.stride.toNat i j) (val bias 0 0 0)
  | _, _ => zero

/-- the normalised exponential of `x` at `(i,j,k)` -/
def softmaxAt (x : Tensor F) (i j k : Nat) : F :=
  div (exp (val x i j k)) (sum (x.shape.indices.map fun p => exp (val x p.1 p.2.1 p.2.2)))

/-- one training round of a client: an input, a gradient, and the tensors to be overwritten -/
structure Round (F : Type) where
  x : Tensor F
  g : Tensor F
  out : Tensor F
  og : Tensor F

/-- the tensors of a round have the shapes the fully connected layer asks for -/
structure Round.FitsFC (r : Round F) (l : FullyConnectedLayer F) : Prop where
  x : r.x.WF ∧ r.x.shape = l.get_input_shape
  g : r.g.WF ∧ r.g.shape = l.get_output_shape
  out : r.out.WF ∧ r.out.shape = l.get_output_shape
  og : r.og.WF ∧ r.og.shape = l.get_input_shape

/-- The client calls `forward` and `backward` once per round; all calls return `Ok` and `l'` is the
layer afterwards. -/
inductive FCRun (b : Build) : FullyConnectedLayer F → List (Round F) → FullyConnectedLayer F → Prop
  | done (l) : FCRun b l [] l
  | round (l l1 l2 l') (r : Round F) (rest) (out og) :
      l.forward b r.x r.out = .ok (.ok (), l1, out) →
      l1.backward b r.x out r.g r.og = .ok (.ok (), l2, og) →
      FCRun b l2 rest l' → FCRun b l (r :: rest) l'

end Spec

end Rusty
