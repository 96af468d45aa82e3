import Verif.Spec.Layers

/-! # What clients can observe of a layer, and what it computes -/

namespace Rusty

open F32Ops Spec

variable {F : Type} [F32Ops F]

namespace Spec

/-- a tensor of no significance -/
def blank : Tensor F := ⟨⟨0, 0, 0⟩, ⟨0, 0, 0⟩, []⟩

/-- The layer with its mode, gradients and helper tensors blanked.  What is left are the parameters:
weights, kernels, biases, stride, mask, shapes and name. -/
def params : AnyLayer F → AnyLayer F
  | .conv l => .conv { l with kernel_gradients := [], bias_gradients := [], relu_mask := blank,
                              run_state := .Inference }
  | .fc l => .fc { l with weights_gradients := blank, weights_gradients_intermediate := blank,
                          bias_gradients := blank, relu_mask := blank, run_state := .Inference }
  | .mp l => .mp { l with max_pool_origin := [], run_state := .Inference }
  | .sm l => .sm { l with intermediate1 := blank, intermediate2 := blank,
                          run_state := .Inference }

/-- all entries of a tensor are zero -/
def allZero (t : Tensor F) : Prop := ∀ v ∈ t.data, v = zero

/-- all stored gradients and helper data are zero -/
def cleared : AnyLayer F → Prop
  | .conv l => (∀ g ∈ l.kernel_gradients, allZero g) ∧ (∀ g ∈ l.bias_gradients, allZero g) ∧
      allZero l.relu_mask
  | .fc l => allZero l.weights_gradients ∧ allZero l.weights_gradients_intermediate ∧
      allZero l.bias_gradients ∧ allZero l.relu_mask
  | .mp l => ∀ o ∈ l.max_pool_origin, o = 0
  | .sm l => allZero l.intermediate1 ∧ allZero l.intermediate2

/-- the running maximum of a window, starting below everything -/
def maxOf (w : List F) : F := w.foldl (fun m e => if gt e m then e else m) negInf

/-- the activation function in either mode: `max(v, 0)`, or a comparison with zero -/
def act : NetworkRunState → F → F
  | .Inference, v => fmax v zero
  | .Training, v => relu v

/-- entry `(i,j,k)` of the output of a layer for input `x` -/
def layerAt : AnyLayer F → Tensor F → Nat → Nat → Nat → F
  | .conv l, x, i, j, k => act l.run_state (convPre l x i j k)
  | .fc l, x, i, _, _ => act l.run_state (preact l x i)
  | .mp l, x, i, j, k => maxOf (window x l.mask_shape l.stride.toNat i j k)
  | .sm _, x, i, j, k => softmaxAt x i j k

/-- `Call b l l'`: some method of the `Layer` trait, called with some arguments on `l`, returns
normally (with `Ok` or `Err`) and leaves `l'`. -/
inductive Call (b : Build) : AnyLayer F → AnyLayer F → Prop
  | forward (l x out r l' y) : l.forward b x out = .ok (r, l', y) → Call b l l'
  | backward (l x y g og r l' og') : l.backward b x y g og = .ok (r, l', og') → Call b l l'
  | clear_gradients (l) : Call b l l.clear_gradients
  | apply_gradients (l) : Call b l l.apply_gradients
  | switch_to_training (l l') : l.switch_to_training b = .ok l' → Call b l l'
  | switch_to_inference (l l') : l.switch_to_inference b = .ok l' → Call b l l'

/-- a finite sequence of such calls -/
inductive Calls (b : Build) : AnyLayer F → AnyLayer F → Prop
  | none (l) : Calls b l l
  | more (l l' l'') : Calls b l l' → Call b l' l'' → Calls b l l''

end Spec

end Rusty
