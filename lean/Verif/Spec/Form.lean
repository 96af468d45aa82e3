import Verif.Model.Network
import Mathlib.Data.List.Forall2

/-! # Networks of the same form, whatever numbers they hold -/

namespace Rusty.Spec

open Rusty

variable {F G : Type}

/-- both panic alike, or both return and the values are related by `R` -/
def SameOutcome {α β : Type} (R : α → β → Prop) : Exec α → Exec β → Prop
  | .ok v, .ok w => R v w
  | .error p, .error q => p = q
  | _, _ => False

/-- the same shape, strides and amount of data -/
def SameForm (t : Tensor F) (u : Tensor G) : Prop :=
  t.shape = u.shape ∧ t.strides = u.strides ∧ t.data.length = u.data.length

/-- tensors of the same form, pairwise; the one with number `skip` does not count -/
def SameForms (skip : Nat) (ts : List (Tensor F)) (us : List (Tensor G)) : Prop :=
  ts.length = us.length ∧ ∀ i t u, i ≠ skip → ts[i]? = some t → us[i]? = some u → SameForm t u

/-- layers of the same kind, mode and geometry with tensors of the same form -/
def SameFormLayer : AnyLayer F → AnyLayer G → Prop
  | .conv l, .conv l' => List.Forall₂ SameForm l.kernels l'.kernels ∧ List.Forall₂ SameForm l.biases l'.biases ∧
      List.Forall₂ SameForm l.kernel_gradients l'.kernel_gradients ∧ SameForm l.relu_mask l'.relu_mask ∧
      l.stride = l'.stride ∧ l.output_shape = l'.output_shape ∧ l.run_state = l'.run_state
  | .fc l, .fc l' => SameForm l.weights l'.weights ∧ SameForm l.bias l'.bias ∧ SameForm l.relu_mask l'.relu_mask ∧
      SameForm l.weights_gradients l'.weights_gradients ∧ SameForm l.bias_gradients l'.bias_gradients ∧
      SameForm l.weights_gradients_intermediate l'.weights_gradients_intermediate ∧ l.run_state = l'.run_state
  | .mp l, .mp l' => l.mask_shape = l'.mask_shape ∧ l.stride = l'.stride ∧ l.run_state = l'.run_state ∧
      l.max_pool_origin.length = l'.max_pool_origin.length
  | .sm l, .sm l' => SameForm l.intermediate1 l'.intermediate1 ∧ SameForm l.intermediate2 l'.intermediate2 ∧
      l.run_state = l'.run_state
  | _, _ => False

/-- networks of the same form; the places for the input and for the loss gradient do not count -/
structure SameFormNet (n : Network F (AnyLayer F)) (n' : Network G (AnyLayer G)) : Prop where
  layers : List.Forall₂ SameFormLayer n.layers n'.layers
  states : SameForms 0 n.intermediate_states n'.intermediate_states
  gradients : SameForms n.layers.length n.intermediate_gradients n'.intermediate_gradients
  input_shape : n.input_shape = n'.input_shape
  output_shape : n.output_shape = n'.output_shape
  run_state : n.run_state = n'.run_state

/-- no layer pools -/
def NoPool (n : Network F (AnyLayer F)) : Prop := ∀ l ∈ n.layers, ∀ p, l ≠ .mp p

/-- `infer` accepts all these inputs, one after the other -/
inductive Predicts [F32Ops F] (b : Build) :
    Network F (AnyLayer F) → List (Tensor F) → Network F (AnyLayer F) → Prop
  | nil (n) : Predicts b n [] n
  | cons {n m k x xs} : n.infer b x = .ok (.ok (), m) → Predicts b m xs k → Predicts b n (x :: xs) k

/-- `infer` and `backward` accept all these inputs and loss gradients, one after the other -/
inductive TrainsOn [F32Ops F] (b : Build) :
    Network F (AnyLayer F) → List (Tensor F × Tensor F) → Network F (AnyLayer F) → Prop
  | nil (n) : TrainsOn b n [] n
  | cons {n m m' k x g xs} : n.infer b x = .ok (.ok (), m) → m.backward b g = .ok (.ok (), m') →
      TrainsOn b m' xs k → TrainsOn b n ((x, g) :: xs) k

end Rusty.Spec
