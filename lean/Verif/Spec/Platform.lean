import Verif.Model.Network
import Verif.Model.IEEE
import Verif.Spec.SignedZero
import Mathlib.Data.List.Forall2

/-! # Specification: runs on two arithmetics side by side (C100) -/

namespace Rusty.Spec

open F32Ops

/-- a relation between two kinds of numbers that all operations and comparisons of the program respect,
division and `exp` only if `S` (they occur in softmax only) -/
structure RespectsIf {F G : Type} [F32Ops F] [F32Ops G] (S : Prop) (R : F → G → Prop) : Prop where
  zero : R zero zero
  one : R one one
  negOne : R negOne negOne
  negInf : R negInf negInf
  add : ∀ {x x' y y'}, R x x' → R y y' → R (add x y) (add x' y')
  mul : ∀ {x x' y y'}, R x x' → R y y' → R (mul x y) (mul x' y')
  div : S → ∀ {x x' y y'}, R x x' → R y y' → R (div x y) (div x' y')
  fmax : ∀ {x x' y y'}, R x x' → R y y' → R (fmax x y) (fmax x' y')
  gt : ∀ {x x' y y'}, R x x' → R y y' → gt x y = gt x' y'
  feq : ∀ {x x' y y'}, R x x' → R y y' → feq x y = feq x' y'
  exp : S → ∀ {x x'}, R x x' → R (exp x) (exp x')
  sqrt : ∀ {x x'}, R x x' → R (sqrt x) (sqrt x')
  square : ∀ {x x'}, R x x' → R (square x) (square x')

/-- a relation that all operations and comparisons of the program respect -/
abbrev Respects {F G : Type} [F32Ops F] [F32Ops G] (R : F → G → Prop) : Prop := RespectsIf True R

variable {F G : Type}

/-- the same panic, or two results that are related -/
def SameRun {α β : Type} (P : α → β → Prop) : Exec α → Exec β → Prop
  | .ok a, .ok c => P a c
  | .error e, .error e' => e = e'
  | _, _ => False

/-- tensors of the same layout with related entries -/
def SameTensor (R : F → G → Prop) (t : Tensor F) (u : Tensor G) : Prop :=
  t.strides = u.strides ∧ t.shape = u.shape ∧ List.Forall₂ R t.data u.data

/-- fully connected layers with related tensors -/
def SameFC (R : F → G → Prop) (l : FullyConnectedLayer F) (m : FullyConnectedLayer G) : Prop :=
  SameTensor R l.weights m.weights ∧ SameTensor R l.weights_gradients m.weights_gradients ∧
  SameTensor R l.weights_gradients_intermediate m.weights_gradients_intermediate ∧
  SameTensor R l.bias m.bias ∧ SameTensor R l.bias_gradients m.bias_gradients ∧
  SameTensor R l.relu_mask m.relu_mask ∧ l.name = m.name ∧ l.run_state = m.run_state

/-- convolutional layers with related tensors -/
def SameConv (R : F → G → Prop) (l : ConvolutionalLayer F) (m : ConvolutionalLayer G) : Prop :=
  List.Forall₂ (SameTensor R) l.kernels m.kernels ∧ List.Forall₂ (SameTensor R) l.biases m.biases ∧
  List.Forall₂ (SameTensor R) l.kernel_gradients m.kernel_gradients ∧
  List.Forall₂ (SameTensor R) l.bias_gradients m.bias_gradients ∧ l.stride = m.stride ∧
  SameTensor R l.relu_mask m.relu_mask ∧ l.input_shape = m.input_shape ∧ l.output_shape = m.output_shape ∧
  l.name = m.name ∧ l.run_state = m.run_state

/-- softmax layers with related tensors -/
def SameSM (R : F → G → Prop) (l : SoftmaxLayer F) (m : SoftmaxLayer G) : Prop :=
  l.shape = m.shape ∧ l.name = m.name ∧ SameTensor R l.intermediate1 m.intermediate1 ∧
  SameTensor R l.intermediate2 m.intermediate2 ∧ l.run_state = m.run_state

/-- layers of the same type with related tensors, no softmax unless `S` -/
def SameLayerIf (S : Prop) (R : F → G → Prop) : AnyLayer F → AnyLayer G → Prop
  | .conv l, .conv m => SameConv R l m
  | .fc l, .fc m => SameFC R l m
  | .mp l, .mp m => l = m
  | .sm l, .sm m => S ∧ SameSM R l m
  | _, _ => False

/-- networks with related layers, states and gradients, no softmax unless `S` -/
def SameNetIf (S : Prop) (R : F → G → Prop) (n : Network F (AnyLayer F)) (m : Network G (AnyLayer G)) : Prop :=
  List.Forall₂ (SameLayerIf S R) n.layers m.layers ∧
  List.Forall₂ (SameTensor R) n.intermediate_states m.intermediate_states ∧
  List.Forall₂ (SameTensor R) n.intermediate_gradients m.intermediate_gradients ∧
  n.input_shape = m.input_shape ∧ n.output_shape = m.output_shape ∧ n.run_state = m.run_state

/-- networks with related layers, states and gradients -/
abbrev SameNet (R : F → G → Prop) (n : Network F (AnyLayer F)) (m : Network G (AnyLayer G)) : Prop :=
  SameNetIf True R n m

/-- the same result, and related networks -/
def SameResult (S : Prop) (R : F → G → Prop) (p : Res × Network F (AnyLayer F)) (q : Res × Network G (AnyLayer G)) : Prop :=
  p.1 = q.1 ∧ SameNetIf S R p.2 q.2

/-- one call of a method of a network -/
inductive Use (F : Type)
  | add (l : AnyLayer F)
  | load (fs : FS) (name : String)
  | training
  | inference
  | infer (t : Tensor F)
  | backward (t : Tensor F)

/-- a file that, if it can be read, contains no softmax layer -/
def SoftmaxFree (fs : FS) (name : String) : Prop :=
  ∀ bs sn, fs name = some bs → deserialize decSerializedNetwork bs = some sn →
    ∀ s ∈ sn.serial_layers, ∀ x, s ≠ .SerialSoftMaxLayer x

/-- a call that adds no softmax layer -/
def Use.NoSoftmax : Use F → Prop
  | .add l => ∀ m, l ≠ .sm m
  | .load fs name => SoftmaxFree fs name
  | _ => True

/-- calls of the same method with related arguments, no softmax unless `S` -/
def SameUse (S : Prop) (R : F → G → Prop) : Use F → Use G → Prop
  | .add l, .add m => SameLayerIf S R l m
  | .load fs f, .load gs g => fs = gs ∧ f = g ∧ (S ∨ SoftmaxFree fs f)
  | .training, .training => True
  | .inference, .inference => True
  | .infer t, .infer u => SameTensor R t u
  | .backward t, .backward u => SameTensor R t u
  | _, _ => False

/-- what a call returns and leaves behind -/
def useOnce [F32Ops F] [F32Bits F] (b : Build) (n : Network F (AnyLayer F)) :
    Use F → Exec (Res × Network F (AnyLayer F))
  | .add l => n.add_layer b l
  | .load fs f => n.load_from_file b fs f
  | .training => do return (.ok (), ← n.switch_to_training b)
  | .inference => do return (.ok (), ← n.switch_to_inference b)
  | .infer t => n.infer b t
  | .backward t => n.backward b t

/-- what a sequence of calls returns and leaves behind; an `Err` does not end it, a panic does -/
def useAll [F32Ops F] [F32Bits F] (b : Build) : List (Use F) → Network F (AnyLayer F) →
    Exec (List Res × Network F (AnyLayer F))
  | [], n => .ok ([], n)
  | c :: cs, n => do
    let (r, n) ← useOnce b n c
    let (rs, n) ← useAll b cs n
    return (r :: rs, n)

/-- the same results, and related networks -/
def SameResults (S : Prop) (R : F → G → Prop) (p : List Res × Network F (AnyLayer F))
    (q : List Res × Network G (AnyLayer G)) : Prop :=
  p.1 = q.1 ∧ SameNetIf S R p.2 q.2

/-- the same number, or both not a number -/
def UpToNaN (x y : F32) : Prop := x = y ∨ (x.isNaN = true ∧ y.isNaN = true)

/-- What a platform is free to choose: the results of all operations are those of IEEE 754, except that
where the result is NaN it may be any NaN.  (Comparisons have no choice.) -/
structure Platform [Libm] (o : F32Ops F32) : Prop where
  zero : o.zero = F32.ops.zero
  one : o.one = F32.ops.one
  negOne : o.negOne = F32.ops.negOne
  negInf : o.negInf = F32.ops.negInf
  add : ∀ x y, UpToNaN (o.add x y) (F32.ops.add x y)
  mul : ∀ x y, UpToNaN (o.mul x y) (F32.ops.mul x y)
  div : ∀ x y, UpToNaN (o.div x y) (F32.ops.div x y)
  fmax : ∀ x y, UpToNaN (o.fmax x y) (F32.ops.fmax x y)
  gt : ∀ x y, o.gt x y = F32.ops.gt x y
  feq : ∀ x y, o.feq x y = F32.ops.feq x y
  exp : ∀ x, UpToNaN (o.exp x) (F32.ops.exp x)
  sqrt : ∀ x, UpToNaN (o.sqrt x) (F32.ops.sqrt x)
  square : ∀ x, UpToNaN (o.square x) (F32.ops.square x)

/-- the same number where the two zeros count as one, or both not a number -/
def UpToZero (x y : F32) : Prop := SameNumber x y ∨ (x.isNaN = true ∧ y.isNaN = true)

/-- What is left open if no function of the mathematical library is used: the results of sums, products,
square roots and comparisons are those of IEEE 754, except that where the result is NaN it may be any NaN;
`max` ignores NaN and returns the greater argument, for zeros of different sign either. Nothing is said
about `exp`, and nothing about division. -/
structure NoLibm (o : F32Ops F32) : Prop where
  zero : o.zero = F32.mk' false 0
  one : o.one = F32.mk' false (127 * 2 ^ 23)
  negOne : o.negOne = F32.mk' true (127 * 2 ^ 23)
  negInf : o.negInf = F32.mk' true F32.infCode
  add : ∀ x y, UpToNaN (o.add x y) (F32.add x y)
  mul : ∀ x y, UpToNaN (o.mul x y) (F32.mul x y)
  max_nan : ∀ x y, x.isNaN = true → UpToNaN (o.fmax x y) y
  max_nan' : ∀ x y, y.isNaN = true → UpToNaN (o.fmax x y) x
  max : ∀ x y, x.isNaN = false → y.isNaN = false →
    (o.fmax x y = x ∧ y.key ≤ x.key) ∨ (o.fmax x y = y ∧ x.key ≤ y.key)
  gt : ∀ x y, o.gt x y = F32.gt x y
  feq : ∀ x y, o.feq x y = F32.feq x y
  sqrt : ∀ x, UpToNaN (o.sqrt x) (F32.sqrt x)
  square : ∀ x, UpToNaN (o.square x) (F32.mul x x)

end Rusty.Spec
