import Verif.Spec.StepDown

/-! # Specification: networks of fully connected layers in which the same units are active (C130)

The first part does not refer to the program. -/

namespace Rusty.Spec

/-- The same units are active in the layers `ls` with the input `x` and in the layers `ls'` with the input `y`. -/
def SameUnits : List RealLayer → (Nat → ℝ) → List RealLayer → (Nat → ℝ) → Prop
  | [], _, [], _ => True
  | l :: ls, x, l' :: ls', y =>
    (∀ o < l.rows, (0 < l.pre x o ↔ 0 < l'.pre y o)) ∧ SameUnits ls (l.out x) ls' (l'.out y)
  | _, _, _, _ => False

/-! ## Networks that differ in one parameter -/

open F32Ops F32

variable [Libm]

/-- `fs'` are the layers `fs` after `set_item` wrote `w` to the weight from input `i` to output `o` of layer `c` -/
def WeightSet (b : Build) (fs fs' : List (FullyConnectedLayer F32)) (c o i : Nat) (w : F32) : Prop :=
  fs'.length = fs.length ∧ ∀ (k : Nat) l l', fs[k]? = some l → fs'[k]? = some l' → l'.bias = l.bias ∧
    if k = c then l.weights.set_item b (ix o i 0) w = .ok l'.weights else l'.weights = l.weights

/-- `fs'` are the layers `fs` after `set_item` wrote `w` to the bias of output `o` of layer `c` -/
def BiasSet (b : Build) (fs fs' : List (FullyConnectedLayer F32)) (c o : Nat) (w : F32) : Prop :=
  fs'.length = fs.length ∧ ∀ (k : Nat) l l', fs[k]? = some l → fs'[k]? = some l' → l'.weights = l.weights ∧
    if k = c then l.bias.set_item b (ix o 0 0) w = .ok l'.bias else l'.bias = l.bias

/-- The assumptions of C89 and C74 for a network `n` of the fully connected layers `fs` in training mode, the input
`x` and the gradient `g`: predictions are within `e1` of those of exact arithmetic, gradients within `d'` and `bs`. -/
structure GradReady (b : Build) (n : Net F32) (fs : List (FullyConnectedLayer F32)) (x g : Tensor F32) (ξ γ : Nat → ℝ)
    (M e G d G' d' : ℝ) (bs : List (ℝ × ℝ)) (M1 e1 : ℝ) : Prop where
  trains : Trains b n
  layers : n.get_layers = fs.map .fc
  some : fs ≠ []
  finite : ∀ l ∈ fs, (∀ o i, o < l.weights.shape.di.toNat → i < l.weights.shape.dj.toNat →
      (val l.weights o i 0).isFinite = true) ∧
    ∀ o, o < l.weights.shape.di.toNat → (val l.bias o 0 0).isFinite = true
  clear : ∀ l ∈ fs, (∀ o i, o < l.weights.shape.di.toNat → i < l.weights.shape.dj.toNat →
      val l.weights_gradients o i 0 = zero) ∧
    ∀ o, o < l.weights.shape.di.toNat → val l.bias_gradients o 0 0 = zero
  input : x.WF ∧ x.shape = n.get_input_shape
  gradient : g.WF ∧ g.shape = n.get_output_shape
  pos : 0 ≤ M ∧ 0 ≤ e ∧ 0 ≤ G ∧ 0 ≤ d
  nearInput : Near x (fun i _ _ => ξ i) M e
  nearGradient : Near g (fun k _ _ => γ k) G d
  bounds : GradBounds G d (fs.map realLayer) ξ M e G' d' bs
  accuracy : Accuracy n.get_layers M e M1 e1

end Rusty.Spec
