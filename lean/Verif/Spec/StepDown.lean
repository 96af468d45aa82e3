import Verif.Spec.BatchAccuracy

/-! # Specification: a step against recorded gradients (C128)

The first part does not refer to the program. -/

namespace Rusty.Spec

/-- the layer after a step of length `t` against the weight gradients `V` and the bias gradients `U` -/
noncomputable def RealLayer.step (l : RealLayer) (V : Nat → Nat → ℝ) (U : Nat → ℝ) (t : ℝ) : RealLayer :=
  { l with weight := fun o i => l.weight o i - t * V o i, bias := fun o => l.bias o - t * U o }

/-- the layers after a step of length `t`: `V k` and `U k` are the gradients of layer `k` -/
noncomputable def stepNet (ls : List RealLayer) (V : Nat → Nat → Nat → ℝ) (U : Nat → Nat → ℝ) (t : ℝ) :
    List RealLayer :=
  ls.mapIdx fun k l => l.step (V k) (U k) t

/-- the sum of `f` over all weights and of `g` over all biases: layer, output, input -/
noncomputable def paramSum : List RealLayer → (Nat → Nat → Nat → ℝ) → (Nat → Nat → ℝ) → ℝ
  | [], _, _ => 0
  | l :: ls, f, g => (∑ o ∈ Finset.range l.rows, ((∑ i ∈ Finset.range l.cols, f 0 o i) + g 0 o)) +
    paramSum ls (fun k => f (k + 1)) fun k => g (k + 1)

/-- the total cross entropy of labelled inputs, with `m` classes -/
noncomputable def totalLoss (m : Nat) (ls : List RealLayer) (ss : List ((Nat → ℝ) × Nat)) : ℝ :=
  (ss.map fun s => classLoss m (realNet ls s.1) s.2).sum

/-! ## Reading the gradients recorded by the program -/

open F32

variable [Libm]

/-- the number stored in an entry of a tensor, read with `get_item` -/
noncomputable def readReal (b : Build) (t : Tensor F32) (i : TensorIndex) : ℝ :=
  match t.get_item b i with
  | .ok v => v.toReal
  | .error _ => 0

/-- the weight gradient recorded in layer `k` of a network -/
noncomputable def recordedWeight (b : Build) (n : Net F32) (k o i : Nat) : ℝ :=
  match n.get_layers[k]? with
  | some (.fc l) => readReal b l.weights_gradients (ix o i 0)
  | _ => 0

/-- the bias gradient recorded in layer `k` of a network -/
noncomputable def recordedBias (b : Build) (n : Net F32) (k o : Nat) : ℝ :=
  match n.get_layers[k]? with
  | some (.fc l) => readReal b l.bias_gradients (ix o 0 0)
  | _ => 0

/-- the recorded gradients of the network are numbers -/
def RecordedFinite (b : Build) (n : Net F32) : Prop := ∀ (k : Nat) l, n.get_layers[k]? = some (.fc l) →
  ∀ o, o < l.weights.shape.di.toNat →
    (∀ v, l.bias_gradients.get_item b (ix o 0 0) = .ok v → v.isFinite = true) ∧
    ∀ i, i < l.weights.shape.dj.toNat → ∀ v, l.weights_gradients.get_item b (ix o i 0) = .ok v → v.isFinite = true

end Rusty.Spec
