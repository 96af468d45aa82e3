import Verif.Spec.Layers
import Verif.Spec.IEEE

/-! # Vocabulary of C150 -/

namespace Rusty

open Spec

/-- unit `o` gives zero for every input: all its weights are zero and its bias is not positive -/
def Silent (l : FullyConnectedLayer ℝ) [F32Ops ℝ] (o : Nat) : Prop :=
  (∀ i, i < l.weights.shape.dj.toNat → val l.weights o i 0 = 0) ∧ val l.bias o 0 0 ≤ 0

/-- unit `o` has the same weights and the same bias in both layers -/
def SameUnit {F : Type} [F32Ops F] (l l' : FullyConnectedLayer F) (o : Nat) : Prop :=
  (∀ i, i < l.weights.shape.dj.toNat → val l.weights o i 0 = val l'.weights o i 0) ∧ val l.bias o 0 0 = val l'.bias o 0 0

/-- a channel gives zero for every input: all entries of its kernel are zero and its bias is not positive -/
def SilentChannel [F32Ops ℝ] (kernel bias : Tensor ℝ) : Prop :=
  (∀ i j k, kernel.shape.Inside i j k → val kernel i j k = 0) ∧ val bias 0 0 0 ≤ 0

/-- a channel has the same kernel and the same bias in both layers -/
def SameChannel {F : Type} [F32Ops F] (kernel kernel' bias bias' : Tensor F) : Prop :=
  kernel.shape = kernel'.shape ∧ (∀ i j k, kernel.shape.Inside i j k → val kernel i j k = val kernel' i j k) ∧
  val bias 0 0 0 = val bias' 0 0 0

/-- the column with `v` in entry `i` and zero elsewhere -/
def UnitInput [F32Ops F32] (x : Tensor F32) (i : Nat) (v : F32) : Prop :=
  ∀ m, m < x.shape.di.toNat → val x m 0 0 = if m = i then v else ⟨0⟩

end Rusty
