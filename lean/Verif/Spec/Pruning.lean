import Verif.Spec.AnyLayer
import Verif.Model.IEEE

/-! # Specification: fully connected layers without some of their units, in `f32` -/

namespace Rusty.Spec

open F32

/-- `f` picks `n` of the numbers `0, ..., n' - 1`, in their order -/
def Picks (n n' : Nat) (f : Nat → Nat) : Prop :=
  (∀ i, i < n → f i < n') ∧ ∀ i j, i < j → j < n → f i < f j

/-- the number in the large network of what has number `i` in the small one; without a choice all are kept -/
def number : Option (Nat → Nat) → Nat → Nat
  | none, i => i
  | some f, i => f i

/-- the product of a weight and an entry is zero: one of them is zero and the other is finite -/
def Idle (w x : F32) : Prop := w.code = 0 ∧ x.isFinite = true ∨ x.code = 0 ∧ w.isFinite = true

variable [Libm]

/-- The column `t` holds the entries of the column `t'` that `e` picks; without a choice they are the same tensor. -/
def Kept : Option (Nat → Nat) → Tensor F32 → Tensor F32 → Prop
  | none, t, t' => t' = t
  | some f, t, t' => t.shape.dj = 1 ∧ t.shape.dk = 1 ∧ t'.shape.dj = 1 ∧ t'.shape.dk = 1 ∧
      Picks t.shape.di.toNat t'.shape.di.toNat f ∧ ∀ i, i < t.shape.di.toNat → val t' (f i) 0 0 = val t i 0 0

/-- The layer `l` is the layer `l'` without the inputs that `e` does not pick and without the units that `e'` does not
pick.  On the input `s'` of `l'`, the inputs that are left out contribute zero to every unit that is kept. -/
structure Pruned (e e' : Option (Nat → Nat)) (l l' : FullyConnectedLayer F32) (s' : Tensor F32) : Prop where
  inputs : Picks l.weights.shape.dj.toNat l'.weights.shape.dj.toNat (number e)
  units : Picks l.weights.shape.di.toNat l'.weights.shape.di.toNat (number e')
  all : e' = none → l'.weights.shape.di = l.weights.shape.di
  bias : ∀ o, o < l.weights.shape.di.toNat → val l'.bias (number e' o) 0 0 = val l.bias o 0 0
  weights : ∀ o i, o < l.weights.shape.di.toNat → i < l.weights.shape.dj.toNat →
    val l'.weights (number e' o) (number e i) 0 = val l.weights o i 0
  idle : ∀ o c, o < l.weights.shape.di.toNat → c < l'.weights.shape.dj.toNat →
    (∀ i, i < l.weights.shape.dj.toNat → number e i ≠ c) → Idle (val l'.weights (number e' o) c 0) (val s' c 0 0)

/-- Both layers are the same, or the first is the second without some of its units and inputs. -/
def Thinned (e e' : Option (Nat → Nat)) (l l' : AnyLayer F32) (s' : Tensor F32) : Prop :=
  (e = none ∧ e' = none ∧ params l' = params l) ∨ ∃ k k', l = .fc k ∧ l' = .fc k' ∧ Pruned e e' k k' s'

end Rusty.Spec
