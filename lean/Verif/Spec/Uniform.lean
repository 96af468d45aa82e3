import Verif.Spec.IEEE
import Verif.Spec.Tensor
import Verif.Model.Random
import Mathlib.Algebra.BigOperators.Group.Finset.Defs

/-! # What it means that random numbers are spread evenly -/

namespace Rusty.Spec

open Rusty F32

/-- `f` tells which number the random word drawn for an entry makes of it, when tensors are filled with numbers between
`lo` and `hi` -/
def Entries [Libm] (lo hi : F32) (f : UInt32 → F32) : Prop :=
  ∀ (b : Build) (rng : Nat → UInt32) (t : Tensor F32), t.WF → ∃ t', t.fill_with_uniform b rng lo hi = .ok t' ∧
    ∀ i j k, t.shape.Inside i j k → t'.get_item b (ix i j k) = .ok (f (rng (pos t.shape i j k)))

/-- the fraction of the `2^32` random words with a property -/
noncomputable def fraction (p : UInt32 → Prop) [DecidablePred p] : ℝ :=
  ((Finset.range (2 ^ 32)).filter fun w => p (UInt32.ofNat w)).card / 2 ^ 32

/-- the average over the `2^32` random words -/
noncomputable def average (f : UInt32 → ℝ) : ℝ := (∑ w ∈ Finset.range (2 ^ 32), f (UInt32.ofNat w)) / 2 ^ 32

/-- the rounding error of a random number between `lo` and `hi` -/
noncomputable def uniformError (lo hi : F32) : ℝ := (|lo.toReal| + |hi.toReal|) / 2 ^ 21 + 1 / 2 ^ 146

end Rusty.Spec
