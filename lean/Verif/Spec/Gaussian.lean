import Verif.Spec.IEEE
import Verif.Spec.Tensor

/-! # What it means that random numbers follow given samples -/

namespace Rusty.Spec

open Rusty F32

/-- mean and standard deviation are finite, and samples of magnitude up to `Z` do not lead out of range -/
def GaussianBounds (mean sd : F32) (Z : ℝ) : Prop :=
  mean.isFinite = true ∧ sd.isFinite = true ∧ 0 ≤ Z ∧ |mean.toReal| + 2 * |sd.toReal| * Z ≤ 2 ^ 126

/-- the samples are finite and of magnitude at most `Z` -/
def SamplesIn (rng : Nat → F32) (N : Nat) (Z : ℝ) : Prop :=
  ∀ p < N, (rng p).isFinite = true ∧ |(rng p).toReal| ≤ Z

/-- the rounding error of a random number with given mean and standard deviation -/
noncomputable def gaussianError (mean sd : F32) (Z : ℝ) : ℝ :=
  (|mean.toReal| + 3 * |sd.toReal| * Z) / 2 ^ 24 + 1 / 2 ^ 149

/-- how many of the first `N` samples are at most `x` -/
noncomputable def below (rng : Nat → F32) (N : Nat) (x : ℝ) : Nat :=
  ((Finset.range N).filter fun p => (rng p).toReal ≤ x).card

/-- how many entries of a tensor are at most `x` -/
noncomputable def entriesBelow (t : Tensor F32) (x : ℝ) : Nat :=
  ((Finset.range t.shape.count).filter fun p => ∀ v, t.data[p]? = some v → v.toReal ≤ x).card

end Rusty.Spec
