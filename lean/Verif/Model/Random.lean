import Verif.Model.Tensor
import Verif.Model.IEEE

/-!
# `fill_with_uniform` and `fill_with_gaussian`, `/repo/src/tensor.rs` lines 90-104

The distributions are those of `rand` 0.8.5 (`UniformFloat<f32>`, `src/distributions/uniform.rs`) and
`rand_distr` 0.4.3 (`Normal<f32>`, `src/normal.rs`), the versions `/repo/Cargo.toml` lines 11-12 name.
Simplification: the generator is the environment, which supplies the random words (uniform) or the
standard normal samples (gaussian).
-/

namespace Rusty

namespace F32

/-- `-x` -/
def neg (x : F32) : F32 := mk' (!x.sign) x.code

/-- `x - y` -/
def sub (x y : F32) : F32 := add x (neg y)

/-- `x <= y` -/
def le (x y : F32) : Bool := !x.isNaN && !y.isNaN && decide (x.key ≤ y.key)

end F32

open F32

/-- `rand`'s `UniformFloat<f32>` -/
structure UniformFloat where
  low : F32
  scale : F32
  deriving DecidableEq, Repr

namespace UniformFloat

/-- the number in `[0, 1)` made of a random word: 23 bits become the fraction of a number in `[1, 2)`,
then 1 is subtracted -/
def unit (w : UInt32) : F32 := sub ⟨(0x3f800000 : UInt32) ||| (w >>> 9)⟩ ⟨0x3f800000⟩

/-- the largest of these numbers -/
def max_rand : F32 := unit 0xffffffff

/-- `while scale * max_rand + low > high { scale = f32::from_bits(scale.to_bits() - 1) }`.  The code has
no bound on the number of rounds; `shrink_exits` shows that this one is never reached. -/
def shrink (low high : F32) : Nat → F32 → F32
  | 0, scale => scale
  | n + 1, scale =>
    if gt (add (mul scale max_rand) low) high then shrink low high n ⟨scale.bits - 1⟩ else scale

/-- `Uniform::new_inclusive`: in debug builds, panics if a bound is not finite; in all builds, if
`low <= high` does not hold or the range overflows. -/
def new_inclusive (b : Build) (low high : F32) : Exec UniformFloat :=
  if b = .debug ∧ ¬ (low.isFinite = true ∧ high.isFinite = true) then .error .assert
  else if ¬ le low high then .error .assert
  else
    let scale := div (sub high low) max_rand
    if ¬ scale.isFinite then .error .assert
    else .ok ⟨low, shrink low high (scale.bits.toNat + 1) scale⟩

/-- `sample`, for the random word `w` -/
def sample (d : UniformFloat) (w : UInt32) : F32 := add (mul (unit w) d.scale) d.low

end UniformFloat

namespace Tensor

/-- `Tensor::fill_with_uniform`, `/repo/src/tensor.rs` lines 90-96; `rng n` is the `n`-th random word. -/
def fill_with_uniform [Libm] (b : Build) (rng : Nat → UInt32) (t : Tensor F32) (min max : F32) :
    Exec (Tensor F32) := do
  let d ← UniformFloat.new_inclusive b min max
  pure (t.fill_with_samples fun n => d.sample (rng n))

/-- `Tensor::fill_with_gaussian`, `/repo/src/tensor.rs` lines 98-104; `rng n` is the `n`-th standard
normal sample.  `Normal::new` refuses a standard deviation that is not finite, `unwrap` panics then. -/
def fill_with_gaussian [Libm] (rng : Nat → F32) (t : Tensor F32) (mean std_dev : F32) :
    Exec (Tensor F32) :=
  if std_dev.isFinite then .ok (t.fill_with_samples fun n => F32.add mean (F32.mul std_dev (rng n)))
  else .error .unwrap

end Tensor

end Rusty
