import Verif.Model.IEEE
import Verif.Model.Network

/-!
# Replaying the unit tests of `/repo`

Each `test_...` in this directory is a unit test of the library, written against the model, over the
IEEE arithmetic of `Model/IEEE.lean`.  The kernel evaluates it, in both build profiles.  These are no
proofs of properties; they show that the model computes what the authors of the library expect of it.
Nothing else imports them.
-/

namespace Rusty.Tests

open Rusty F32


/-- an integer as a float -/
def f (z : Int) : F32 := F32.mk' (decide (z < 0)) (F32.roundCode (z.natAbs * 2 ^ 149) 1)

/-- a quotient of integers as a float, correctly rounded -/
def q (a d : Int) : F32 := F32.div (f a) (f d)

/-- The platform.  The tests use `exp` only at 1, 2 and 3; these are the correctly rounded values. -/
scoped instance platform : Libm where
  exp x := if x = f 1 then ⟨0x402df854⟩ else if x = f 2 then ⟨0x40ec7326⟩
    else if x = f 3 then ⟨0x41a0af2e⟩ else f 1
  max_first := true

/-- `assert!` -/
def assert (c : Bool) : Exec Unit := if c then pure () else .error .assert

/-- `Result::is_ok` -/
def is_ok {ε α : Type} : Except ε α → Bool
  | .ok _ => true
  | .error _ => false

/-- `Result::unwrap` -/
def unwrap {ε α : Type} : Except ε α → Exec α
  | .ok a => pure a
  | .error _ => .error .unwrap

/-- a test passes if it does not panic, in either build profile -/
def passes (test : Build → Exec Unit) : Bool := is_ok (test .debug) && is_ok (test .release)

/-- a tensor written down as in the tests -/
def lit {F : Type} (b : Build) (s : TensorShape) (data : List F) : Exec (Tensor F) := do
  let st ← TensorStride.new_from_shape b s
  pure ⟨st, s, data⟩

/-- a zero tensor, and the same filled with a value -/
def full (b : Build) (s : TensorShape) (v : F32) : Exec (Tensor F32) := do
  let t ← Tensor.new b s
  pure (t.fill_with_value v)

/-- equality of vectors of tensors -/
def eqs : List (Tensor F32) → List (Tensor F32) → Bool
  | [], [] => true
  | t :: ts, u :: us => t.eq u && eqs ts us
  | _, _ => false

/-- `Tensor::new` followed by `fill_with_vec(..).unwrap()` -/
def filled (b : Build) (s : TensorShape) (data : List F32) : Exec (Tensor F32) := do
  let t ← Tensor.new b s
  let (r, t) ← t.fill_with_vec b data
  unwrap r
  pure t

end Rusty.Tests
