import Verif.Model.Base

/-!
# Integer stand-in for `f32`

Used only in the `example`s that show hypotheses can be met: integers compute inside the kernel.
-/

namespace Rusty.Toy

open Rusty

/-- integers as "floats" -/
scoped instance toyOps : F32Ops Int where
  zero := 0
  one := 1
  negOne := -1
  negInf := -1000000
  add := (· + ·)
  mul := (· * ·)
  div := Int.tdiv
  fmax := fun x y => if x < y then y else x
  gt := fun x y => decide (y < x)
  feq := fun x y => decide (x = y)
  exp := fun x => x * x + 1
  sqrt := fun x => x
  square := fun x => x * x

/-- `u32` as "floats", for examples that also need bit patterns -/
scoped instance toyOps32 : F32Ops UInt32 where
  zero := 0
  one := 1
  negOne := -1
  negInf := 0
  add := (· + ·)
  mul := (· * ·)
  div := (· / ·)
  fmax := fun x y => if x < y then y else x
  gt := fun x y => decide (y < x)
  feq := fun x y => decide (x = y)
  exp := fun x => x * x + 1
  sqrt := fun x => x
  square := fun x => x * x

/-- `u32` bit patterns as "floats", for examples about serialisation -/
scoped instance toyBits : F32Bits UInt32 where
  toBits := id
  ofBits := id
  ofBits_toBits := fun _ => rfl

end Rusty.Toy
