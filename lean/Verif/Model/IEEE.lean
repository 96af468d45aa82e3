import Verif.Model.Base
import Mathlib.Data.Nat.Sqrt

/-!
# IEEE 754 binary32, the arithmetic of Rust's `f32`

The theorems that assume only `[F32Ops F]` do not depend on this file; it is used where the rounding
and the special values matter.  Not code of `/repo`: it models the primitive type `f32`.

A finite value is `± u * 2^-149` for a natural number `u`.  The bit pattern without the sign bit is
called the code of the value; codes are ordered like the magnitudes.  Results are rounded to nearest,
ties to even.  Simplification: every operation that yields NaN yields the same NaN.
-/

namespace Rusty

/-- a binary32 bit pattern -/
structure F32 where
  bits : UInt32
  deriving DecidableEq, Repr

/-- What IEEE 754 and Rust leave open: the exponential function of the platform, and which of two
zeros `f32::max` returns. -/
class Libm where
  exp : F32 → F32
  max_first : Bool

namespace F32

/-- the code of infinity; larger codes are NaN -/
def infCode : Nat := 255 * 2 ^ 23

/-- the sign bit -/
def sign (x : F32) : Bool := decide (2 ^ 31 ≤ x.bits.toNat)

/-- the bits without the sign -/
def code (x : F32) : Nat := x.bits.toNat % 2 ^ 31

/-- the float with a given sign and code -/
def mk' (s : Bool) (c : Nat) : F32 := ⟨UInt32.ofNat ((if s then 2 ^ 31 else 0) + c)⟩

/-- the NaN that operations return -/
def nan : F32 := mk' false (infCode + 2 ^ 22)

/-- NaN test -/
def isNaN (x : F32) : Bool := decide (infCode < x.code)

/-- infinity test -/
def isInf (x : F32) : Bool := decide (x.code = infCode)

/-- finite: neither NaN nor infinite -/
def isFinite (x : F32) : Bool := decide (x.code < infCode)

/-- The magnitude of a finite code in units of `2^-149`: with biased exponent `0` the fraction field
itself, otherwise the fraction with the hidden bit, shifted. -/
def units (c : Nat) : Nat :=
  if c < 2 ^ 23 then c else (2 ^ 23 + c % 2 ^ 23) * 2 ^ (c / 2 ^ 23 - 1)

/-- the value of a finite float in units of `2^-149` -/
def toInt (x : F32) : Int := if x.sign then -(units x.code : Int) else units x.code

/-- `a / d` rounded to the nearest integer, ties to even -/
def rne (a d : Nat) : Nat :=
  if 2 * (a % d) < d then a / d
  else if d < 2 * (a % d) then a / d + 1
  else a / d + a / d % 2

/-- `n` has `n.log2 + 1` binary digits, 24 of them are kept: the others are this many -/
def excess (n : Nat) : Nat := n.log2 - 23

/-- the code of the magnitude `a / d` (in units of `2^-149`), rounded -/
def roundCode (a d : Nat) : Nat :=
  min infCode (excess (a / d) * 2 ^ 23 + rne a (d * 2 ^ excess (a / d)))

/-- addition -/
def add (x y : F32) : F32 :=
  if x.isNaN || y.isNaN then nan
  else if x.isInf then (if y.isInf && x.sign != y.sign then nan else x)
  else if y.isInf then y
  else
    let z := x.toInt + y.toInt
    if z = 0 then mk' (x.sign && y.sign) 0
    else mk' (decide (z < 0)) (roundCode z.natAbs 1)

/-- multiplication -/
def mul (x y : F32) : F32 :=
  let s := x.sign != y.sign
  if x.isNaN || y.isNaN then nan
  else if x.isInf then (if y.code = 0 then nan else mk' s infCode)
  else if y.isInf then (if x.code = 0 then nan else mk' s infCode)
  else mk' s (roundCode (units x.code * units y.code) (2 ^ 149))

/-- division -/
def div (x y : F32) : F32 :=
  let s := x.sign != y.sign
  if x.isNaN || y.isNaN then nan
  else if x.isInf then (if y.isInf then nan else mk' s infCode)
  else if y.isInf then mk' s 0
  else if y.code = 0 then (if x.code = 0 then nan else mk' s infCode)
  else mk' s (roundCode (units x.code * 2 ^ 149) (units y.code))

/-- codes with a sign: ordered like the values, equal for both zeros -/
def key (x : F32) : Int := if x.sign then -(x.code : Int) else x.code

/-- `>` -/
def gt (x y : F32) : Bool := !x.isNaN && !y.isNaN && decide (y.key < x.key)

/-- `==` -/
def feq (x y : F32) : Bool := !x.isNaN && !y.isNaN && decide (x.key = y.key)

/-- `f32::max`: a NaN argument is ignored; of two zeros either may be returned -/
def fmax [Libm] (x y : F32) : F32 :=
  if x.isNaN then y
  else if y.isNaN then x
  else if y.key < x.key then x
  else if x.key < y.key then y
  else if Libm.max_first then x else y

/-- the code of the square root of the magnitude `u * 2^-149`, rounded: `sqrt (u * 2^149)` units -/
def sqrtCode (u : Nat) : Nat :=
  let n := u * 2 ^ 149
  let k := excess n.sqrt
  let q := (n / 4 ^ k).sqrt
  let h := (2 * q + 1) ^ 2 * 4 ^ k
  k * 2 ^ 23 + (if 4 * n < h then q else if h < 4 * n then q + 1 else q + q % 2)

/-- `f32::sqrt` -/
def sqrt (x : F32) : F32 :=
  if x.isNaN then nan
  else if x.code = 0 then x
  else if x.sign then nan
  else if x.isInf then x
  else mk' false (sqrtCode (units x.code))

/-- `f32` arithmetic.  `x.powi(2)` is `x * x`. -/
scoped instance ops [Libm] : F32Ops F32 where
  zero := mk' false 0
  one := mk' false (127 * 2 ^ 23)
  negOne := mk' true (127 * 2 ^ 23)
  negInf := mk' true infCode
  add := add
  mul := mul
  div := div
  fmax := fmax
  gt := gt
  feq := feq
  exp := Libm.exp
  sqrt := sqrt
  square := fun x => mul x x

/-- `f32::to_bits` and `f32::from_bits` -/
scoped instance bitsInst : F32Bits F32 where
  toBits := F32.bits
  ofBits := F32.mk
  ofBits_toBits := fun _ => rfl

end F32

end Rusty
