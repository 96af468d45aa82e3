/-!
# Base: panics, u32/i32 arithmetic, loops, the float interface

Nothing here models a particular function of `/repo`; it fixes the meaning of the Rust
constructs the library uses.
-/

namespace Rusty

/-- The build profile.  `debug` = overflow checks on (`cargo build`, `cargo test`),
`release` = overflow checks off, u32/i32 arithmetic wraps (`cargo build --release`).
`/repo/Cargo.toml` lines 1-12 overrides neither. -/
inductive Build
  | debug
  | release
  deriving DecidableEq, Repr

/-- Why a Rust computation panicked. -/
inductive PanicKind
  /-- arithmetic overflow -/
  | overflow
  /-- division or remainder by zero -/
  | divZero
  /-- slice / vector index out of bounds (also `split_at_mut`) -/
  | oob
  /-- `Option::unwrap` on `None`, `Result::unwrap` on `Err` -/
  | unwrap
  /-- `expect` on `None` / `Err` -/
  | expect
  /-- `assert!` of a dependency -/
  | assert
  deriving DecidableEq, Repr

/-- A Rust computation: returns a value or panics. -/
abbrev Exec (α : Type) := Except PanicKind α

/-- `Result<(), &'static str>`. -/
abbrev Res := Except String Unit

/-! ## u32 arithmetic -/

/-- `x + y` on `u32`. -/
def addU (b : Build) (x y : UInt32) : Exec UInt32 :=
  if x.toNat + y.toNat < 2 ^ 32 then .ok (x + y)
  else match b with
    | .debug => .error .overflow
    | .release => .ok (x + y)

/-- `x * y` on `u32`. -/
def mulU (b : Build) (x y : UInt32) : Exec UInt32 :=
  if x.toNat * y.toNat < 2 ^ 32 then .ok (x * y)
  else match b with
    | .debug => .error .overflow
    | .release => .ok (x * y)

/-- `x - y` on `u32`. -/
def subU (b : Build) (x y : UInt32) : Exec UInt32 :=
  if y.toNat ≤ x.toNat then .ok (x - y)
  else match b with
    | .debug => .error .overflow
    | .release => .ok (x - y)

/-- `x / y` on `u32` (panics on zero in every profile). -/
def divU (x y : UInt32) : Exec UInt32 :=
  if y.toNat = 0 then .error .divZero else .ok (x / y)

/-- `x % y` on `u32` (panics on zero in every profile). -/
def remU (x y : UInt32) : Exec UInt32 :=
  if y.toNat = 0 then .error .divZero else .ok (x % y)

/-- `cmp::max(x, y)` on `u32`. -/
def maxU (x y : UInt32) : UInt32 := if x.toNat ≤ y.toNat then y else x

/-- `x.min(y)` on `u32`. -/
def minU (x y : UInt32) : UInt32 := if x.toNat ≤ y.toNat then x else y

/-! ## i32 arithmetic (values are `Int`s in `[-2^31, 2^31)`) -/

/-- `x as i32` for `x : u32`. -/
def asI32 (x : UInt32) : Int :=
  if x.toNat < 2 ^ 31 then (x.toNat : Int) else (x.toNat : Int) - 2 ^ 32

/-- two's-complement wrap of an integer into the i32 range -/
def wrapI32 (z : Int) : Int := (z + 2 ^ 31) % 2 ^ 32 - 2 ^ 31

/-- result of an i32 `+`/`-` whose exact value is `z` -/
def chkI32 (b : Build) (z : Int) : Exec Int :=
  if -2 ^ 31 ≤ z ∧ z < 2 ^ 31 then .ok z
  else match b with
    | .debug => .error .overflow
    | .release => .ok (wrapI32 z)

/-- `x / y` on `i32`: truncates toward zero; panics on zero and on `MIN / -1` in every profile. -/
def divI32 (x y : Int) : Exec Int :=
  if y = 0 then .error .divZero
  else if x = -2 ^ 31 ∧ y = -1 then .error .overflow
  else .ok (x.tdiv y)

/-- `z as u32` for an i32 value `z`. -/
def i32AsU32 (z : Int) : UInt32 := UInt32.ofNat (z % 2 ^ 32).toNat

/-! ## Vectors -/

/-- `v[i]` (read) on a `Vec`. -/
def vget {α : Type} (v : List α) (i : Nat) : Exec α :=
  match v[i]? with
  | some x => .ok x
  | none => .error .oob

/-- `v[i] = x` on a `Vec`. -/
def vset {α : Type} (v : List α) (i : Nat) (x : α) : Exec (List α) :=
  if i < v.length then .ok (v.set i x) else .error .oob

/-! ## Loops -/

/-- `for i in lo..hi { s = body(i, s) }` with `u32` bounds (empty when `hi ≤ lo`). -/
def forRange {σ : Type} (lo hi : UInt32) (s : σ) (body : UInt32 → σ → Exec σ) : Exec σ :=
  (List.range' lo.toNat (hi.toNat - lo.toNat)).foldlM (fun s i => body (UInt32.ofNat i) s) s

/-- `for i in 0..n { s = body(i, s) }` with a `usize` bound. -/
def forNat {σ : Type} (n : Nat) (s : σ) (body : Nat → σ → Exec σ) : Exec σ :=
  (List.range n).foldlM (fun s i => body i s) s

/-- A loop over `xs` whose body may leave the enclosing function early through `?`:
the first `Err` stops it. -/
def forListE {α σ : Type} : List α → σ → (α → σ → Exec (Res × σ)) → Exec (Res × σ)
  | [], s, _ => .ok (.ok (), s)
  | x :: xs, s, body => do
      let (r, s') ← body x s
      match r with
      | .error e => .ok (.error e, s')
      | .ok () => forListE xs s' body

/-! ## f32 -/

/-- The `f32` operations the library uses.  No laws: a theorem that assumes only
`[F32Ops F]` holds for IEEE binary32 and for any other semantics. -/
class F32Ops (F : Type) where
  /-- literal `0.0` -/
  zero : F
  /-- literal `1.0` -/
  one : F
  /-- literal `-1.0` -/
  negOne : F
  /-- `f32::NEG_INFINITY` -/
  negInf : F
  /-- `+` -/
  add : F → F → F
  /-- `*` -/
  mul : F → F → F
  /-- `/` -/
  div : F → F → F
  /-- `f32::max` -/
  fmax : F → F → F
  /-- `>` -/
  gt : F → F → Bool
  /-- `==` -/
  feq : F → F → Bool
  /-- `f32::exp` -/
  exp : F → F
  /-- `f32::sqrt` -/
  sqrt : F → F
  /-- `x.powi(2)` -/
  square : F → F

/-- The bit representation used by serialisation (`f32::to_bits`, `f32::from_bits`). -/
class F32Bits (F : Type) where
  toBits : F → UInt32
  ofBits : UInt32 → F
  /-- a value survives conversion to its bits and back -/
  ofBits_toBits : ∀ x, ofBits (toBits x) = x

end Rusty
