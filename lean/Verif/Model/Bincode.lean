import Verif.Model.Tensor

/-!
# The byte format of `bincode` 1.3.3 `serialize` / `deserialize`

`/repo/Cargo.lock` pins bincode 1.3.3.  `bincode::serialize` uses fixed-width little-endian
integers, `u64` lengths and `u32` enum variant indices; `bincode::deserialize` uses the same and
allows trailing bytes.  A decoder returns the value and the unread bytes, or `none` for `Err`.
-/

namespace Rusty

/-- A byte vector, `Vec<u8>`. -/
abbrev Bytes := List UInt8

/-- A decoder. -/
abbrev Dec (α : Type) := Bytes → Option (α × Bytes)

/-- little-endian bytes of `n`, `w` of them (the low `8*w` bits) -/
def leBytes : Nat → Nat → Bytes
  | 0, _ => []
  | w + 1, n => UInt8.ofNat (n % 256) :: leBytes w (n / 256)

/-- value of little-endian bytes -/
def leVal : Bytes → Nat
  | [] => 0
  | x :: xs => x.toNat + 256 * leVal xs

/-- read exactly `w` bytes -/
def decTake (w : Nat) : Dec Bytes := fun bs =>
  if bs.length < w then none else some (bs.take w, bs.drop w)

/-- `u8`: one byte -/
def encU8 (x : UInt8) : Bytes := [x]

def decU8 : Dec UInt8
  | [] => none
  | x :: xs => some (x, xs)

/-- `u32`: four bytes, little endian -/
def encU32 (x : UInt32) : Bytes := leBytes 4 x.toNat

def decU32 : Dec UInt32 := fun bs => do
  let (w, r) ← decTake 4 bs
  pure (UInt32.ofNat (leVal w), r)

/-- a length: `u64`, eight bytes, little endian.  Simplification: a `usize` length is a `Nat`; lengths
of `2^64` and more do not exist in Rust, theorems exclude them. -/
def encLen (n : Nat) : Bytes := leBytes 8 n

def decLen : Dec Nat := fun bs => do
  let (w, r) ← decTake 8 bs
  pure (leVal w, r)

/-- decode `n` values in sequence -/
def decN {α : Type} (d : Dec α) : Nat → Dec (List α)
  | 0, bs => some ([], bs)
  | n + 1, bs => do
      let (x, r) ← d bs
      let (xs, r') ← decN d n r
      pure (x :: xs, r')

/-- `Vec<T>`: length then elements -/
def encVec {α : Type} (e : α → Bytes) (xs : List α) : Bytes := encLen xs.length ++ xs.flatMap e

def decVec {α : Type} (d : Dec α) : Dec (List α) := fun bs => do
  let (n, r) ← decLen bs
  decN d n r

/-- `String`: byte length then UTF-8 bytes; decoding rejects invalid UTF-8 -/
def encString (s : String) : Bytes := encLen s.toByteArray.data.size ++ s.toByteArray.data.toList

def decString : Dec String := fun bs => do
  let (n, r) ← decLen bs
  let (w, r') ← decTake n r
  let s ← String.fromUTF8? ⟨w.toArray⟩
  pure (s, r')

/-- `f32`: its bits as a `u32` -/
def encF32 {F : Type} [F32Bits F] (x : F) : Bytes := encU32 (F32Bits.toBits x)

def decF32 {F : Type} [F32Bits F] : Dec F := fun bs => do
  let (u, r) ← decU32 bs
  pure (F32Bits.ofBits u, r)

/-- `#[derive(Serialize)]` of `TensorShape`, `/repo/src/tensor/helper.rs` lines 5-10: the fields in
order. -/
def encShape (s : TensorShape) : Bytes := encU32 s.di ++ encU32 s.dj ++ encU32 s.dk

/-- `#[derive(Deserialize)]` of `TensorShape`, `/repo/src/tensor/helper.rs` lines 5-10. -/
def decShape : Dec TensorShape := fun bs => do
  let (di, r) ← decU32 bs
  let (dj, r) ← decU32 r
  let (dk, r) ← decU32 r
  pure (⟨di, dj, dk⟩, r)

/-- `#[derive(Serialize)]` of `TensorStride`, `/repo/src/tensor/helper.rs` lines 93-98. -/
def encStride (s : TensorStride) : Bytes := encU32 s.i ++ encU32 s.j ++ encU32 s.k

/-- `#[derive(Deserialize)]` of `TensorStride`, `/repo/src/tensor/helper.rs` lines 93-98. -/
def decStride : Dec TensorStride := fun bs => do
  let (i, r) ← decU32 bs
  let (j, r) ← decU32 r
  let (k, r) ← decU32 r
  pure (⟨i, j, k⟩, r)

/-- `#[derive(Serialize)]` of `Tensor`, `/repo/src/tensor.rs` lines 12-17: strides, shape, data. -/
def encTensor {F : Type} [F32Bits F] (t : Tensor F) : Bytes :=
  encStride t.strides ++ encShape t.shape ++ encVec encF32 t.data

/-- `#[derive(Deserialize)]` of `Tensor`, `/repo/src/tensor.rs` lines 12-17. No consistency check. -/
def decTensor {F : Type} [F32Bits F] : Dec (Tensor F) := fun bs => do
  let (st, r) ← decStride bs
  let (sh, r) ← decShape r
  let (d, r) ← decVec decF32 r
  pure (⟨st, sh, d⟩, r)

/-- `bincode::deserialize`: decode and ignore trailing bytes. -/
def deserialize {α : Type} (d : Dec α) (bs : Bytes) : Option α := (d bs).map Prod.fst

/-! ## Hash maps from enum keys to byte vectors -/

/-- An enum used as a serialisation key, with its derived variant index. -/
class SerKey (K : Type) where
  idx : K → Nat
  ofIdx : Nat → Option K

/-- `HashMap<K, Vec<u8>>`: its entries, in the order an iteration would produce them. -/
structure HMap (K : Type) where
  entries : List (K × Bytes)

namespace HMap

variable {K : Type} [DecidableEq K]

/-- `HashMap::new` -/
def new : HMap K := ⟨[]⟩

/-- `HashMap::get` -/
def get (m : HMap K) (k : K) : Option Bytes := (m.entries.find? (fun e => decide (e.1 = k))).map Prod.snd

/-- `HashMap::contains_key` -/
def contains_key (m : HMap K) (k : K) : Bool := (m.get k).isSome

/-- `HashMap::insert`: replaces an existing entry. The position of the new entry in the iteration
order is irrelevant: theorems about saving quantify over all orders. -/
def insert (m : HMap K) (k : K) (v : Bytes) : HMap K :=
  ⟨m.entries.filter (fun e => decide (e.1 ≠ k)) ++ [(k, v)]⟩

end HMap

/-- a key: variant index as `u32` -/
def encKey {K : Type} [SerKey K] (k : K) : Bytes := encU32 (UInt32.ofNat (SerKey.idx k))

/-- unknown variant indices are an error -/
def decKey {K : Type} [SerKey K] : Dec K := fun bs => do
  let (i, r) ← decU32 bs
  let k ← SerKey.ofIdx i.toNat
  pure (k, r)

/-- a map entry: key then value (`Vec<u8>`) -/
def encEntry {K : Type} [SerKey K] (e : K × Bytes) : Bytes := encKey e.1 ++ encVec encU8 e.2

def decEntry {K : Type} [SerKey K] : Dec (K × Bytes) := fun bs => do
  let (k, r) ← decKey bs
  let (v, r) ← decVec decU8 r
  pure ((k, v), r)

/-- `HashMap`: length, then the entries in iteration order -/
def encHMap {K : Type} [SerKey K] (m : HMap K) : Bytes := encVec encEntry m.entries

/-- entries are inserted one after the other (a repeated key overwrites) -/
def decHMap {K : Type} [DecidableEq K] [SerKey K] : Dec (HMap K) := fun bs => do
  let (es, r) ← decVec decEntry bs
  pure (es.foldl (fun m e => m.insert e.1 e.2) HMap.new, r)

end Rusty
