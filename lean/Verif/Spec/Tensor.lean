import Verif.Model.Tensor

/-!
# Specification vocabulary for tensors

Plain mathematics over `Nat` indices, independent of the loops and of the u32 arithmetic of the model.
-/

namespace Rusty

open F32Ops

/-- The number of elements of a shape, as a natural number. -/
def TensorShape.count (s : TensorShape) : Nat := s.di.toNat * s.dj.toNat * s.dk.toNat

/-- The element count (and the `k` stride) of the shape is representable in `u32`. -/
def TensorShape.Fits (s : TensorShape) : Prop :=
  s.di.toNat * s.dj.toNat < 2 ^ 32 ∧ s.count < 2 ^ 32

instance (s : TensorShape) : Decidable s.Fits := by unfold TensorShape.Fits; infer_instance

/-- An index (given by natural numbers) lies inside a shape. -/
def TensorShape.Inside (s : TensorShape) (i j k : Nat) : Prop :=
  i < s.di.toNat ∧ j < s.dj.toNat ∧ k < s.dk.toNat

instance (s : TensorShape) (i j k : Nat) : Decidable (s.Inside i j k) := by
  unfold TensorShape.Inside; infer_instance

/-- The `TensorIndex` with the given coordinates. -/
def ix (i j k : Nat) : TensorIndex := ⟨UInt32.ofNat i, UInt32.ofNat j, UInt32.ofNat k⟩

/-- A well formed tensor: representable shape, standard strides, as many data as the shape says.
`Tensor::new` creates such tensors and the operations preserve it (property C07). -/
structure Tensor.WF {F : Type} (t : Tensor F) : Prop where
  fits : t.shape.Fits
  si : t.strides.i = 1
  sj : t.strides.j = t.shape.di
  sk : t.strides.k.toNat = t.shape.di.toNat * t.shape.dj.toNat
  len : t.data.length = t.shape.count

namespace Spec

/-- Where element `(i,j,k)` of a tensor of shape `s` is stored: `i` fastest, then `j`, then `k`. -/
def pos (s : TensorShape) (i j k : Nat) : Nat :=
  i + s.di.toNat * j + s.di.toNat * s.dj.toNat * k

variable {F : Type} [F32Ops F]

/-- The element `(i,j,k)` of a tensor (`0.0` where there is none). -/
def val (t : Tensor F) (i j k : Nat) : F := t.data[pos t.shape i j k]?.getD zero

/-- Sum from left to right starting with `0.0`. -/
def sum (l : List F) : F := l.foldl add zero

/-- `max(0, x)` as a case distinction. -/
def relu (x : F) : F := if gt x zero then x else zero

/-- The mask entry of `x`. -/
def step (x : F) : F := if gt x zero then one else zero

/-- Ordered scatter-add: the value at position `p` after adding, in order, `src n` for every list
entry `(p, n)`. -/
def scatter (src tgt : List F) (l : List (UInt32 × Nat)) (p : Nat) : F :=
  ((l.filter (fun e => e.1.toNat = p)).map (fun e => src[e.2]?.getD zero)).foldl F32Ops.add
    (tgt[p]?.getD zero)

/-- The shapes admit the batched product `t1 @ t2 → r`. -/
def mmShapes (s1 s2 sr : TensorShape) : Prop :=
  s1.dj = s2.di ∧ sr.di = s1.di ∧ sr.dj = s2.dj ∧ s1.dk = s2.dk ∧ sr.dk = s1.dk

end Spec

end Rusty
