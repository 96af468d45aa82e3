import Verif.Spec.Pooling

/-! # Specification: one pooling step that does the work of two -/

namespace Rusty.Spec

/-- The parameters of a pooling step (mask `m`, stride `s`) that stands for the step (`m1`, `s1`) followed by the step
(`m2`, `s2`).  No mask is empty and the windows of the first step leave no gaps. -/
structure Combined (m1 : TensorShape) (s1 : UInt32) (m2 : TensorShape) (s2 : UInt32) (m : TensorShape) (s : UInt32) :
    Prop where
  stride1 : s1 ≠ 0
  stride2 : s2 ≠ 0
  mask2i : m2.di ≠ 0
  mask2j : m2.dj ≠ 0
  coversi : s1.toNat ≤ m1.di.toNat
  coversj : s1.toNat ≤ m1.dj.toNat
  maski : m.di.toNat = m1.di.toNat + (m2.di.toNat - 1) * s1.toNat
  maskj : m.dj.toNat = m1.dj.toNat + (m2.dj.toNat - 1) * s1.toNat
  stride : s.toNat = s1.toNat * s2.toNat

end Rusty.Spec
