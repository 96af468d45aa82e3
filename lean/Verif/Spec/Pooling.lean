import Verif.Spec.Convolution

/-! # Specification of max pooling -/

namespace Rusty

open F32Ops

/-- The laws of `>` on floats that max pooling relies on.  They hold for IEEE 754 comparisons, NaN
included (`ieeeOrder` in `Verif/Lemmas/IEEELaws.lean`), for the integers and for the reals. -/
class F32Order (F : Type) [F32Ops F] : Prop where
  /-- nothing is above itself -/
  gt_irrefl : ∀ x : F, gt x x = false
  /-- transitivity -/
  gt_trans : ∀ x y z : F, gt x y = true → gt y z = true → gt x z = true
  /-- a number (something equal to itself, i.e. not NaN) is comparable to both ends of a gap -/
  gt_cotrans : ∀ x y z : F, gt x y = true → feq z z = true → gt x z = true ∨ gt z y = true

namespace Spec

variable {F : Type} [F32Ops F]

/-- The entries of the window of output `(i,j,k)`, first axis fastest. -/
def window (image : Tensor F) (mask : TensorShape) (s i j k : Nat) : List F :=
  (idx2 mask.di.toNat mask.dj.toNat).map fun (ii, jj) => val image (i * s + ii) (j * s + jj) k

/-- `m` is the largest entry of `w`, ignoring NaN; negative infinity if nothing is above it. -/
def isMax (w : List F) (m : F) : Prop :=
  (∀ e ∈ w, gt e m = false) ∧ (m ∈ w ∧ gt m negInf = true ∨
    m = negInf ∧ ∀ e ∈ w, gt e negInf = false)

/-- `o` is the position in `image` of the first entry of the window of output `(i,j,k)` that
attains `m`: everything before it is below `m` (or NaN). -/
def isFirstArgmax (image : Tensor F) (mask : TensorShape) (s i j k : Nat) (m : F) (o : Nat) : Prop :=
  ∃ ii jj pre post, idx2 mask.di.toNat mask.dj.toNat = pre ++ (ii, jj) :: post ∧
    image.shape.Inside (i * s + ii) (j * s + jj) k ∧
    o = pos image.shape (i * s + ii) (j * s + jj) k ∧
    val image (i * s + ii) (j * s + jj) k = m ∧
    ∀ p ∈ pre, feq (val image (i * s + p.1) (j * s + p.2) k)
        (val image (i * s + p.1) (j * s + p.2) k) = true →
      gt m (val image (i * s + p.1) (j * s + p.2) k) = true

end Spec

end Rusty
