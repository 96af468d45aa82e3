import Verif.Spec.AnyLayer

/-! # Specification: layers that slide a window over the image, and what an output entry can see -/

namespace Rusty.Spec

variable {F : Type} [F32Ops F]

/-- The layer slides a window over rows and columns: max pooling, or a convolution with a kernel. -/
def Sliding : AnyLayer F → Prop
  | .conv l => l.kernels ≠ []
  | .mp _ => True
  | _ => False

/-- the distance between neighbouring windows -/
def stride : AnyLayer F → Nat
  | .conv l => l.stride.toNat
  | .mp l => l.stride.toNat
  | _ => 0

/-- rows and columns of the window -/
def windowSize : AnyLayer F → Nat × Nat
  | .conv l => ((l.kernels.head?.map (·.shape.di.toNat)).getD 0, (l.kernels.head?.map (·.shape.dj.toNat)).getD 0)
  | .mp l => (l.mask_shape.di.toNat, l.mask_shape.dj.toNat)
  | _ => (0, 0)

/-- the distance on the input between what neighbouring outputs of the layers `ls` see -/
def jump : List (AnyLayer F) → Nat
  | [] => 1
  | l :: ls => jump ls * stride l

/-- rows and columns of the input that one output position of the layers `ls` sees -/
def field : List (AnyLayer F) → Nat × Nat
  | [] => (1, 1)
  | l :: ls => (((field ls).1 - 1) * stride l + (windowSize l).1, ((field ls).2 - 1) * stride l + (windowSize l).2)

/-- The patch of `s` of size `r x c` with upper corner `(i,j)` is the same as that of `s'` at `(i',j')`,
in all channels. -/
def SamePatch (s s' : Tensor F) (i j i' j' r c : Nat) : Prop :=
  ∀ u v k, u < r → v < c → k < s.shape.dk.toNat →
    val s (i + u) (j + v) k = val s' (i' + u) (j' + v) k

end Rusty.Spec
