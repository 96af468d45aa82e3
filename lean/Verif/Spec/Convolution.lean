import Verif.Spec.Tensor
import Verif.Spec.Index
import Verif.Model.Convolution

/-!
# Specification of strided windows, convolutions and their gradients

Over natural-number indices; independent of the code's loops, its u32 arithmetic and its checks.
-/

namespace Rusty.Spec

open F32Ops

/-- `n` windows of width `w`, one every `s`, tile a line of length `d` exactly. -/
def tiles (d w s n : Nat) : Prop := 1 ≤ n ∧ (n - 1) * s + w = d

instance (d w s n : Nat) : Decidable (tiles d w s n) := by unfold tiles; infer_instance

/-- Windows of shape `w`, one every `s`, tile the first two dimensions of `image` exactly and there
are as many of them as `result` has rows and columns. -/
def windowsTile (image w : TensorShape) (s : UInt32) (result : TensorShape) : Prop :=
  tiles image.di.toNat w.di.toNat s.toNat result.di.toNat ∧
  tiles image.dj.toNat w.dj.toNat s.toNat result.dj.toNat

/-- `image`, `kernel` and `result` admit a convolution with stride `s` into channel `c`. -/
def convFits (image kernel : TensorShape) (s : UInt32) (result : TensorShape) (c : Nat) : Prop :=
  image.dk = kernel.dk ∧ windowsTile image kernel s result ∧ c < result.dk.toNat

instance (a b : TensorShape) (s : UInt32) (r : TensorShape) : Decidable (windowsTile a b s r) := by
  unfold windowsTile; infer_instance

instance (a b : TensorShape) (s : UInt32) (r : TensorShape) (c : Nat) :
    Decidable (convFits a b s r c) := by unfold convFits; infer_instance

variable {F : Type} [F32Ops F]

/-- Cross-correlation of `image` with `kernel` at output position `(i,j)`, stride `s`. -/
def conv (image kernel : Tensor F) (s i j : Nat) : F :=
  sum ((idx3 kernel.shape.di.toNat kernel.shape.dj.toNat kernel.shape.dk.toNat).map fun (ki, kj, kk) =>
    mul (val image (i * s + ki) (j * s + kj) kk) (val kernel ki kj kk))

/-- Gradient of the convolutions with all `kernels` at image position `(a,b,c)`: every output
position whose window contains `(a,b)` contributes. -/
def outgoing (incoming : Tensor F) (kernels : List (Tensor F)) (s a b c : Nat) : F :=
  sum (((idx3 incoming.shape.di.toNat incoming.shape.dj.toNat incoming.shape.dk.toNat).filter
      fun (i, j, k) =>
        s * i ≤ a ∧ a - s * i < ((kernels[k]?.map (·.shape.di.toNat)).getD 0) ∧
        s * j ≤ b ∧ b - s * j < ((kernels[k]?.map (·.shape.dj.toNat)).getD 0)).map
    fun (i, j, k) =>
      mul ((kernels[k]?.map (fun kern => val kern (a - s * i) (b - s * j) c)).getD zero)
        (val incoming i j k))

/-- Gradient of the convolution into channel `c` with respect to kernel entry `(l,m,n)`. -/
def kernelGrad (incoming image : Tensor F) (s c l m n : Nat) : F :=
  sum ((idx2 incoming.shape.di.toNat incoming.shape.dj.toNat).map fun (i, j) =>
    mul (val image (l + i * s) (m + j * s) n) (val incoming i j c))

/-- kernels that are well formed and accepted, one per channel -/
structure KernelsOk (image incoming : TensorShape) (s : UInt32) (kernels : List (Tensor F)) :
    Prop where
  len : kernels.length = incoming.dk.toNat
  wf : ∀ k (h : k < kernels.length), kernels[k].WF
  fits : ∀ k (h : k < kernels.length), convFits image kernels[k].shape s incoming k

/-- The code visits the right output positions along this axis. -/
def axisRight (a kd s n : Nat) : Prop :=
  ¬ (a < kd ∧ kd < a + s) ∧ min (a / s + 1) kd = min (a / s + 1) n

end Rusty.Spec
