import Verif.Spec.Scaling
import Verif.Spec.Batch

/-! # Specification: gradients multiplied by a power of two (C125) -/

namespace Rusty.Spec

open F32

variable [Libm]

/-- `v'` is `2^k` times `v`, unless one of them is infinite or NaN -/
def Scales (k : Nat) (v v' : F32) : Prop :=
  v.isFinite = true → v'.isFinite = true → v'.toReal = 2 ^ k * v.toReal

/-- No product that `backward` forms in this layer underflows: `s` is the input of the layer, `s'` its output and
`g` the gradient for the output. -/
def Lossless : AnyLayer F32 → Tensor F32 → Tensor F32 → Tensor F32 → Prop
  | .fc l, s, s', g => ∀ o i, o < l.weights.shape.di.toNat → i < l.weights.shape.dj.toNat →
      F32.gt (val s' o 0 0) F32Ops.zero = true →
      NoUnderflow ((val l.weights o i 0).toReal * (val g o 0 0).toReal) ∧
      NoUnderflow ((val g o 0 0).toReal * (val s i 0 0).toReal)
  | .sm l, _, s', g => (∀ i, i < l.shape.di.toNat → NoUnderflow ((val s' i 0 0).toReal * (val g i 0 0).toReal)) ∧
      ∀ i, i < l.shape.di.toNat → NoUnderflow ((val s' i 0 0).toReal * (sum ((List.range l.shape.di.toNat).map fun o =>
        F32.mul (val s' o 0 0) (val g o 0 0))).toReal)
  | .conv _, _, _, _ => True
  | .mp _, _, _, _ => True

/-- The weight and bias gradients recorded in the second network are `2^k` times those in the first, except where one
of them is infinite or NaN. -/
def GradientsScale (b : Build) (k : Nat) (n n' : Net F32) : Prop :=
  ∀ (c : Nat) l, n.get_layers[c]? = some (.fc l) → ∃ l', n'.get_layers[c]? = some (.fc l') ∧
    ∀ o, o < l.weights.shape.di.toNat →
      (∃ v v', l.bias_gradients.get_item b (ix o 0 0) = .ok v ∧ l'.bias_gradients.get_item b (ix o 0 0) = .ok v' ∧
        Scales k v v') ∧
      ∀ i, i < l.weights.shape.dj.toNat → ∃ v v', l.weights_gradients.get_item b (ix o i 0) = .ok v ∧
        l'.weights_gradients.get_item b (ix o i 0) = .ok v' ∧ Scales k v v'

/-- the same input, and a gradient `2^k` times as large -/
def Example.Scaled (k : Nat) (e e' : Example F32) : Prop :=
  e'.x = e.x ∧ ∀ i j l, e.g.shape.Inside i j l → Scales k (val e.g i j l) (val e'.g i j l)

end Rusty.Spec
