import Verif.Model.IEEE

/-! # Specification: floats of opposite sign (C93) -/

namespace Rusty.Spec

open F32

/-- both NaN, or the same magnitude with the other sign; the sign of zero does not matter -/
def Opposite (x y : F32) : Prop :=
  x.isNaN = true ∧ y.isNaN = true ∨ x.code = y.code ∧ (x.code = 0 ∨ y.sign = !x.sign)

end Rusty.Spec
