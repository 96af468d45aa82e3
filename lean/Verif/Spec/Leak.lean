import Verif.Spec.SignedZero

/-! # Vocabulary of C151 -/

namespace Rusty

open Spec F32

/-- the same number, zeros of any sign, or both NaN -/
def SameValue (x y : F32) : Prop := x.isNaN = true ∧ y.isNaN = true ∨ SameNumber x y

end Rusty
