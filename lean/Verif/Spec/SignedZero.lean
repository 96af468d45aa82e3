import Verif.Spec.AnyLayer
import Verif.Model.IEEE

/-! # Specification: floats that are the same number, with two zeros -/

namespace Rusty.Spec

open F32

/-- the same bits, or zeros of any sign -/
def SameNumber (x y : F32) : Prop := x = y ∨ x.code = 0 ∧ y.code = 0

/-- a layer that multiplies by weights and adds up -/
def Weighted : AnyLayer F32 → Prop
  | .fc _ => True
  | .conv _ => True
  | _ => False

/-- a max-pool layer -/
def Pooling : AnyLayer F32 → Prop
  | .mp _ => True
  | _ => False

end Rusty.Spec
