import Verif.Spec.Memory

/-! # Specification: how many parameters a layer stores (C99) -/

namespace Rusty.Spec

variable {F : Type} [F32Ops F]

/-- the numbers in the parameter tensors of a layer, whatever the shapes say -/
def storedParams : AnyLayer F → Nat
  | .conv l => cells l.kernels + cells l.biases
  | .fc l => cells [l.weights, l.bias]
  | .mp _ => 0
  | .sm _ => 0

end Rusty.Spec
