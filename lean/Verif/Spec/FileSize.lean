import Verif.Spec.Serialization

/-! # Specification: the sizes of saved files -/

namespace Rusty.Spec

variable {F : Type}

/-- bytes of a saved tensor: strides, shape, number of entries, entries -/
def tensorBytes (t : Tensor F) : Nat := 32 + 4 * t.data.length

/-- bytes of a saved layer -/
def layerBytes : AnyLayer F → Nat
  | .conv l => 112 + (l.kernels.map tensorBytes).sum + (l.biases.map tensorBytes).sum + l.name.utf8ByteSize
  | .fc l => 56 + tensorBytes l.weights + tensorBytes l.bias + l.name.utf8ByteSize
  | .mp l => 96 + l.name.utf8ByteSize
  | .sm l => 56 + l.name.utf8ByteSize

end Rusty.Spec
