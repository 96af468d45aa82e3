import Verif.Spec.FileSize

/-! # Specification: damaged files -/

namespace Rusty.Spec

variable {F : Type}

/-- the bytes `bs` with those from position `p` on replaced by `w` -/
def overwrite (bs : Bytes) (p : Nat) (w : Bytes) : Bytes := bs.take p ++ w ++ bs.drop (p + w.length)

/-- the number that stands for the type of a layer in a file -/
def typeNumber : AnyLayer F → UInt32
  | .conv _ => 0
  | .fc _ => 1
  | .mp _ => 2
  | .sm _ => 3

/-- how many fields a layer of that type has in a file -/
def numKeys (t : UInt32) : Nat :=
  if t = 0 then 5 else if t = 1 then 3 else if t = 2 then 4 else if t = 3 then 2 else 0

/-- where the type of layer number `k` is in the file of a network -/
def typeAt (n : Net F) (k : Nat) : Nat := 8 + ((n.get_layers.take k).map layerBytes).sum

end Rusty.Spec
