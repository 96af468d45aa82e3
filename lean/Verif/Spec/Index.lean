/-!
# Index lists: the order in which a loop nest visits its indices
-/

namespace Rusty

/-- the index triples `(i, j, k)` below the bounds, `i` fastest, then `j`, then `k` -/
def idx3 (di dj dk : Nat) : List (Nat × Nat × Nat) :=
  (List.range dk).flatMap fun k => (List.range dj).flatMap fun j => (List.range di).map fun i =>
    (i, j, k)

/-- the index pairs `(i, j)` below the bounds, `i` fastest -/
def idx2 (di dj : Nat) : List (Nat × Nat) :=
  (List.range dj).flatMap fun j => (List.range di).map fun i => (i, j)

end Rusty
