import Verif.Proofs.FewClues

set_option autoImplicit false

/-!
# The full grids with boxes of 2 by 2 fields

The tables are made by a program; they are checked here.
-/

namespace Few

/-- All full grids of this size. -/
def all22 : List (List Nat) := [
  [0, 1, 2, 3, 2, 3, 0, 1, 1, 0, 3, 2, 3, 2, 1, 0], [0, 1, 2, 3, 2, 3, 0, 1, 1, 2, 3, 0, 3, 0, 1, 2],
  [0, 1, 2, 3, 2, 3, 0, 1, 3, 0, 1, 2, 1, 2, 3, 0], [0, 1, 2, 3, 2, 3, 0, 1, 3, 2, 1, 0, 1, 0, 3, 2],
  [0, 1, 2, 3, 2, 3, 1, 0, 1, 0, 3, 2, 3, 2, 0, 1], [0, 1, 2, 3, 2, 3, 1, 0, 3, 2, 0, 1, 1, 0, 3, 2],
  [0, 1, 2, 3, 3, 2, 0, 1, 1, 0, 3, 2, 2, 3, 1, 0], [0, 1, 2, 3, 3, 2, 0, 1, 2, 3, 1, 0, 1, 0, 3, 2],
  [0, 1, 2, 3, 3, 2, 1, 0, 1, 0, 3, 2, 2, 3, 0, 1], [0, 1, 2, 3, 3, 2, 1, 0, 1, 3, 0, 2, 2, 0, 3, 1],
  [0, 1, 2, 3, 3, 2, 1, 0, 2, 0, 3, 1, 1, 3, 0, 2], [0, 1, 2, 3, 3, 2, 1, 0, 2, 3, 0, 1, 1, 0, 3, 2],
  [0, 1, 3, 2, 2, 3, 0, 1, 1, 0, 2, 3, 3, 2, 1, 0], [0, 1, 3, 2, 2, 3, 0, 1, 3, 2, 1, 0, 1, 0, 2, 3],
  [0, 1, 3, 2, 2, 3, 1, 0, 1, 0, 2, 3, 3, 2, 0, 1], [0, 1, 3, 2, 2, 3, 1, 0, 1, 2, 0, 3, 3, 0, 2, 1],
  [0, 1, 3, 2, 2, 3, 1, 0, 3, 0, 2, 1, 1, 2, 0, 3], [0, 1, 3, 2, 2, 3, 1, 0, 3, 2, 0, 1, 1, 0, 2, 3],
  [0, 1, 3, 2, 3, 2, 0, 1, 1, 0, 2, 3, 2, 3, 1, 0], [0, 1, 3, 2, 3, 2, 0, 1, 1, 3, 2, 0, 2, 0, 1, 3],
  [0, 1, 3, 2, 3, 2, 0, 1, 2, 0, 1, 3, 1, 3, 2, 0], [0, 1, 3, 2, 3, 2, 0, 1, 2, 3, 1, 0, 1, 0, 2, 3],
  [0, 1, 3, 2, 3, 2, 1, 0, 1, 0, 2, 3, 2, 3, 0, 1], [0, 1, 3, 2, 3, 2, 1, 0, 2, 3, 0, 1, 1, 0, 2, 3],
  [0, 2, 1, 3, 1, 3, 0, 2, 2, 0, 3, 1, 3, 1, 2, 0], [0, 2, 1, 3, 1, 3, 0, 2, 2, 1, 3, 0, 3, 0, 2, 1],
  [0, 2, 1, 3, 1, 3, 0, 2, 3, 0, 2, 1, 2, 1, 3, 0], [0, 2, 1, 3, 1, 3, 0, 2, 3, 1, 2, 0, 2, 0, 3, 1],
  [0, 2, 1, 3, 1, 3, 2, 0, 2, 0, 3, 1, 3, 1, 0, 2], [0, 2, 1, 3, 1, 3, 2, 0, 3, 1, 0, 2, 2, 0, 3, 1],
  [0, 2, 1, 3, 3, 1, 0, 2, 1, 3, 2, 0, 2, 0, 3, 1], [0, 2, 1, 3, 3, 1, 0, 2, 2, 0, 3, 1, 1, 3, 2, 0],
  [0, 2, 1, 3, 3, 1, 2, 0, 1, 0, 3, 2, 2, 3, 0, 1], [0, 2, 1, 3, 3, 1, 2, 0, 1, 3, 0, 2, 2, 0, 3, 1],
  [0, 2, 1, 3, 3, 1, 2, 0, 2, 0, 3, 1, 1, 3, 0, 2], [0, 2, 1, 3, 3, 1, 2, 0, 2, 3, 0, 1, 1, 0, 3, 2],
  [0, 2, 3, 1, 1, 3, 0, 2, 2, 0, 1, 3, 3, 1, 2, 0], [0, 2, 3, 1, 1, 3, 0, 2, 3, 1, 2, 0, 2, 0, 1, 3],
  [0, 2, 3, 1, 1, 3, 2, 0, 2, 0, 1, 3, 3, 1, 0, 2], [0, 2, 3, 1, 1, 3, 2, 0, 2, 1, 0, 3, 3, 0, 1, 2],
  [0, 2, 3, 1, 1, 3, 2, 0, 3, 0, 1, 2, 2, 1, 0, 3], [0, 2, 3, 1, 1, 3, 2, 0, 3, 1, 0, 2, 2, 0, 1, 3],
  [0, 2, 3, 1, 3, 1, 0, 2, 1, 0, 2, 3, 2, 3, 1, 0], [0, 2, 3, 1, 3, 1, 0, 2, 1, 3, 2, 0, 2, 0, 1, 3],
  [0, 2, 3, 1, 3, 1, 0, 2, 2, 0, 1, 3, 1, 3, 2, 0], [0, 2, 3, 1, 3, 1, 0, 2, 2, 3, 1, 0, 1, 0, 2, 3],
  [0, 2, 3, 1, 3, 1, 2, 0, 1, 3, 0, 2, 2, 0, 1, 3], [0, 2, 3, 1, 3, 1, 2, 0, 2, 0, 1, 3, 1, 3, 0, 2],
  [0, 3, 1, 2, 1, 2, 0, 3, 2, 0, 3, 1, 3, 1, 2, 0], [0, 3, 1, 2, 1, 2, 0, 3, 2, 1, 3, 0, 3, 0, 2, 1],
  [0, 3, 1, 2, 1, 2, 0, 3, 3, 0, 2, 1, 2, 1, 3, 0], [0, 3, 1, 2, 1, 2, 0, 3, 3, 1, 2, 0, 2, 0, 3, 1],
  [0, 3, 1, 2, 1, 2, 3, 0, 2, 1, 0, 3, 3, 0, 2, 1], [0, 3, 1, 2, 1, 2, 3, 0, 3, 0, 2, 1, 2, 1, 0, 3],
  [0, 3, 1, 2, 2, 1, 0, 3, 1, 2, 3, 0, 3, 0, 2, 1], [0, 3, 1, 2, 2, 1, 0, 3, 3, 0, 2, 1, 1, 2, 3, 0],
  [0, 3, 1, 2, 2, 1, 3, 0, 1, 0, 2, 3, 3, 2, 0, 1], [0, 3, 1, 2, 2, 1, 3, 0, 1, 2, 0, 3, 3, 0, 2, 1],
  [0, 3, 1, 2, 2, 1, 3, 0, 3, 0, 2, 1, 1, 2, 0, 3], [0, 3, 1, 2, 2, 1, 3, 0, 3, 2, 0, 1, 1, 0, 2, 3],
  [0, 3, 2, 1, 1, 2, 0, 3, 2, 1, 3, 0, 3, 0, 1, 2], [0, 3, 2, 1, 1, 2, 0, 3, 3, 0, 1, 2, 2, 1, 3, 0],
  [0, 3, 2, 1, 1, 2, 3, 0, 2, 0, 1, 3, 3, 1, 0, 2], [0, 3, 2, 1, 1, 2, 3, 0, 2, 1, 0, 3, 3, 0, 1, 2],
  [0, 3, 2, 1, 1, 2, 3, 0, 3, 0, 1, 2, 2, 1, 0, 3], [0, 3, 2, 1, 1, 2, 3, 0, 3, 1, 0, 2, 2, 0, 1, 3],
  [0, 3, 2, 1, 2, 1, 0, 3, 1, 0, 3, 2, 3, 2, 1, 0], [0, 3, 2, 1, 2, 1, 0, 3, 1, 2, 3, 0, 3, 0, 1, 2],
  [0, 3, 2, 1, 2, 1, 0, 3, 3, 0, 1, 2, 1, 2, 3, 0], [0, 3, 2, 1, 2, 1, 0, 3, 3, 2, 1, 0, 1, 0, 3, 2],
  [0, 3, 2, 1, 2, 1, 3, 0, 1, 2, 0, 3, 3, 0, 1, 2], [0, 3, 2, 1, 2, 1, 3, 0, 3, 0, 1, 2, 1, 2, 0, 3],
  [1, 0, 2, 3, 2, 3, 0, 1, 0, 1, 3, 2, 3, 2, 1, 0], [1, 0, 2, 3, 2, 3, 0, 1, 3, 2, 1, 0, 0, 1, 3, 2],
  [1, 0, 2, 3, 2, 3, 1, 0, 0, 1, 3, 2, 3, 2, 0, 1], [1, 0, 2, 3, 2, 3, 1, 0, 0, 2, 3, 1, 3, 1, 0, 2],
  [1, 0, 2, 3, 2, 3, 1, 0, 3, 1, 0, 2, 0, 2, 3, 1], [1, 0, 2, 3, 2, 3, 1, 0, 3, 2, 0, 1, 0, 1, 3, 2],
  [1, 0, 2, 3, 3, 2, 0, 1, 0, 1, 3, 2, 2, 3, 1, 0], [1, 0, 2, 3, 3, 2, 0, 1, 0, 3, 1, 2, 2, 1, 3, 0],
  [1, 0, 2, 3, 3, 2, 0, 1, 2, 1, 3, 0, 0, 3, 1, 2], [1, 0, 2, 3, 3, 2, 0, 1, 2, 3, 1, 0, 0, 1, 3, 2],
  [1, 0, 2, 3, 3, 2, 1, 0, 0, 1, 3, 2, 2, 3, 0, 1], [1, 0, 2, 3, 3, 2, 1, 0, 2, 3, 0, 1, 0, 1, 3, 2],
  [1, 0, 3, 2, 2, 3, 0, 1, 0, 1, 2, 3, 3, 2, 1, 0], [1, 0, 3, 2, 2, 3, 0, 1, 0, 2, 1, 3, 3, 1, 2, 0],
  [1, 0, 3, 2, 2, 3, 0, 1, 3, 1, 2, 0, 0, 2, 1, 3], [1, 0, 3, 2, 2, 3, 0, 1, 3, 2, 1, 0, 0, 1, 2, 3],
  [1, 0, 3, 2, 2, 3, 1, 0, 0, 1, 2, 3, 3, 2, 0, 1], [1, 0, 3, 2, 2, 3, 1, 0, 3, 2, 0, 1, 0, 1, 2, 3],
  [1, 0, 3, 2, 3, 2, 0, 1, 0, 1, 2, 3, 2, 3, 1, 0], [1, 0, 3, 2, 3, 2, 0, 1, 2, 3, 1, 0, 0, 1, 2, 3],
  [1, 0, 3, 2, 3, 2, 1, 0, 0, 1, 2, 3, 2, 3, 0, 1], [1, 0, 3, 2, 3, 2, 1, 0, 0, 3, 2, 1, 2, 1, 0, 3],
  [1, 0, 3, 2, 3, 2, 1, 0, 2, 1, 0, 3, 0, 3, 2, 1], [1, 0, 3, 2, 3, 2, 1, 0, 2, 3, 0, 1, 0, 1, 2, 3],
  [1, 2, 0, 3, 0, 3, 1, 2, 2, 0, 3, 1, 3, 1, 2, 0], [1, 2, 0, 3, 0, 3, 1, 2, 2, 1, 3, 0, 3, 0, 2, 1],
  [1, 2, 0, 3, 0, 3, 1, 2, 3, 0, 2, 1, 2, 1, 3, 0], [1, 2, 0, 3, 0, 3, 1, 2, 3, 1, 2, 0, 2, 0, 3, 1],
  [1, 2, 0, 3, 0, 3, 2, 1, 2, 1, 3, 0, 3, 0, 1, 2], [1, 2, 0, 3, 0, 3, 2, 1, 3, 0, 1, 2, 2, 1, 3, 0],
  [1, 2, 0, 3, 3, 0, 1, 2, 0, 3, 2, 1, 2, 1, 3, 0], [1, 2, 0, 3, 3, 0, 1, 2, 2, 1, 3, 0, 0, 3, 2, 1],
  [1, 2, 0, 3, 3, 0, 2, 1, 0, 1, 3, 2, 2, 3, 1, 0], [1, 2, 0, 3, 3, 0, 2, 1, 0, 3, 1, 2, 2, 1, 3, 0],
  [1, 2, 0, 3, 3, 0, 2, 1, 2, 1, 3, 0, 0, 3, 1, 2], [1, 2, 0, 3, 3, 0, 2, 1, 2, 3, 1, 0, 0, 1, 3, 2],
  [1, 2, 3, 0, 0, 3, 1, 2, 2, 1, 0, 3, 3, 0, 2, 1], [1, 2, 3, 0, 0, 3, 1, 2, 3, 0, 2, 1, 2, 1, 0, 3],
  [1, 2, 3, 0, 0, 3, 2, 1, 2, 0, 1, 3, 3, 1, 0, 2], [1, 2, 3, 0, 0, 3, 2, 1, 2, 1, 0, 3, 3, 0, 1, 2],
  [1, 2, 3, 0, 0, 3, 2, 1, 3, 0, 1, 2, 2, 1, 0, 3], [1, 2, 3, 0, 0, 3, 2, 1, 3, 1, 0, 2, 2, 0, 1, 3],
  [1, 2, 3, 0, 3, 0, 1, 2, 0, 1, 2, 3, 2, 3, 0, 1], [1, 2, 3, 0, 3, 0, 1, 2, 0, 3, 2, 1, 2, 1, 0, 3],
  [1, 2, 3, 0, 3, 0, 1, 2, 2, 1, 0, 3, 0, 3, 2, 1], [1, 2, 3, 0, 3, 0, 1, 2, 2, 3, 0, 1, 0, 1, 2, 3],
  [1, 2, 3, 0, 3, 0, 2, 1, 0, 3, 1, 2, 2, 1, 0, 3], [1, 2, 3, 0, 3, 0, 2, 1, 2, 1, 0, 3, 0, 3, 1, 2],
  [1, 3, 0, 2, 0, 2, 1, 3, 2, 0, 3, 1, 3, 1, 2, 0], [1, 3, 0, 2, 0, 2, 1, 3, 2, 1, 3, 0, 3, 0, 2, 1],
  [1, 3, 0, 2, 0, 2, 1, 3, 3, 0, 2, 1, 2, 1, 3, 0], [1, 3, 0, 2, 0, 2, 1, 3, 3, 1, 2, 0, 2, 0, 3, 1],
  [1, 3, 0, 2, 0, 2, 3, 1, 2, 0, 1, 3, 3, 1, 2, 0], [1, 3, 0, 2, 0, 2, 3, 1, 3, 1, 2, 0, 2, 0, 1, 3],
  [1, 3, 0, 2, 2, 0, 1, 3, 0, 2, 3, 1, 3, 1, 2, 0], [1, 3, 0, 2, 2, 0, 1, 3, 3, 1, 2, 0, 0, 2, 3, 1],
  [1, 3, 0, 2, 2, 0, 3, 1, 0, 1, 2, 3, 3, 2, 1, 0], [1, 3, 0, 2, 2, 0, 3, 1, 0, 2, 1, 3, 3, 1, 2, 0],
  [1, 3, 0, 2, 2, 0, 3, 1, 3, 1, 2, 0, 0, 2, 1, 3], [1, 3, 0, 2, 2, 0, 3, 1, 3, 2, 1, 0, 0, 1, 2, 3],
  [1, 3, 2, 0, 0, 2, 1, 3, 2, 0, 3, 1, 3, 1, 0, 2], [1, 3, 2, 0, 0, 2, 1, 3, 3, 1, 0, 2, 2, 0, 3, 1],
  [1, 3, 2, 0, 0, 2, 3, 1, 2, 0, 1, 3, 3, 1, 0, 2], [1, 3, 2, 0, 0, 2, 3, 1, 2, 1, 0, 3, 3, 0, 1, 2],
  [1, 3, 2, 0, 0, 2, 3, 1, 3, 0, 1, 2, 2, 1, 0, 3], [1, 3, 2, 0, 0, 2, 3, 1, 3, 1, 0, 2, 2, 0, 1, 3],
  [1, 3, 2, 0, 2, 0, 1, 3, 0, 1, 3, 2, 3, 2, 0, 1], [1, 3, 2, 0, 2, 0, 1, 3, 0, 2, 3, 1, 3, 1, 0, 2],
  [1, 3, 2, 0, 2, 0, 1, 3, 3, 1, 0, 2, 0, 2, 3, 1], [1, 3, 2, 0, 2, 0, 1, 3, 3, 2, 0, 1, 0, 1, 3, 2],
  [1, 3, 2, 0, 2, 0, 3, 1, 0, 2, 1, 3, 3, 1, 0, 2], [1, 3, 2, 0, 2, 0, 3, 1, 3, 1, 0, 2, 0, 2, 1, 3],
  [2, 0, 1, 3, 1, 3, 0, 2, 0, 2, 3, 1, 3, 1, 2, 0], [2, 0, 1, 3, 1, 3, 0, 2, 3, 1, 2, 0, 0, 2, 3, 1],
  [2, 0, 1, 3, 1, 3, 2, 0, 0, 1, 3, 2, 3, 2, 0, 1], [2, 0, 1, 3, 1, 3, 2, 0, 0, 2, 3, 1, 3, 1, 0, 2],
  [2, 0, 1, 3, 1, 3, 2, 0, 3, 1, 0, 2, 0, 2, 3, 1], [2, 0, 1, 3, 1, 3, 2, 0, 3, 2, 0, 1, 0, 1, 3, 2],
  [2, 0, 1, 3, 3, 1, 0, 2, 0, 2, 3, 1, 1, 3, 2, 0], [2, 0, 1, 3, 3, 1, 0, 2, 0, 3, 2, 1, 1, 2, 3, 0],
  [2, 0, 1, 3, 3, 1, 0, 2, 1, 2, 3, 0, 0, 3, 2, 1], [2, 0, 1, 3, 3, 1, 0, 2, 1, 3, 2, 0, 0, 2, 3, 1],
  [2, 0, 1, 3, 3, 1, 2, 0, 0, 2, 3, 1, 1, 3, 0, 2], [2, 0, 1, 3, 3, 1, 2, 0, 1, 3, 0, 2, 0, 2, 3, 1],
  [2, 0, 3, 1, 1, 3, 0, 2, 0, 1, 2, 3, 3, 2, 1, 0], [2, 0, 3, 1, 1, 3, 0, 2, 0, 2, 1, 3, 3, 1, 2, 0],
  [2, 0, 3, 1, 1, 3, 0, 2, 3, 1, 2, 0, 0, 2, 1, 3], [2, 0, 3, 1, 1, 3, 0, 2, 3, 2, 1, 0, 0, 1, 2, 3],
  [2, 0, 3, 1, 1, 3, 2, 0, 0, 2, 1, 3, 3, 1, 0, 2], [2, 0, 3, 1, 1, 3, 2, 0, 3, 1, 0, 2, 0, 2, 1, 3],
  [2, 0, 3, 1, 3, 1, 0, 2, 0, 2, 1, 3, 1, 3, 2, 0], [2, 0, 3, 1, 3, 1, 0, 2, 1, 3, 2, 0, 0, 2, 1, 3],
  [2, 0, 3, 1, 3, 1, 2, 0, 0, 2, 1, 3, 1, 3, 0, 2], [2, 0, 3, 1, 3, 1, 2, 0, 0, 3, 1, 2, 1, 2, 0, 3],
  [2, 0, 3, 1, 3, 1, 2, 0, 1, 2, 0, 3, 0, 3, 1, 2], [2, 0, 3, 1, 3, 1, 2, 0, 1, 3, 0, 2, 0, 2, 1, 3],
  [2, 1, 0, 3, 0, 3, 1, 2, 1, 2, 3, 0, 3, 0, 2, 1], [2, 1, 0, 3, 0, 3, 1, 2, 3, 0, 2, 1, 1, 2, 3, 0],
  [2, 1, 0, 3, 0, 3, 2, 1, 1, 0, 3, 2, 3, 2, 1, 0], [2, 1, 0, 3, 0, 3, 2, 1, 1, 2, 3, 0, 3, 0, 1, 2],
  [2, 1, 0, 3, 0, 3, 2, 1, 3, 0, 1, 2, 1, 2, 3, 0], [2, 1, 0, 3, 0, 3, 2, 1, 3, 2, 1, 0, 1, 0, 3, 2],
  [2, 1, 0, 3, 3, 0, 1, 2, 0, 2, 3, 1, 1, 3, 2, 0], [2, 1, 0, 3, 3, 0, 1, 2, 0, 3, 2, 1, 1, 2, 3, 0],
  [2, 1, 0, 3, 3, 0, 1, 2, 1, 2, 3, 0, 0, 3, 2, 1], [2, 1, 0, 3, 3, 0, 1, 2, 1, 3, 2, 0, 0, 2, 3, 1],
  [2, 1, 0, 3, 3, 0, 2, 1, 0, 3, 1, 2, 1, 2, 3, 0], [2, 1, 0, 3, 3, 0, 2, 1, 1, 2, 3, 0, 0, 3, 1, 2],
  [2, 1, 3, 0, 0, 3, 1, 2, 1, 0, 2, 3, 3, 2, 0, 1], [2, 1, 3, 0, 0, 3, 1, 2, 1, 2, 0, 3, 3, 0, 2, 1],
  [2, 1, 3, 0, 0, 3, 1, 2, 3, 0, 2, 1, 1, 2, 0, 3], [2, 1, 3, 0, 0, 3, 1, 2, 3, 2, 0, 1, 1, 0, 2, 3],
  [2, 1, 3, 0, 0, 3, 2, 1, 1, 2, 0, 3, 3, 0, 1, 2], [2, 1, 3, 0, 0, 3, 2, 1, 3, 0, 1, 2, 1, 2, 0, 3],
  [2, 1, 3, 0, 3, 0, 1, 2, 0, 3, 2, 1, 1, 2, 0, 3], [2, 1, 3, 0, 3, 0, 1, 2, 1, 2, 0, 3, 0, 3, 2, 1],
  [2, 1, 3, 0, 3, 0, 2, 1, 0, 2, 1, 3, 1, 3, 0, 2], [2, 1, 3, 0, 3, 0, 2, 1, 0, 3, 1, 2, 1, 2, 0, 3],
  [2, 1, 3, 0, 3, 0, 2, 1, 1, 2, 0, 3, 0, 3, 1, 2], [2, 1, 3, 0, 3, 0, 2, 1, 1, 3, 0, 2, 0, 2, 1, 3],
  [2, 3, 0, 1, 0, 1, 2, 3, 1, 0, 3, 2, 3, 2, 1, 0], [2, 3, 0, 1, 0, 1, 2, 3, 1, 2, 3, 0, 3, 0, 1, 2],
  [2, 3, 0, 1, 0, 1, 2, 3, 3, 0, 1, 2, 1, 2, 3, 0], [2, 3, 0, 1, 0, 1, 2, 3, 3, 2, 1, 0, 1, 0, 3, 2],
  [2, 3, 0, 1, 0, 1, 3, 2, 1, 0, 2, 3, 3, 2, 1, 0], [2, 3, 0, 1, 0, 1, 3, 2, 3, 2, 1, 0, 1, 0, 2, 3],
  [2, 3, 0, 1, 1, 0, 2, 3, 0, 1, 3, 2, 3, 2, 1, 0], [2, 3, 0, 1, 1, 0, 2, 3, 3, 2, 1, 0, 0, 1, 3, 2],
  [2, 3, 0, 1, 1, 0, 3, 2, 0, 1, 2, 3, 3, 2, 1, 0], [2, 3, 0, 1, 1, 0, 3, 2, 0, 2, 1, 3, 3, 1, 2, 0],
  [2, 3, 0, 1, 1, 0, 3, 2, 3, 1, 2, 0, 0, 2, 1, 3], [2, 3, 0, 1, 1, 0, 3, 2, 3, 2, 1, 0, 0, 1, 2, 3],
  [2, 3, 1, 0, 0, 1, 2, 3, 1, 0, 3, 2, 3, 2, 0, 1], [2, 3, 1, 0, 0, 1, 2, 3, 3, 2, 0, 1, 1, 0, 3, 2],
  [2, 3, 1, 0, 0, 1, 3, 2, 1, 0, 2, 3, 3, 2, 0, 1], [2, 3, 1, 0, 0, 1, 3, 2, 1, 2, 0, 3, 3, 0, 2, 1],
  [2, 3, 1, 0, 0, 1, 3, 2, 3, 0, 2, 1, 1, 2, 0, 3], [2, 3, 1, 0, 0, 1, 3, 2, 3, 2, 0, 1, 1, 0, 2, 3],
  [2, 3, 1, 0, 1, 0, 2, 3, 0, 1, 3, 2, 3, 2, 0, 1], [2, 3, 1, 0, 1, 0, 2, 3, 0, 2, 3, 1, 3, 1, 0, 2],
  [2, 3, 1, 0, 1, 0, 2, 3, 3, 1, 0, 2, 0, 2, 3, 1], [2, 3, 1, 0, 1, 0, 2, 3, 3, 2, 0, 1, 0, 1, 3, 2],
  [2, 3, 1, 0, 1, 0, 3, 2, 0, 1, 2, 3, 3, 2, 0, 1], [2, 3, 1, 0, 1, 0, 3, 2, 3, 2, 0, 1, 0, 1, 2, 3],
  [3, 0, 1, 2, 1, 2, 0, 3, 0, 3, 2, 1, 2, 1, 3, 0], [3, 0, 1, 2, 1, 2, 0, 3, 2, 1, 3, 0, 0, 3, 2, 1],
  [3, 0, 1, 2, 1, 2, 3, 0, 0, 1, 2, 3, 2, 3, 0, 1], [3, 0, 1, 2, 1, 2, 3, 0, 0, 3, 2, 1, 2, 1, 0, 3],
  [3, 0, 1, 2, 1, 2, 3, 0, 2, 1, 0, 3, 0, 3, 2, 1], [3, 0, 1, 2, 1, 2, 3, 0, 2, 3, 0, 1, 0, 1, 2, 3],
  [3, 0, 1, 2, 2, 1, 0, 3, 0, 2, 3, 1, 1, 3, 2, 0], [3, 0, 1, 2, 2, 1, 0, 3, 0, 3, 2, 1, 1, 2, 3, 0],
  [3, 0, 1, 2, 2, 1, 0, 3, 1, 2, 3, 0, 0, 3, 2, 1], [3, 0, 1, 2, 2, 1, 0, 3, 1, 3, 2, 0, 0, 2, 3, 1],
  [3, 0, 1, 2, 2, 1, 3, 0, 0, 3, 2, 1, 1, 2, 0, 3], [3, 0, 1, 2, 2, 1, 3, 0, 1, 2, 0, 3, 0, 3, 2, 1],
  [3, 0, 2, 1, 1, 2, 0, 3, 0, 1, 3, 2, 2, 3, 1, 0], [3, 0, 2, 1, 1, 2, 0, 3, 0, 3, 1, 2, 2, 1, 3, 0],
  [3, 0, 2, 1, 1, 2, 0, 3, 2, 1, 3, 0, 0, 3, 1, 2], [3, 0, 2, 1, 1, 2, 0, 3, 2, 3, 1, 0, 0, 1, 3, 2],
  [3, 0, 2, 1, 1, 2, 3, 0, 0, 3, 1, 2, 2, 1, 0, 3], [3, 0, 2, 1, 1, 2, 3, 0, 2, 1, 0, 3, 0, 3, 1, 2],
  [3, 0, 2, 1, 2, 1, 0, 3, 0, 3, 1, 2, 1, 2, 3, 0], [3, 0, 2, 1, 2, 1, 0, 3, 1, 2, 3, 0, 0, 3, 1, 2],
  [3, 0, 2, 1, 2, 1, 3, 0, 0, 2, 1, 3, 1, 3, 0, 2], [3, 0, 2, 1, 2, 1, 3, 0, 0, 3, 1, 2, 1, 2, 0, 3],
  [3, 0, 2, 1, 2, 1, 3, 0, 1, 2, 0, 3, 0, 3, 1, 2], [3, 0, 2, 1, 2, 1, 3, 0, 1, 3, 0, 2, 0, 2, 1, 3],
  [3, 1, 0, 2, 0, 2, 1, 3, 1, 3, 2, 0, 2, 0, 3, 1], [3, 1, 0, 2, 0, 2, 1, 3, 2, 0, 3, 1, 1, 3, 2, 0],
  [3, 1, 0, 2, 0, 2, 3, 1, 1, 0, 2, 3, 2, 3, 1, 0], [3, 1, 0, 2, 0, 2, 3, 1, 1, 3, 2, 0, 2, 0, 1, 3],
  [3, 1, 0, 2, 0, 2, 3, 1, 2, 0, 1, 3, 1, 3, 2, 0], [3, 1, 0, 2, 0, 2, 3, 1, 2, 3, 1, 0, 1, 0, 2, 3],
  [3, 1, 0, 2, 2, 0, 1, 3, 0, 2, 3, 1, 1, 3, 2, 0], [3, 1, 0, 2, 2, 0, 1, 3, 0, 3, 2, 1, 1, 2, 3, 0],
  [3, 1, 0, 2, 2, 0, 1, 3, 1, 2, 3, 0, 0, 3, 2, 1], [3, 1, 0, 2, 2, 0, 1, 3, 1, 3, 2, 0, 0, 2, 3, 1],
  [3, 1, 0, 2, 2, 0, 3, 1, 0, 2, 1, 3, 1, 3, 2, 0], [3, 1, 0, 2, 2, 0, 3, 1, 1, 3, 2, 0, 0, 2, 1, 3],
  [3, 1, 2, 0, 0, 2, 1, 3, 1, 0, 3, 2, 2, 3, 0, 1], [3, 1, 2, 0, 0, 2, 1, 3, 1, 3, 0, 2, 2, 0, 3, 1],
  [3, 1, 2, 0, 0, 2, 1, 3, 2, 0, 3, 1, 1, 3, 0, 2], [3, 1, 2, 0, 0, 2, 1, 3, 2, 3, 0, 1, 1, 0, 3, 2],
  [3, 1, 2, 0, 0, 2, 3, 1, 1, 3, 0, 2, 2, 0, 1, 3], [3, 1, 2, 0, 0, 2, 3, 1, 2, 0, 1, 3, 1, 3, 0, 2],
  [3, 1, 2, 0, 2, 0, 1, 3, 0, 2, 3, 1, 1, 3, 0, 2], [3, 1, 2, 0, 2, 0, 1, 3, 1, 3, 0, 2, 0, 2, 3, 1],
  [3, 1, 2, 0, 2, 0, 3, 1, 0, 2, 1, 3, 1, 3, 0, 2], [3, 1, 2, 0, 2, 0, 3, 1, 0, 3, 1, 2, 1, 2, 0, 3],
  [3, 1, 2, 0, 2, 0, 3, 1, 1, 2, 0, 3, 0, 3, 1, 2], [3, 1, 2, 0, 2, 0, 3, 1, 1, 3, 0, 2, 0, 2, 1, 3],
  [3, 2, 0, 1, 0, 1, 2, 3, 1, 0, 3, 2, 2, 3, 1, 0], [3, 2, 0, 1, 0, 1, 2, 3, 2, 3, 1, 0, 1, 0, 3, 2],
  [3, 2, 0, 1, 0, 1, 3, 2, 1, 0, 2, 3, 2, 3, 1, 0], [3, 2, 0, 1, 0, 1, 3, 2, 1, 3, 2, 0, 2, 0, 1, 3],
  [3, 2, 0, 1, 0, 1, 3, 2, 2, 0, 1, 3, 1, 3, 2, 0], [3, 2, 0, 1, 0, 1, 3, 2, 2, 3, 1, 0, 1, 0, 2, 3],
  [3, 2, 0, 1, 1, 0, 2, 3, 0, 1, 3, 2, 2, 3, 1, 0], [3, 2, 0, 1, 1, 0, 2, 3, 0, 3, 1, 2, 2, 1, 3, 0],
  [3, 2, 0, 1, 1, 0, 2, 3, 2, 1, 3, 0, 0, 3, 1, 2], [3, 2, 0, 1, 1, 0, 2, 3, 2, 3, 1, 0, 0, 1, 3, 2],
  [3, 2, 0, 1, 1, 0, 3, 2, 0, 1, 2, 3, 2, 3, 1, 0], [3, 2, 0, 1, 1, 0, 3, 2, 2, 3, 1, 0, 0, 1, 2, 3],
  [3, 2, 1, 0, 0, 1, 2, 3, 1, 0, 3, 2, 2, 3, 0, 1], [3, 2, 1, 0, 0, 1, 2, 3, 1, 3, 0, 2, 2, 0, 3, 1],
  [3, 2, 1, 0, 0, 1, 2, 3, 2, 0, 3, 1, 1, 3, 0, 2], [3, 2, 1, 0, 0, 1, 2, 3, 2, 3, 0, 1, 1, 0, 3, 2],
  [3, 2, 1, 0, 0, 1, 3, 2, 1, 0, 2, 3, 2, 3, 0, 1], [3, 2, 1, 0, 0, 1, 3, 2, 2, 3, 0, 1, 1, 0, 2, 3],
  [3, 2, 1, 0, 1, 0, 2, 3, 0, 1, 3, 2, 2, 3, 0, 1], [3, 2, 1, 0, 1, 0, 2, 3, 2, 3, 0, 1, 0, 1, 3, 2],
  [3, 2, 1, 0, 1, 0, 3, 2, 0, 1, 2, 3, 2, 3, 0, 1], [3, 2, 1, 0, 1, 0, 3, 2, 0, 3, 2, 1, 2, 1, 0, 3],
  [3, 2, 1, 0, 1, 0, 3, 2, 2, 1, 0, 3, 0, 3, 2, 1], [3, 2, 1, 0, 1, 0, 3, 2, 2, 3, 0, 1, 0, 1, 2, 3]]

set_option maxRecDepth 100000 in
theorem grids22 : grids 2 2 16 = all22 := by decide +kernel

/-- The smallest sets in which other full grids differ. -/
def table22 : List (List Nat × List Nat × List Nat) := [
  ([0, 1, 2, 3, 2, 3, 0, 1, 1, 0, 3, 2, 3, 2, 1, 0],
    [85, 170, 771, 3084, 12336, 21760, 43520, 49344, 27030, 38505, 31725, 47070, 57015, 60795],
    [13829, 14598, 7433, 11786, 14609, 13842, 11905, 7554, 11556, 7748, 14888, 13640, 7728, 11600, 13728, 15040]),
  ([0, 1, 2, 3, 2, 3, 0, 1, 1, 2, 3, 0, 3, 0, 1, 2],
    [85, 170, 21760, 43520, 13107, 15465, 27075, 38460, 50070, 52428, 3963, 4062, 27606, 28011, 31209, 31728, 38814, 40569, 46701, 46863, 54966, 57072, 59799, 60687, 61623, 61677],
    [63857777, 31014226, 64822145, 42954402, 24354193, 53929138, 36109921, 57793346, 13237588, 4169112, 12529316, 14876264, 54509748, 63762552, 66122564, 67044232]),
  ([0, 1, 2, 3, 2, 3, 0, 1, 3, 0, 1, 2, 1, 2, 3, 0],
    [85, 170, 21760, 43520, 13107, 15510, 26940, 38595, 50025, 52428, 4023, 4077, 27501, 28086, 31134, 31503, 38889, 40599, 46806, 47088, 54891, 56847, 59769, 60912, 61563, 61662],
    [24354193, 53929138, 36109921, 57793346, 63857777, 31014226, 64822145, 42954402, 13237588, 4169112, 12529316, 14876264, 54509748, 63762552, 66122564, 67044232]),
  ([0, 1, 2, 3, 2, 3, 0, 1, 3, 2, 1, 0, 1, 0, 3, 2],
    [85, 170, 816, 3264, 12291, 21760, 43520, 49164, 26985, 38550, 31710, 47085, 56955, 60855],
    [14609, 13842, 11905, 7554, 13829, 14598, 7433, 11786, 11556, 7748, 14888, 13640, 7728, 11600, 13728, 15040]),
  ([0, 1, 2, 3, 2, 3, 1, 0, 1, 0, 3, 2, 3, 2, 0, 1],
    [771, 3084, 12336, 49344, 255, 22185, 27285, 38250, 43350, 65280, 22135, 24245, 27374, 27606, 30550, 31405, 38365, 38889, 43451, 44410, 46430, 48041, 54891, 56725, 59799, 61034],
    [31951985, 56391057, 26344786, 41914546, 27094356, 40803508, 39548312, 27768952, 29320065, 40042081, 47926946, 61651778, 15978148, 54326084, 62979688, 67044232]),
  ([0, 1, 2, 3, 2, 3, 1, 0, 3, 2, 0, 1, 1, 0, 3, 2],
    [816, 3264, 12291, 49164, 255, 22890, 26025, 39510, 42645, 65280, 23005, 23390, 25975, 28011, 30550, 31209, 39611, 40599, 42734, 42925, 46806, 48041, 55930, 56725, 58805, 61034],
    [28030292, 39286964, 27155864, 40742008, 30629265, 57520241, 39124146, 29328722, 27852385, 41896833, 60715842, 48475810, 15978148, 54326084, 62979688, 67044232]),
  ([0, 1, 2, 3, 3, 2, 0, 1, 1, 0, 3, 2, 2, 3, 1, 0],
    [771, 3084, 12336, 49344, 255, 22950, 26010, 39525, 42585, 65280, 23005, 23525, 25975, 28086, 30565, 31134, 39611, 40569, 42734, 42970, 46701, 48026, 55975, 56665, 58715, 61094],
    [30629265, 57520241, 39124146, 29328722, 28030292, 39286964, 27155864, 40742008, 27852385, 41896833, 60715842, 48475810, 15978148, 54326084, 62979688, 67044232]),
  ([0, 1, 2, 3, 3, 2, 0, 1, 2, 3, 1, 0, 1, 0, 3, 2],
    [816, 3264, 12291, 49164, 255, 22170, 27225, 38310, 43365, 65280, 22135, 24155, 27374, 27501, 30565, 31450, 38365, 38814, 43451, 44455, 46565, 48026, 54966, 56665, 59769, 61094],
    [27094356, 40803508, 39548312, 27768952, 31951985, 56391057, 26344786, 41914546, 29320065, 40042081, 47926946, 61651778, 15978148, 54326084, 62979688, 67044232]),
  ([0, 1, 2, 3, 3, 2, 1, 0, 1, 0, 3, 2, 2, 3, 0, 1],
    [102, 153, 771, 3084, 12336, 26112, 39168, 49344, 23205, 42330, 31710, 47085, 56955, 60855],
    [14598, 13829, 11529, 7690, 13842, 14609, 7809, 11650, 11844, 7460, 14888, 13640, 7504, 11824, 13728, 15040]),
  ([0, 1, 2, 3, 3, 2, 1, 0, 1, 3, 0, 2, 2, 0, 3, 1],
    [102, 153, 26112, 39168, 13107, 15525, 23100, 42435, 50010, 52428, 4023, 4062, 23390, 24245, 31405, 31503, 42970, 44455, 46565, 47088, 55930, 57072, 58715, 60687, 61563, 61677],
    [63366322, 30645649, 42401377, 64084802, 24722770, 54420593, 58530689, 36662946, 13606296, 3800404, 15675044, 11730536, 54325368, 63946932, 66122564, 67044232]),
  ([0, 1, 2, 3, 3, 2, 1, 0, 2, 0, 3, 1, 1, 3, 0, 2],
    [102, 153, 26112, 39168, 13107, 15450, 23235, 42300, 50085, 52428, 3963, 4077, 23525, 24155, 31450, 31728, 42925, 44410, 46430, 46863, 55975, 56847, 58805, 60912, 61623, 61662],
    [24722770, 54420593, 58530689, 36662946, 63366322, 30645649, 42401377, 64084802, 13606296, 3800404, 15675044, 11730536, 54325368, 63946932, 66122564, 67044232]),
  ([0, 1, 2, 3, 3, 2, 1, 0, 2, 3, 0, 1, 1, 0, 3, 2],
    [102, 153, 816, 3264, 12291, 26112, 39168, 49164, 23130, 42405, 31725, 47070, 57015, 60795],
    [13842, 14609, 7809, 11650, 14598, 13829, 11529, 7690, 11844, 7460, 14888, 13640, 7504, 11824, 13728, 15040])]

theorem keys22 : (all22.all fun l => !(l.take 4 == [0, 1, 2, 3]) || table22.any fun p => p.1 == l) = true := by decide +kernel

set_option maxRecDepth 100000 in
theorem table22_ok : (table22.all fun p => check 16 3 7 all22 p.1 p.2.1 p.2.2) = true := by decide +kernel

theorem checked22 : Checked 2 2 3 7 := by
  intro l hl ht
  have e : grids 2 2 (2 * 2 * (2 * 2)) = all22 := grids22
  rw [e] at hl ⊢
  have h1 := List.all_eq_true.1 keys22 l hl
  have h2 : (l.take 4 == [0, 1, 2, 3]) = true := beq_iff_eq.2 ht
  rw [h2, Bool.not_true, Bool.false_or] at h1
  obtain ⟨p, hp, h3⟩ := List.any_eq_true.1 h1
  rw [beq_iff_eq] at h3
  subst h3
  exact ⟨p.2.1, p.2.2, List.all_eq_true.1 table22_ok p hp⟩

end Few
