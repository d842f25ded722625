import Verif.Model.Calls

set_option autoImplicit false

/-!
# `sudokutools/analyze.py`: `is_unique` stops at the second solution

`is_unique` calls `next` twice on the generator made by `dlx` and then drops it. Here the search stops at its `k`-th `yield`; the number of calls of
dlx.py:65 `solve` made until then is counted. When a generator is suspended its dictionary `X` is not used any more: the value returned for it is meaningless.
-/

open Spec

namespace Dlx

section
variable {κ ρ : Type} [DecidableEq κ] [DecidableEq ρ]

/-- dlx.py:70-76: the loop over `list(X[c])` until `k` solutions were yielded. -/
def searchLoopK (rec : Nat → Dict κ (List ρ) → List ρ → Except PyErr (List (List ρ) × Dict κ (List ρ) × Nat))
    (Y : Dict ρ (List κ)) : List ρ → Nat → Dict κ (List ρ) → List ρ → Except PyErr (List (List ρ) × Dict κ (List ρ) × Nat)
  | [], _, X, _ => .ok ([], X, 0)
  | r :: rs, k, X, solution =>
    match select X Y r with
    | .error e => .error e
    | .ok (X, cols) => match rec k X (solution ++ [r]) with
      | .error e => .error e
      | .ok (sols, X, n) =>
        if sols.length = k then .ok (sols, X, n)
        else match deselect X Y r cols with
          | .error e => .error e
          | .ok X => match searchLoopK rec Y rs (k - sols.length) X solution with
            | .error e => .error e
            | .ok (sols', X, n') => .ok (sols ++ sols', X, n + n')

/-- dlx.py:65-76 `solve` until `k` solutions were yielded, with the number of calls of `solve`, this one included. -/
def searchK (π : OrdersOf κ ρ) (Y : Dict ρ (List κ)) : Nat → Nat → Dict κ (List ρ) → List ρ →
    Except PyErr (List (List ρ) × Dict κ (List ρ) × Nat)
  | 0, _, _, _ => .error .RecursionError
  | fuel + 1, k, X, solution =>
    match minKey X (π.keys solution (X.map Prod.fst)) with
    | none => .ok ([solution], X, 1)
    | some c => match Dict.get X c with
      | .error e => .error e
      | .ok rs => match searchLoopK (searchK π Y fuel) Y (π.rows solution rs) k X solution with
        | .error e => .error e
        | .ok (sols, X, n) => .ok (sols, X, n + 1)

end

/-- analyze.py:94-117 `is_unique` (with solve.py:64-75 `dlx` and dlx.py:23-54 `do_dlx`): the search until its second `yield`, and the number of calls of
dlx.py:65 `solve`. The first `next` raises StopIteration if there was no `yield`, the second one if there was one. Writing a solution into the copy
(dlx.py:49-52) calls nothing that can fail and is left out. -/
def isUniqueN (π : Orders) (fuel : Nat) (s : Sudoku) : Except PyErr (Bool × Nat) :=
  let s := s.copy
  let R := s.bh
  let C := s.bw
  let N := R * C
  let Y := matrix R C
  match exactCover (columns N) Y with
  | .error e => .error e
  | .ok X => match selectGiven s Y s.cells X with
    | .error e => .error e
    | .ok none => .ok (false, 0)
    | .ok (some X) => match searchK π Y fuel 2 X [] with
      | .error e => .error e
      | .ok ([], _, n) => .ok (false, n)
      | .ok ([_], _, n) => .ok (true, n)
      | .ok (_ :: _ :: _, _, n) => .ok (false, n)

end Dlx
