import Verif.Model.Dlx
import Verif.Model.Solve

set_option autoImplicit false

/-!
# `sudokutools/dlx.py`, `solve.py`: the number of recursive calls

The functions of Model/Dlx and Model/Solve once more, with the number of calls of the recursive function made until the generator is
exhausted (`C118_same`: the results are the same).
-/

open Spec

namespace Dlx

section
variable {κ ρ : Type} [DecidableEq κ] [DecidableEq ρ]

/-- dlx.py:70-76: the loop over `list(X[c])`, with the number of calls of `solve` made in it. -/
def searchLoopN (rec : Dict κ (List ρ) → List ρ → Except PyErr (List (List ρ) × Dict κ (List ρ) × Nat))
    (Y : Dict ρ (List κ)) : List ρ → Dict κ (List ρ) → List ρ →
    Except PyErr (List (List ρ) × Dict κ (List ρ) × Nat)
  | [], X, _ => .ok ([], X, 0)
  | r :: rs, X, solution =>
    match select X Y r with
    | .error e => .error e
    | .ok (X, cols) => match rec X (solution ++ [r]) with
      | .error e => .error e
      | .ok (sols, X, n) => match deselect X Y r cols with
        | .error e => .error e
        | .ok X => match searchLoopN rec Y rs X solution with
          | .error e => .error e
          | .ok (sols', X, n') => .ok (sols ++ sols', X, n + n')

/-- dlx.py:65-76 `solve`: as `search`, with the number of calls of `solve`, this one included. -/
def searchN (π : OrdersOf κ ρ) (Y : Dict ρ (List κ)) : Nat → Dict κ (List ρ) → List ρ →
    Except PyErr (List (List ρ) × Dict κ (List ρ) × Nat)
  | 0, _, _ => .error .RecursionError
  | fuel + 1, X, solution =>
    match minKey X (π.keys solution (X.map Prod.fst)) with
    | none => .ok ([solution], X, 1)
    | some c => match Dict.get X c with
      | .error e => .error e
      | .ok rs => match searchLoopN (searchN π Y fuel) Y (π.rows solution rs) X solution with
        | .error e => .error e
        | .ok (sols, X, n) => .ok (sols, X, n + 1)

end

/-- solve.py:64-75 `dlx` and dlx.py:23-54 `do_dlx`: all yielded sudokus and the number of calls of dlx.py:65 `solve`. -/
def dlxN (π : Orders) (fuel : Nat) (s : Sudoku) : Except PyErr (List Sudoku × Nat) :=
  let s := s.copy
  let R := s.bh
  let C := s.bw
  let N := R * C
  let Y := matrix R C
  match exactCover (columns N) Y with
  | .error e => .error e
  | .ok X => match selectGiven s Y s.cells X with
    | .error e => .error e
    | .ok none => .ok ([], 0)
    | .ok (some X) => match searchN π Y fuel X [] with
      | .error e => .error e
      | .ok (sols, _, n) => .ok (writeSolutions sols s, n)

end Dlx

namespace Solve

/-- solve.py:119-134: the loop over the candidates, with the number of calls of `_do_bruteforce` made in it. -/
def bfLoopN (rec : List (Cell × Int) → Sudoku → Option (List Sudoku × Sudoku × Nat)) (path : List (Cell × Int)) (a : Cell) :
    List Int → Sudoku → Option (List Sudoku × Sudoku × Nat)
  | [], s => some ([], s, 0)
  | c :: cs, s =>
    let s := s.setNumber a c
    let (s, saved) := saveAndRemove c (s.surroundingOf a false) s [(a, s.getCandidates a)]
    match rec ((a, c) :: path) s with
    | none => none
    | some (sols, s, n) =>
      let s := restore s saved
      let s := s.setNumber a 0
      match bfLoopN rec path a cs s with
      | none => none
      | some (sols', s, n') => some (sols ++ sols', s, n + n')

/-- solve.py:103-134 `_do_bruteforce`: as `doBruteforce`, with the number of calls, this one included. -/
def doBruteforceN (π : SetOrder) : Nat → List (Cell × Int) → Sudoku → Option (List Sudoku × Sudoku × Nat)
  | 0, _, _ => none
  | fuel + 1, path, s =>
    match pickEmpty s with
    | none => some ([s.copy], s, 1)
    | some a => match bfLoopN (doBruteforceN π fuel) path a (π path (s.getCandidates a)) s with
      | none => none
      | some (sols, s, n) => some (sols, s, n + 1)

/-- solve.py:78-100 `bruteforce`: all yielded sudokus and the number of calls of `_do_bruteforce`. -/
def bruteforceN (π : SetOrder) (fuel : Nat) (s : Sudoku) : Option (List Sudoku × Nat) :=
  if hasConflict s then some ([], 0)
  else
    let t := initCandidates s.copy
    (doBruteforceN π fuel [] t).map fun p => (p.1, p.2.2)

end Solve
