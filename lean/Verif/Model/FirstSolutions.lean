import Verif.Model.UniqueCalls

set_option autoImplicit false

/-!
# `next(dlx(sudoku))` and `next(bruteforce(sudoku))`

The generators of `solve.py` are often asked for one sudoku only (generate.py:57, solvers.py:235, shell.py:62 and 526). Here they run until their `k`-th
`yield`, with the number of calls of the recursive function made until then. What a suspended generator holds is not used any more.
-/

open Spec

namespace Dlx

/-- solve.py:64-75 `dlx` and dlx.py:23-54 `do_dlx`: the first `k` yielded sudokus, and the number of calls of dlx.py:65 `solve`. -/
def dlxK (π : Orders) (fuel : Nat) (k : Nat) (s : Sudoku) : Except PyErr (List Sudoku × Nat) :=
  let s := s.copy
  let R := s.bh
  let C := s.bw
  let N := R * C
  let Y := matrix R C
  match exactCover (columns N) Y with
  | .error e => .error e
  | .ok X => match selectGiven s Y s.cells X with
    | .error e => .error e
    | .ok none => .ok ([], 0)
    | .ok (some X) => match searchK π Y fuel k X [] with
      | .error e => .error e
      | .ok (sols, _, n) => .ok (writeSolutions sols s, n)

end Dlx

namespace Solve

/-- solve.py:119-134: the loop over the candidates until `k` sudokus were yielded. -/
def bfLoopK (rec : Nat → List (Cell × Int) → Sudoku → Option (List Sudoku × Sudoku × Nat)) (path : List (Cell × Int)) (a : Cell) :
    List Int → Nat → Sudoku → Option (List Sudoku × Sudoku × Nat)
  | [], _, s => some ([], s, 0)
  | c :: cs, k, s =>
    let s := s.setNumber a c
    let (s, saved) := saveAndRemove c (s.surroundingOf a false) s [(a, s.getCandidates a)]
    match rec k ((a, c) :: path) s with
    | none => none
    | some (sols, s, n) =>
      if sols.length = k then some (sols, s, n)
      else
        let s := restore s saved
        let s := s.setNumber a 0
        match bfLoopK rec path a cs (k - sols.length) s with
        | none => none
        | some (sols', s, n') => some (sols ++ sols', s, n + n')

/-- solve.py:103-134 `_do_bruteforce` until `k` sudokus were yielded, with the number of calls, this one included. -/
def doBruteforceK (π : SetOrder) : Nat → Nat → List (Cell × Int) → Sudoku → Option (List Sudoku × Sudoku × Nat)
  | 0, _, _, _ => none
  | fuel + 1, k, path, s =>
    match pickEmpty s with
    | none => some ([s.copy], s, 1)
    | some a => match bfLoopK (doBruteforceK π fuel) path a (π path (s.getCandidates a)) k s with
      | none => none
      | some (sols, s, n) => some (sols, s, n + 1)

/-- solve.py:78-100 `bruteforce`: the first `k` yielded sudokus, and the number of calls of `_do_bruteforce`. -/
def bruteforceK (π : SetOrder) (fuel : Nat) (k : Nat) (s : Sudoku) : Option (List Sudoku × Nat) :=
  if hasConflict s then some ([], 0)
  else
    let t := initCandidates s.copy
    (doBruteforceK π fuel k [] t).map fun p => (p.1, p.2.2)

end Solve
