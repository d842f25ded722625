import Verif.Model.Sudoku
import Mathlib.Data.List.Sort
import Mathlib.Data.List.Dedup

set_option autoImplicit false

/-!
# `sudokutools/solve.py` (candidates, bruteforce) and the simple functions of `sudokutools/analyze.py`
-/

open Spec

namespace Solve

/-- solve.py:23-42 `calc_candidates`. -/
def calcCandidates (s : Sudoku) (a : Cell) : Finset Int :=
  if s.get a ≠ 0 then {s.get a}
  else (s.surroundingOf a false).foldl (fun cs b => cs.erase (s.get b)) s.numbers.toFinset

/-- solve.py:45-61 `init_candidates`. -/
def initCandidates (s : Sudoku) (filledOnly : Bool := false) : Sudoku :=
  s.cells.foldl (fun s a => if !filledOnly || s.get a != 0 then s.setCandidates a (calcCandidates s a) else s) s

/-- A Python dict as list of items in insertion order: `d[k] = v`. -/
def dictSet {β : Type} (d : List (Cell × β)) (k : Cell) (v : β) : List (Cell × β) :=
  if d.any (fun p => p.1 == k) then d.map (fun p => if p.1 = k then (k, v) else p) else d ++ [(k, v)]

/-- solve.py:123-126: the loop saving the candidates of the surrounding fields and removing `candidate` there. -/
def saveAndRemove (candidate : Int) (l : List Cell) (s : Sudoku) (saved : List (Cell × Finset Int)) :
    Sudoku × List (Cell × Finset Int) :=
  l.foldl (fun p b => (p.1.removeCandidates b {candidate}, dictSet p.2 b (p.1.getCandidates b))) (s, saved)

/-- solve.py:131-133: restoring the candidates. -/
def restore (s : Sudoku) (saved : List (Cell × Finset Int)) : Sudoku :=
  saved.foldl (fun s p => s.setCandidates p.1 p.2) s

/-- solve.py:110-114: the first of the empty fields sorted (stably) by number of candidates. -/
def pickEmpty (s : Sudoku) : Option Cell :=
  (s.empty.insertionSort fun a b => (s.getCandidates a).card ≤ (s.getCandidates b).card).head?

/-- The order in which Python iterates over a set of candidates depends on the history of the set; it may be any,
and may differ from place to place in the search.  The place is given by the assignments made so far. -/
abbrev SetOrder := List (Cell × Int) → Finset Int → List Int

/-- An iteration over a set visits each element once. -/
def SetOrder.Ok (π : SetOrder) : Prop := ∀ p S, (π p S).Nodup ∧ ∀ x, x ∈ π p S ↔ x ∈ S

/-- solve.py:119-134: the loop over the candidates; `rec` is the recursive call. -/
def bfLoop (rec : List (Cell × Int) → Sudoku → Option (List Sudoku × Sudoku)) (path : List (Cell × Int)) (a : Cell) :
    List Int → Sudoku → Option (List Sudoku × Sudoku)
  | [], s => some ([], s)
  | c :: cs, s =>
    let s := s.setNumber a c
    let (s, saved) := saveAndRemove c (s.surroundingOf a false) s [(a, s.getCandidates a)]
    match rec ((a, c) :: path) s with
    | none => none
    | some (sols, s) =>
      let s := restore s saved
      let s := s.setNumber a 0
      match bfLoop rec path a cs s with
      | none => none
      | some (sols', s) => some (sols ++ sols', s)

/-- solve.py:103-134 `_do_bruteforce` working in place: the sudokus seen by the consumer of the generator (which copies
each one at once, solve.py:99-100) and the sudoku left when the generator is exhausted.
`none`: recursion depth `fuel` exceeded. -/
def doBruteforce (π : SetOrder) : Nat → List (Cell × Int) → Sudoku → Option (List Sudoku × Sudoku)
  | 0, _, _ => none
  | fuel + 1, path, s =>
    match pickEmpty s with
    | none => some ([s.copy], s)
    | some a => bfLoop (doBruteforce π fuel) path a (π path (s.getCandidates a)) s

/-- solve.py:88-95: the check for conflicts. -/
def hasConflict (s : Sudoku) : Bool :=
  s.cells.any fun a => s.get a != 0 && (s.surroundingOf a false).any fun b => s.get b == s.get a

/-- solve.py:78-100 `bruteforce`: all yielded sudokus. -/
def bruteforce (π : SetOrder) (fuel : Nat) (s : Sudoku) : Option (List Sudoku) :=
  if hasConflict s then some []
  else
    let t := initCandidates s.copy
    (doBruteforce π fuel [] t).map Prod.fst

/-- analyze.py:120-145 `find_conflicts`; `coords` of the grid. -/
def findConflicts (s : Sudoku) (coords : List Cell := []) : List (Cell × Cell × Int) :=
  let coords := if coords.isEmpty then s.cells else coords
  coords.flatMap fun a =>
    let value := s.get a
    if value = 0 then []
    else ((s.surroundingOf a false).filter fun b => s.get b == value).map fun b => (a, b, value)

/-- analyze.py:82-91 `is_solved`. -/
def isSolved (s : Sudoku) : Bool := s.empty.isEmpty && (findConflicts s).isEmpty

end Solve
