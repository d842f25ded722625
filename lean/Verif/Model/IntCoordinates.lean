import Verif.Model.Store
import Verif.Model.Solve

set_option autoImplicit false

/-!
# Arbitrary integers as coordinates

`Model/Coordinates.lean` and `Model/Solve.lean` take rows and columns of the grid.  Python accepts all integers: those from `-n` to `-1`
count from the end of a list, and `//` and `%` round down.  Here the functions that take a row and a column are modelled for
all integers and all box sizes (natural numbers), with their exceptions.
-/

open Spec

namespace IntCoordinates

/-- A pair of integers given as coordinates. -/
abbrev ICell := Int × Int

/-- `range(n)`. -/
def rng (n : Nat) : List Int := (List.range n).map fun (i : Nat) => (i : Int)

/-- `l.remove(x)`. -/
def pyRemove (l : List ICell) (x : ICell) : Except PyErr (List ICell) :=
  if x ∈ l then .ok (l.erase x) else .error .ValueError

/-- coordinates.py:49-61 `box_at`. -/
def boxAt (row col : Int) (width height : Nat) : Except PyErr Int :=
  if width = 0 then .error .ZeroDivisionError
  else if height = 0 then .error .ZeroDivisionError
  else .ok (col / width + row - row % height)

/-- coordinates.py:64-85 `box_of`. -/
def boxOf (row col : Int) (width height : Nat) (incl : Bool := true) : Except PyErr (List ICell) :=
  if width = 0 then .error .ZeroDivisionError
  else if height = 0 then .error .ZeroDivisionError
  else
    let gridX := col - col % width
    let gridY := row - row % height
    let coords := (rng height).flatMap fun i => (rng width).map fun j => (gridY + i, gridX + j)
    if !incl then pyRemove coords (row, col) else .ok coords

/-- coordinates.py:88-102 `column_of`. -/
def columnOf (row col : Int) (width height : Nat) (incl : Bool := true) : List ICell :=
  ((rng (width * height)).filter fun i => incl || i != row).map fun i => (i, col)

/-- coordinates.py:105-119 `row_of`. -/
def rowOf (row col : Int) (width height : Nat) (incl : Bool := true) : List ICell :=
  ((rng (width * height)).filter fun j => incl || j != col).map fun j => (row, j)

/-- coordinates.py:147-160 `_box_without_row_and_column_of`. -/
def boxWithoutRowAndColumnOf (row col : Int) (width height : Nat) : Except PyErr (List ICell) :=
  if width = 0 then .error .ZeroDivisionError
  else if height = 0 then .error .ZeroDivisionError
  else
    let gridX := col - col % width
    let gridY := row - row % height
    .ok (((Coordinates.product (rng height) (rng width)).filter
      fun p => gridY + p.1 != row && gridX + p.2 != col).map fun p => (gridY + p.1, gridX + p.2))

/-- coordinates.py:122-144 `surrounding_of`. -/
def surroundingOf (row col : Int) (width height : Nat) (incl : Bool := true) : Except PyErr (List ICell) :=
  let coords := rowOf row col width height incl
  let coords := coords ++ columnOf row col width height incl
  match boxWithoutRowAndColumnOf row col width height with
  | .error e => .error e
  | .ok rest =>
    let coords := coords ++ rest
    if incl then pyRemove coords (row, col) else .ok coords

/-- sudoku.py:172-186 `__getitem__` for any integers (on the lists themselves: Model/Store.lean). -/
def number (s : Sudoku) (a : ICell) : Except PyErr Int :=
  match Store.pyIdx s.n a.1, Store.pyIdx s.n a.2 with
  | some i, some j => .ok (s.get (i, j))
  | _, _ => .error .IndexError

/-- solve.py:39-40: the loop that discards the numbers of the surrounding fields. -/
def discardAll (s : Sudoku) : List ICell → Finset Int → Except PyErr (Finset Int)
  | [], cs => .ok cs
  | b :: l, cs => match number s b with
    | .error e => .error e
    | .ok x => discardAll s l (cs.erase x)

/-- solve.py:23-42 `calc_candidates`. -/
def calcCandidates (s : Sudoku) (row col : Int) : Except PyErr (Finset Int) :=
  match number s (row, col) with
  | .error e => .error e
  | .ok v =>
    if v ≠ 0 then .ok {v}
    else match surroundingOf row col s.bw s.bh false with
      | .error e => .error e
      | .ok l => discardAll s l s.numbers.toFinset

/-- analyze.py:143-145: the inner loop of `find_conflicts`: what is yielded, and the exception that ends it. -/
def conflictsWith (s : Sudoku) (a : ICell) (v : Int) : List ICell → List (ICell × ICell × Int) × Option PyErr
  | [] => ([], none)
  | b :: l => match number s b with
    | .error e => ([], some e)
    | .ok x =>
      let r := conflictsWith s a v l
      (if x = v then (a, b, v) :: r.1 else r.1, r.2)

/-- analyze.py:137-145: the body of the outer loop. -/
def conflictsAt (s : Sudoku) (a : ICell) : List (ICell × ICell × Int) × Option PyErr :=
  match number s a with
  | .error e => ([], some e)
  | .ok v =>
    if v = 0 then ([], none)
    else match surroundingOf a.1 a.2 s.bw s.bh false with
      | .error e => ([], some e)
      | .ok l => conflictsWith s a v l

/-- analyze.py:137-145: the outer loop. -/
def conflictsLoop (s : Sudoku) : List ICell → List (ICell × ICell × Int) × Option PyErr
  | [] => ([], none)
  | a :: l => match conflictsAt s a with
    | (x, some e) => (x, some e)
    | (x, none) => let r := conflictsLoop s l; (x ++ r.1, r.2)

/-- analyze.py:120-145 `find_conflicts`: what is yielded, and the exception that ends the generator, if any. -/
def findConflicts (s : Sudoku) (coords : List ICell) : List (ICell × ICell × Int) × Option PyErr :=
  conflictsLoop s (if coords.isEmpty then s.cells.map fun a => ((a.1 : Int), (a.2 : Int)) else coords)

end IntCoordinates
