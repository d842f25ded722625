import Mathlib.Data.Finset.SDiff
import Mathlib.Data.Finset.Card
import Mathlib.Data.Finset.Union
import Mathlib.Data.Int.Order.Basic
import Verif.Model.Coordinates

set_option autoImplicit false

/-!
# `sudokutools/sudoku.py`: the class `Sudoku` (storage, comparison, coordinates)

`self.__numbers` and `self.__candidates` are lists of lists in Python.  Here they are the lookup functions `num` and
`cand`; only fields with both coordinates `< n` are meaningful.  `Model/Store.lean` models the lists themselves.
-/

open Spec

/-- sudoku.py:51-67: the attributes of an instance. -/
@[ext] structure Sudoku where
  bw : Nat
  bh : Nat
  num : Cell → Int
  cand : Cell → Finset Int

namespace Sudoku

/-- `len(self.indices)`: sudoku.py:61. -/
def n (s : Sudoku) : Nat := s.bw * s.bh

/-- sudoku.py:51-67 `__init__`. -/
def new (bw bh : Nat) : Sudoku := { bw, bh, num := fun _ => 0, cand := fun _ => ∅ }

/-- sudoku.py:61 `self.indices`. -/
def indices (s : Sudoku) : List Nat := List.range s.n

/-- sudoku.py:62 `self.numbers`: `range(1, n + 1)`. -/
def numbers (s : Sudoku) : List Int := (List.range s.n).map fun (i : Nat) => (i : Int) + 1

/-- sudoku.py:69-75 `__iter__`. -/
def cells (s : Sudoku) : List Cell := Coordinates.product s.indices s.indices

/-- sudoku.py:172-186 `__getitem__` (in range). -/
def get (s : Sudoku) (a : Cell) : Int := s.num a

/-- sudoku.py:188-201 `__setitem__` (in range). -/
def setNumber (s : Sudoku) (a : Cell) (v : Int) : Sudoku :=
  { s with num := fun b => if b = a then v else s.num b }

/-- sudoku.py:219-229 `get_candidates`. -/
def getCandidates (s : Sudoku) (a : Cell) : Finset Int := s.cand a

/-- sudoku.py:231-240 `set_candidates`. -/
def setCandidates (s : Sudoku) (a : Cell) (v : Finset Int) : Sudoku :=
  { s with cand := fun b => if b = a then v else s.cand b }

/-- sudoku.py:242-252 `remove_candidates`. -/
def removeCandidates (s : Sudoku) (a : Cell) (v : Finset Int) : Sudoku :=
  { s with cand := fun b => if b = a then s.cand a \ v else s.cand b }

/-- sudoku.py:77-85 `empty` (the generator run to the end on an unchanging sudoku). -/
def empty (s : Sudoku) : List Cell := s.cells.filter fun a => s.get a == 0

/-- sudoku.py:87-95 `filled`. -/
def filled (s : Sudoku) : List Cell := s.cells.filter fun a => s.get a != 0

/-- sudoku.py:97-103 `count`. -/
def count (s : Sudoku) : Nat := s.filled.length

/-- sudoku.py:203-209 `__len__`. -/
def len (s : Sudoku) : Nat := s.bw ^ 2 * s.bh ^ 2

/-- sudoku.py:105-122 `diff`, `other` of the same size. -/
def diff (s other : Sudoku) : List Cell := s.cells.filter fun a => s.get a != other.get a

/-- sudoku.py:124-142 `copy`. -/
def copy (s : Sudoku) (includeCandidates : Bool := false) : Sudoku :=
  let t := Sudoku.new s.bw s.bh
  let t := s.cells.foldl (fun t a => t.setNumber a (s.get a)) t
  if includeCandidates then s.cells.foldl (fun t a => t.setCandidates a (s.getCandidates a)) t else t

/-- sudoku.py:156-162: what `other[row, col]` gives for a field of another sudoku: `IndexError` outside. -/
def get? (s : Sudoku) (a : Cell) : Option Int := if a.1 < s.n ∧ a.2 < s.n then some (s.num a) else none

/-- sudoku.py:144-162 `__eq__` against another `Sudoku`: the loop over the fields of `self`, returning `False` at the first
difference and when `other[row, col]` raises `IndexError`. -/
def eq (s other : Sudoku) : Bool :=
  s.cells.all fun a => match other.get? a with
    | some v => s.get a == v
    | none => false

/-- sudoku.py:530-538 `equals` (both sudokus of the same size). -/
def equals (s other : Sudoku) (candidates : Bool := false) : Bool :=
  s.cells.all fun a =>
    s.get a == other.get a && (!candidates || s.getCandidates a == other.getCandidates a)

/-- sudoku.py:432-442 `box_at`. -/
def boxAt (s : Sudoku) (row col : Nat) : Nat := col / s.bw + row - row % s.bh

/-- sudoku.py:444-456 `column_of`. -/
def columnOf (s : Sudoku) (a : Cell) (incl : Bool := true) : List Cell :=
  (s.indices.filter fun i => incl || i != a.1).map fun i => (i, a.2)

/-- sudoku.py:458-470 `row_of`. -/
def rowOf (s : Sudoku) (a : Cell) (incl : Bool := true) : List Cell :=
  (s.indices.filter fun j => incl || j != a.2).map fun j => (a.1, j)

/-- sudoku.py:472-491 `box_of`. -/
def boxOf (s : Sudoku) (a : Cell) (incl : Bool := true) : List Cell :=
  let gridX := a.2 - a.2 % s.bw
  let gridY := a.1 - a.1 % s.bh
  let coords := (List.range s.bh).flatMap fun i => (List.range s.bw).map fun j => (gridY + i, gridX + j)
  if !incl then coords.erase a else coords

/-- sudoku.py:515-528 `_quad_without_row_and_column_of`. -/
def quadWithoutRowAndColumnOf (s : Sudoku) (a : Cell) : List Cell :=
  let gridX := a.2 - a.2 % s.bw
  let gridY := a.1 - a.1 % s.bh
  ((Coordinates.product (List.range s.bh) (List.range s.bw)).filter
    fun p => gridY + p.1 != a.1 && gridX + p.2 != a.2).map fun p => (gridY + p.1, gridX + p.2)

/-- sudoku.py:493-513 `surrounding_of`. -/
def surroundingOf (s : Sudoku) (a : Cell) (incl : Bool := true) : List Cell :=
  let coords := s.rowOf a incl
  let coords := coords ++ s.columnOf a incl
  let coords := coords ++ s.quadWithoutRowAndColumnOf a
  if incl then coords.erase a else coords

end Sudoku
