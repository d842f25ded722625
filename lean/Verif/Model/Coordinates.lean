import Verif.Spec

set_option autoImplicit false

/-!
# `sudokutools/coordinates.py`

Rows and columns are natural numbers here; the functions that check their argument (`the_box`, ...) take an `Int`.
-/

open Spec

/-- The Python exceptions that can leave the modelled functions (for the messages see `Model/ErrorText.lean`). -/
inductive PyErr
  | ValueError | IndexError | KeyError | TypeError | StopIteration | RuntimeError | AssertionError | RecursionError
  | AttributeError | ZeroDivisionError
  deriving DecidableEq, Repr

namespace Coordinates

/-- `itertools.product(xs, ys)`. -/
def product {α β : Type} (xs : List α) (ys : List β) : List (α × β) :=
  xs.flatMap fun x => ys.map fun y => (x, y)

/-- coordinates.py:49-61 `box_at`. -/
def boxAt (row col width height : Nat) : Nat := col / width + row - row % height

/-- coordinates.py:64-85 `box_of`; `coords.remove` deletes the first occurrence. -/
def boxOf (row col width height : Nat) (incl : Bool := true) : List Cell :=
  let gridX := col - col % width
  let gridY := row - row % height
  let coords := (List.range height).flatMap fun i => (List.range width).map fun j => (gridY + i, gridX + j)
  if !incl then coords.erase (row, col) else coords

/-- coordinates.py:88-102 `column_of`. -/
def columnOf (row col width height : Nat) (incl : Bool := true) : List Cell :=
  ((List.range (width * height)).filter fun i => incl || i != row).map fun i => (i, col)

/-- coordinates.py:105-119 `row_of`. -/
def rowOf (row col width height : Nat) (incl : Bool := true) : List Cell :=
  ((List.range (width * height)).filter fun j => incl || j != col).map fun j => (row, j)

/-- coordinates.py:147-160 `_box_without_row_and_column_of`. -/
def boxWithoutRowAndColumnOf (row col width height : Nat) : List Cell :=
  let gridX := col - col % width
  let gridY := row - row % height
  ((product (List.range height) (List.range width)).filter
    fun p => gridY + p.1 != row && gridX + p.2 != col).map fun p => (gridY + p.1, gridX + p.2)

/-- coordinates.py:122-144 `surrounding_of`. -/
def surroundingOf (row col width height : Nat) (incl : Bool := true) : List Cell :=
  let coords := rowOf row col width height incl
  let coords := coords ++ columnOf row col width height incl
  let coords := coords ++ boxWithoutRowAndColumnOf row col width height
  if incl then coords.erase (row, col) else coords

/-- coordinates.py:163-187 `the_box`.  (The message expression `"…%d" % width * height` repeats the
string `height` times; the exception is a `ValueError` all the same.) -/
def theBox (box : Int) (width height : Nat) : Except PyErr (List Cell) :=
  if ¬ (0 ≤ box ∧ box < (width * height : Nat)) then .error .ValueError
  else
    let b := box.toNat
    let x := (b % height) * width
    let y := (b / height) * height
    .ok ((List.range height).flatMap fun i => (List.range width).map fun j => (y + i, x + j))

/-- coordinates.py:190-211 `the_column`. -/
def theColumn (col : Int) (width height : Nat) : Except PyErr (List Cell) :=
  if ¬ (0 ≤ col ∧ col < (width * height : Nat)) then .error .ValueError
  else .ok ((List.range (width * height)).map fun r => (r, col.toNat))

/-- coordinates.py:214-240 `the_part`. -/
def thePart (part : Int) (width height : Nat) : Except PyErr (List Cell) :=
  if ¬ (0 ≤ part ∧ part < (width * height : Nat)) then .error .ValueError
  else
    let p := part.toNat
    let col := p % width
    let row := p / width
    .ok ((List.range width).flatMap fun i => (List.range height).map fun j => (row + i * height, col + j * width))

/-- coordinates.py:243-265 `the_row`. -/
def theRow (row : Int) (width height : Nat) : Except PyErr (List Cell) :=
  if ¬ (0 ≤ row ∧ row < (width * height : Nat)) then .error .ValueError
  else .ok ((List.range (width * height)).map fun c => (row.toNat, c))

end Coordinates
