import Verif.Model.IntCoordinates
import Verif.Model.Dlx

set_option autoImplicit false

/-!
# Any integers as box sizes

Nothing in the code rejects negative box sizes, e.g. `Sudoku((-3, -3))` or `new (-3,-3)` in the shell.  Here `coordinates.py`, the storage of `Sudoku`,
`calc_candidates`, `find_conflicts`, `is_solved` and `dlx` up to `exact_cover` are modelled for all integers as sizes, rows and columns.
`Int.fdiv` and `Int.fmod` are Python's `//` and `%` (rounding down, the remainder has the sign of the divisor).
-/

open Spec

namespace IntSizes

open IntCoordinates (ICell pyRemove)

/-- `range(n)`, empty for negative `n`. -/
def rng (n : Int) : List Int := (List.range n.toNat).map fun (i : Nat) => (i : Int)

/-- `range(1, n + 1)`. -/
def rng1 (n : Int) : List Int := (List.range n.toNat).map fun (i : Nat) => (i : Int) + 1

/-- coordinates.py:49-61 `box_at`. -/
def boxAt (row col width height : Int) : Except PyErr Int :=
  if width = 0 then .error .ZeroDivisionError
  else if height = 0 then .error .ZeroDivisionError
  else .ok (Int.fdiv col width + row - Int.fmod row height)

/-- coordinates.py:64-85 `box_of`. -/
def boxOf (row col width height : Int) (incl : Bool := true) : Except PyErr (List ICell) :=
  if width = 0 then .error .ZeroDivisionError
  else if height = 0 then .error .ZeroDivisionError
  else
    let gridX := col - Int.fmod col width
    let gridY := row - Int.fmod row height
    let coords := (rng height).flatMap fun i => (rng width).map fun j => (gridY + i, gridX + j)
    if !incl then pyRemove coords (row, col) else .ok coords

/-- coordinates.py:88-102 `column_of`. -/
def columnOf (row col width height : Int) (incl : Bool := true) : List ICell :=
  ((rng (width * height)).filter fun i => incl || i != row).map fun i => (i, col)

/-- coordinates.py:105-119 `row_of`. -/
def rowOf (row col width height : Int) (incl : Bool := true) : List ICell :=
  ((rng (width * height)).filter fun j => incl || j != col).map fun j => (row, j)

/-- coordinates.py:147-160 `_box_without_row_and_column_of`. -/
def boxWithoutRowAndColumnOf (row col width height : Int) : Except PyErr (List ICell) :=
  if width = 0 then .error .ZeroDivisionError
  else if height = 0 then .error .ZeroDivisionError
  else
    let gridX := col - Int.fmod col width
    let gridY := row - Int.fmod row height
    .ok (((Coordinates.product (rng height) (rng width)).filter
      fun p => gridY + p.1 != row && gridX + p.2 != col).map fun p => (gridY + p.1, gridX + p.2))

/-- coordinates.py:122-144 `surrounding_of`. -/
def surroundingOf (row col width height : Int) (incl : Bool := true) : Except PyErr (List ICell) :=
  let coords := rowOf row col width height incl
  let coords := coords ++ columnOf row col width height incl
  match boxWithoutRowAndColumnOf row col width height with
  | .error e => .error e
  | .ok rest =>
    let coords := coords ++ rest
    if incl then pyRemove coords (row, col) else .ok coords

/-- coordinates.py:163-187 `the_box`. -/
def theBox (box width height : Int) : Except PyErr (List ICell) :=
  if ¬ (0 ≤ box ∧ box < width * height) then .error .ValueError
  else
    let x := Int.fmod box height * width
    let y := Int.fdiv box height * height
    .ok ((rng height).flatMap fun i => (rng width).map fun j => (y + i, x + j))

/-- coordinates.py:190-211 `the_column`. -/
def theColumn (col width height : Int) : Except PyErr (List ICell) :=
  if ¬ (0 ≤ col ∧ col < width * height) then .error .ValueError
  else .ok ((rng (width * height)).map fun r => (r, col))

/-- coordinates.py:214-240 `the_part`. -/
def thePart (part width height : Int) : Except PyErr (List ICell) :=
  if ¬ (0 ≤ part ∧ part < width * height) then .error .ValueError
  else
    let col := Int.fmod part width
    let row := Int.fdiv part width
    .ok ((rng width).flatMap fun i => (rng height).map fun j => (row + i * height, col + j * width))

/-- coordinates.py:243-265 `the_row`. -/
def theRow (row width height : Int) : Except PyErr (List ICell) :=
  if ¬ (0 ≤ row ∧ row < width * height) then .error .ValueError
  else .ok ((rng (width * height)).map fun c => (row, c))

/-- sudoku.py:51-67: an instance with any integers as box sizes (candidates are left out).  The lists have the length of `indices`; as in
Model/Sudoku.lean they are represented by their lookup function. -/
structure ISudoku where
  w : Int
  h : Int
  num : Cell → Int

namespace ISudoku

/-- sudoku.py:61 `len(self.indices)`. -/
def n (s : ISudoku) : Nat := (rng (s.w * s.h)).length

/-- sudoku.py:69-75 `__iter__`. -/
def cells (s : ISudoku) : List ICell := Coordinates.product (rng (s.w * s.h)) (rng (s.w * s.h))

/-- sudoku.py:203-209 `__len__`. -/
def len (s : ISudoku) : Int := s.w ^ 2 * s.h ^ 2

/-- sudoku.py:172-186 `__getitem__` for any integers. -/
def number (s : ISudoku) (a : ICell) : Except PyErr Int :=
  match Store.pyIdx s.n a.1, Store.pyIdx s.n a.2 with
  | some i, some j => .ok (s.num (i, j))
  | _, _ => .error .IndexError

/-- sudoku.py:77-85 `empty`; the fields of the iteration exist, so that no `IndexError` is possible. -/
def empty (s : ISudoku) : List ICell := s.cells.filter fun a => s.number a == .ok 0

/-- solve.py:39-40: the loop that discards the numbers of the surrounding fields. -/
def discardAll (s : ISudoku) : List ICell → Finset Int → Except PyErr (Finset Int)
  | [], cs => .ok cs
  | b :: l, cs => match s.number b with
    | .error e => .error e
    | .ok x => s.discardAll l (cs.erase x)

/-- solve.py:23-42 `calc_candidates`. -/
def calcCandidates (s : ISudoku) (row col : Int) : Except PyErr (Finset Int) :=
  match s.number (row, col) with
  | .error e => .error e
  | .ok v =>
    if v ≠ 0 then .ok {v}
    else match surroundingOf row col s.w s.h false with
      | .error e => .error e
      | .ok l => s.discardAll l (rng1 (s.w * s.h)).toFinset

/-- analyze.py:143-145: the inner loop of `find_conflicts`: what is yielded, and the exception that ends it. -/
def conflictsWith (s : ISudoku) (a : ICell) (v : Int) : List ICell → List (ICell × ICell × Int) × Option PyErr
  | [] => ([], none)
  | b :: l => match s.number b with
    | .error e => ([], some e)
    | .ok x =>
      let r := s.conflictsWith a v l
      (if x = v then (a, b, v) :: r.1 else r.1, r.2)

/-- analyze.py:137-145: the body of the outer loop. -/
def conflictsAt (s : ISudoku) (a : ICell) : List (ICell × ICell × Int) × Option PyErr :=
  match s.number a with
  | .error e => ([], some e)
  | .ok v =>
    if v = 0 then ([], none)
    else match surroundingOf a.1 a.2 s.w s.h false with
      | .error e => ([], some e)
      | .ok l => s.conflictsWith a v l

/-- analyze.py:137-145: the outer loop. -/
def conflictsLoop (s : ISudoku) : List ICell → List (ICell × ICell × Int) × Option PyErr
  | [] => ([], none)
  | a :: l => match s.conflictsAt a with
    | (x, some e) => (x, some e)
    | (x, none) => let r := s.conflictsLoop l; (x ++ r.1, r.2)

/-- analyze.py:120-145 `find_conflicts`: what is yielded, and the exception that ends the generator, if any. -/
def findConflicts (s : ISudoku) (coords : List ICell) : List (ICell × ICell × Int) × Option PyErr :=
  s.conflictsLoop (if coords.isEmpty then s.cells else coords)

/-- analyze.py:82-91 `is_solved`. -/
def isSolved (s : ISudoku) : Except PyErr Bool :=
  if !s.empty.isEmpty then .ok false
  else match s.findConflicts [] with
    | (_, some e) => .error e
    | (l, none) => .ok l.isEmpty

end ISudoku

/-! ## dlx.py and generate.py -/

/-- The tuples `("rc", (r, c))`, `("rn", (r, n))`, `("cn", (c, n))`, `("bn", (b, n))`: dlx.py:27-30. -/
inductive ICol
  | rc (r c : Int) | rn (r n : Int) | cn (c n : Int) | bn (b n : Int)
  deriving DecidableEq

/-- dlx.py:27-30: the list `X`. -/
def columns (N : Int) : List ICol :=
  (Coordinates.product (rng N) (rng N)).map (fun p => .rc p.1 p.2) ++
  (Coordinates.product (rng N) (rng1 N)).map (fun p => .rn p.1 p.2) ++
  (Coordinates.product (rng N) (rng1 N)).map (fun p => .cn p.1 p.2) ++
  (Coordinates.product (rng N) (rng1 N)).map (fun p => .bn p.1 p.2)

/-- dlx.py:33-39: the value of `Y[(r, c, n)]`; `R` is the box height, `C` the box width.  (Evaluated only if `N > 0`, so that neither is 0.) -/
def colsOf (R C : Int) (i : Int × Int × Int) : List ICol :=
  let b := Int.fdiv i.1 R * R + Int.fdiv i.2.1 C
  [.rc i.1 i.2.1, .rn i.1 i.2.2, .cn i.2.1 i.2.2, .bn b i.2.2]

/-- dlx.py:32-39: the dict `Y`. -/
def matrix (R C : Int) : Dlx.Dict (Int × Int × Int) (List ICol) :=
  (Coordinates.product (rng (R * C)) (Coordinates.product (rng (R * C)) (rng1 (R * C)))).map fun i => (i, colsOf R C i)

/-- dlx.py:23-41: `do_dlx` up to the call of `exact_cover`, which does not depend on the numbers in the sudoku. -/
def dlxStart (w h : Int) : Except PyErr (Dlx.Dict ICol (List (Int × Int × Int))) :=
  let R := h
  let C := w
  let N := R * C
  Dlx.exactCover (columns N) (matrix R C)

/-- generate.py:36-49: `create_solution` up to the two calls of `choice`, which raise `IndexError` for an empty range; otherwise the row and column
that `pick` chooses. -/
def createStart (pick : List Int → Int) (w h : Int) : Except PyErr (Int × Int) :=
  if rng h = [] then .error .IndexError
  else if rng w = [] then .error .IndexError
  else .ok (pick (rng h), pick (rng w))

end IntSizes
