import Verif.Model.Sudoku

set_option autoImplicit false

/-!
# `empty`, `filled`, `diff` and `find_conflicts` as generators

`Sudoku.empty`, ..., `Solve.findConflicts` are the lists one gets if the sudoku does not change meanwhile.  Here the loop using the generator may do
anything: `S` is the state of the program, `num` (and `other`) say what `sudoku[row, col]` (`other[row, col]`) is in a state, and `body` is the
body of the loop (`none`: it leaves the loop, by `break`, `return` or an exception).

Each result is: what was yielded, the last state, and whether the generator was exhausted.
-/

open Spec

namespace Lazy

variable {S : Type}

/-- sudoku.py:83-85, 93-95, 120-122: `for row, col in self: if ...: yield row, col`, with the loop using it. -/
def filterLoop (p : S → Cell → Bool) (body : S → Cell → Option S) : List Cell → S → List Cell × S × Bool
  | [], s => ([], s, true)
  | a :: l, s =>
    if p s a then
      match body s a with
      | none => ([a], s, false)
      | some s => let r := filterLoop p body l s; (a :: r.1, r.2)
    else filterLoop p body l s

/-- sudoku.py:77-85 `for row, col in sudoku.empty(): ...`, for a sudoku of box size `w`, `h`. -/
def empty (num : S → Grid) (w h : Nat) (body : S → Cell → Option S) (s : S) : List Cell × S × Bool :=
  filterLoop (fun s a => num s a == 0) body (Sudoku.new w h).cells s

/-- sudoku.py:87-95 `for row, col in sudoku.filled(): ...`. -/
def filled (num : S → Grid) (w h : Nat) (body : S → Cell → Option S) (s : S) : List Cell × S × Bool :=
  filterLoop (fun s a => num s a != 0) body (Sudoku.new w h).cells s

/-- sudoku.py:105-122 `for row, col in sudoku.diff(other): ...` (`other` at least as large as the sudoku). -/
def diff (num other : S → Grid) (w h : Nat) (body : S → Cell → Option S) (s : S) : List Cell × S × Bool :=
  filterLoop (fun s a => num s a != other s a) body (Sudoku.new w h).cells s

/-- analyze.py:143-145: the inner loop. The number `v` of field `a` was read before. -/
def conflictsAt (num : S → Grid) (body : S → Cell × Cell × Int → Option S) (a : Cell) (v : Int) : List Cell → S →
    List (Cell × Cell × Int) × S × Bool
  | [], s => ([], s, true)
  | b :: l, s =>
    if num s b = v then
      match body s (a, b, v) with
      | none => ([(a, b, v)], s, false)
      | some s => let r := conflictsAt num body a v l s; ((a, b, v) :: r.1, r.2)
    else conflictsAt num body a v l s

/-- analyze.py:137-145: the outer loop. -/
def conflictsLoop (num : S → Grid) (w h : Nat) (body : S → Cell × Cell × Int → Option S) : List Cell → S → List (Cell × Cell × Int) × S × Bool
  | [], s => ([], s, true)
  | a :: l, s =>
    let value := num s a
    if value = 0 then conflictsLoop num w h body l s
    else
      match conflictsAt num body a value ((Sudoku.new w h).surroundingOf a false) s with
      | (ys, s, false) => (ys, s, false)
      | (ys, s, true) => let r := conflictsLoop num w h body l s; (ys ++ r.1, r.2)

/-- analyze.py:120-145 `for a, b, value in find_conflicts(sudoku, *coords): ...`. -/
def findConflicts (num : S → Grid) (w h : Nat) (body : S → Cell × Cell × Int → Option S) (coords : List Cell) (s : S) :
    List (Cell × Cell × Int) × S × Bool :=
  conflictsLoop num w h body (if coords.isEmpty then (Sudoku.new w h).cells else coords) s

end Lazy
