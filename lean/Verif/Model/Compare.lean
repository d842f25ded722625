import Verif.Model.Sudoku

set_option autoImplicit false

/-!
# Comparing a sudoku with any object

`Sudoku.eq`, `equals` and `diff` in `Model/Sudoku.lean` compare two sudokus.  The documentation of `__eq__` and `diff` allows "any object, which can be
accessed by other[row, col]"; and `==` can be given anything.
-/

open Spec

namespace Compare

/-- What `other[row, col]` can be: an integer (or something equal to one), or an object that is not equal to any integer. -/
inductive Item
  | int (v : Int)
  | other
  deriving DecidableEq

/-- An object: what `other[row, col]` and `other.get_candidates(row, col)` return or raise. -/
structure Obj where
  item : Cell → Except PyErr Item
  candidates : Cell → Except PyErr (Finset Int)

/-- A `Sudoku` (sudoku.py:172-186 and 219-229: `IndexError` outside of the grid, for coordinates that are not negative). -/
def Obj.sudoku (t : Sudoku) : Obj where
  item a := if a.1 < t.n ∧ a.2 < t.n then .ok (.int (t.get a)) else .error .IndexError
  candidates a := if a.1 < t.n ∧ a.2 < t.n then .ok (t.getCandidates a) else .error .IndexError

/-- A `dict` with pairs of integers as keys and integers as values. -/
def Obj.dict (d : Cell → Option Int) : Obj where
  item a := match d a with
    | some v => .ok (.int v)
    | none => .error .KeyError
  candidates _ := .error .AttributeError

/-- `None`, a number, a list, a string: `other[row, col]` is a `TypeError`. -/
def Obj.plain : Obj := ⟨fun _ => .error .TypeError, fun _ => .error .AttributeError⟩

/-- sudoku.py:157-159: the loop of `__eq__`. -/
def eqLoop (s : Sudoku) (o : Obj) : List Cell → Except PyErr Bool
  | [] => .ok true
  | a :: l => match o.item a with
    | .error e => .error e
    | .ok x => if Item.int (s.get a) ≠ x then .ok false else eqLoop s o l

/-- sudoku.py:144-162 `sudoku == other`, `other` any object. -/
def eq (s : Sudoku) (o : Obj) : Except PyErr Bool :=
  match eqLoop s o s.cells with
  | .error e => if e = .IndexError ∨ e = .KeyError ∨ e = .TypeError then .ok false else .error e
  | .ok b => .ok b

/-- sudoku.py:120-122: the loop of `diff`: what is yielded, and the exception. -/
def diffLoop (s : Sudoku) (o : Obj) : List Cell → List Cell × Option PyErr
  | [] => ([], none)
  | a :: l => match o.item a with
    | .error e => ([], some e)
    | .ok x => let r := diffLoop s o l; (if Item.int (s.get a) ≠ x then a :: r.1 else r.1, r.2)

/-- sudoku.py:105-122 `sudoku.diff(other)`, `other` any object. -/
def diff (s : Sudoku) (o : Obj) : List Cell × Option PyErr := diffLoop s o s.cells

/-- sudoku.py:531-536: the loop of `equals`. -/
def equalsLoop (s : Sudoku) (o : Obj) (candidates : Bool) : List Cell → Except PyErr Bool
  | [] => .ok true
  | a :: l => match o.item a with
    | .error e => .error e
    | .ok x =>
      if Item.int (s.get a) ≠ x then .ok false
      else if candidates then match o.candidates a with
        | .error e => .error e
        | .ok c => if s.getCandidates a ≠ c then .ok false else equalsLoop s o candidates l
      else equalsLoop s o candidates l

/-- sudoku.py:530-538 `sudoku.equals(other, candidates)`, `other` any object. -/
def equals (s : Sudoku) (o : Obj) (candidates : Bool) : Except PyErr Bool := equalsLoop s o candidates s.cells

end Compare
