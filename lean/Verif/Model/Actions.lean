import Verif.Model.Store

set_option autoImplicit false

/-!
# `sudokutools/actions.py`

`α` is the type of the numbers: `Int`, except in `Model/Notation.lean`, where `encode_action` is also given strings.
-/

open Spec

namespace Actions

/-- actions.py:1-4 and 15-18: the two classes and their attributes. -/
inductive Action (α : Type)
  | removeCandidates (coordinates : List (Int × Int)) (candidates : List α)
  | setNumber (coordinates : List (Int × Int)) (number : α)
  deriving DecidableEq

/-- The field of `s` meant by the Python indices `[row][col]`; negative indices count from the end. -/
def locate (s : Sudoku) (rc : Int × Int) : Except PyErr Cell :=
  match Store.pyIdx s.n rc.1, Store.pyIdx s.n rc.2 with
  | some i, some j => .ok (i, j)
  | _, _ => .error .IndexError

/-- actions.py:7-8: the loop of `RemoveCandidates.__call__`. An exception leaves what has been done so far. -/
def removeLoop (vs : Finset Int) : List (Int × Int) → Sudoku → Sudoku × Except PyErr Unit
  | [], s => (s, .ok ())
  | rc :: l, s => match locate s rc with
    | .error e => (s, .error e)
    | .ok a => removeLoop vs l (s.removeCandidates a vs)

/-- actions.py:21-23: the loop of `SetNumber.__call__`. -/
def setLoop (v : Int) : List (Int × Int) → Sudoku → Sudoku × Except PyErr Unit
  | [], s => (s, .ok ())
  | rc :: l, s => match locate s rc with
    | .error e => (s, .error e)
    | .ok a => setLoop v l ((s.setNumber a v).setCandidates a {v})

/-- actions.py:6-8 and 20-23 `__call__`. -/
def call : Action Int → Sudoku → Sudoku × Except PyErr Unit
  | .removeCandidates cs vs, s => removeLoop vs.toFinset cs s
  | .setNumber cs v, s => setLoop v cs s

end Actions
