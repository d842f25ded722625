import Verif.Model.Actions
import Verif.Model.StepText

set_option autoImplicit false

/-!
# `sudokutools/actions.py`: the texts of actions
-/

namespace Actions

/-- The attributes `coordinates` and `candidates` are whatever was given to `__init__`; here lists or tuples. -/
inductive Seq
  | list | tuple
  deriving DecidableEq

/-- `str` of a list or tuple, given the texts of its members (a Python built-in). -/
def seqText : Seq → List (List Char) → List Char
  | .list, l => '[' :: (Py.join [',', ' '] l ++ [']'])
  | .tuple, l => Solvers.tupleText l

/-- `str` of a pair of integers. -/
def pairText (p : Int × Int) : List Char := Solvers.tupleText [Py.intStr p.1, Py.intStr p.2]

/-- actions.py:10-12 and 25-27 `__str__`; `q` and `q'` are the types of `coordinates` and `candidates`. -/
def str (q q' : Seq) : Action Int → List Char
  | .removeCandidates cs vs => "RemoveCandidates(".toList ++ seqText q (cs.map pairText) ++ [',', ' '] ++ seqText q' (vs.map Py.intStr) ++ [')']
  | .setNumber cs v => "SetNumber(".toList ++ seqText q (cs.map pairText) ++ [',', ' '] ++ Py.intStr v ++ [')']

/-- The type of the coordinates of an action made by `decode_action`: notation.py:205 (`tuple(sorted(coordinates))`). -/
def decodedCoordinates : Seq := .tuple

/-- The type of its candidates: notation.py:301 and 305. -/
def decodedCandidates : Seq := .list

end Actions
