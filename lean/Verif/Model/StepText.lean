import Verif.Model.Solvers
import Verif.Model.Strings

set_option autoImplicit false

/-!
# `sudokutools/solvers.py`: the texts of steps
-/

open Spec

namespace Solvers

/-- The `__name__` of the classes: solvers.py:122-532.  Classes with other `n` do not exist in the code; they are given the name of their base class. -/
def Kind.className : Kind → List Char
  | .calculateCandidates => "CalculateCandidates".toList
  | .nakedSingle => "NakedSingle".toList
  | .hiddenSingle => "HiddenSingle".toList
  | .bruteforce => "Bruteforce".toList
  | .nakedTuple 2 => "NakedPair".toList
  | .nakedTuple 3 => "NakedTriple".toList
  | .nakedTuple 4 => "NakedQuad".toList
  | .nakedTuple 5 => "NakedQuint".toList
  | .nakedTuple _ => "NakedTuple".toList
  | .hiddenTuple 2 => "HiddenPair".toList
  | .hiddenTuple 3 => "HiddenTriple".toList
  | .hiddenTuple 4 => "HiddenQuad".toList
  | .hiddenTuple 5 => "HiddenQuint".toList
  | .hiddenTuple _ => "HiddenTuple".toList
  | .pointingTuple 2 => "PointingPair".toList
  | .pointingTuple 3 => "PointingTriple".toList
  | .pointingTuple _ => "PointingTuple".toList
  | .basicFish 2 => "XWing".toList
  | .basicFish 3 => "Swordfish".toList
  | .basicFish 4 => "Jellyfish".toList
  | .basicFish _ => "BasicFish".toList

/-- The subclasses of `_SingleFieldStep`: solvers.py:176, 194, 225. -/
def Kind.isSingle : Kind → Bool
  | .nakedSingle | .hiddenSingle | .bruteforce => true
  | _ => false

/-- `str(t)` of a tuple, given the texts of its members (a Python built-in). -/
def tupleText : List (List Char) → List Char
  | [x] => '(' :: (x ++ [',', ')'])
  | l => '(' :: (Py.join [',', ' '] l ++ [')'])

/-- `str` of a pair of coordinates. -/
def cellText (a : Cell) : List Char := tupleText [Py.natStr a.1, Py.natStr a.2]

/-- `str` of a tuple of coordinates. -/
def cellsText (l : List Cell) : List Char := tupleText (l.map cellText)

/-- `str` of a tuple of numbers. -/
def numsText (l : List Int) : List Char := tupleText (l.map Py.intStr)

/-- solvers.py:82-84 `SolveStep.__repr__`, solvers.py:148-151 `_SingleFieldStep.__repr__`. -/
def Step.repr (st : Step) : Except PyErr (List Char) :=
  if st.kind.isSingle then
    match st.clues, st.values with
    | (r, c) :: _, v :: _ => .ok (st.kind.className ++ '(' :: (Py.natStr r ++ [',', ' '] ++ Py.natStr c ++ [',', ' '] ++ Py.intStr v ++ [')']))
    | _, _ => .error .IndexError
  else .ok (st.kind.className ++ '(' :: (cellsText st.clues ++ [',', ' '] ++ cellsText st.affected ++ [',', ' '] ++ numsText st.values ++ [')']))

/-- solvers.py:86-88 `SolveStep.__str__`, solvers.py:153-155 `_SingleFieldStep.__str__`. -/
def Step.str (st : Step) : Except PyErr (List Char) :=
  if st.kind.isSingle then
    match st.clues, st.values with
    | a :: _, v :: _ => .ok (st.kind.className ++ " at ".toList ++ cellText a ++ [':', ' '] ++ Py.intStr v)
    | _, _ => .error .IndexError
  else .ok (st.kind.className ++ " at ".toList ++ cellsText st.clues ++ [':', ' '] ++ numsText st.values)

end Solvers
