import Verif.Model.DecodeArgs
import Verif.Model.Coordinates

set_option autoImplicit false

/-!
# `Sudoku.copy` of instances whose rows do not fit their box sizes

The constructor accepts dictionaries (Model/NewArgs.lean); `copy` makes a new instance from the attribute `box_size`, the tuple of the *keys*.
-/

open Spec Shell

namespace DecodeArgs

/-- sudoku.py:69-75 `__iter__`: all pairs of `indices`. -/
def Raw.fields (s : Raw) : List Cell := Coordinates.product (List.range s.made.size) (List.range s.made.size)

/-- sudoku.py:135-136: the loop copying the numbers; a store raises `IndexError` if there is no such field. -/
def copyNumbers (s : Raw) : List Cell → Raw → Except PyErr Raw
  | [], t => .ok t
  | a :: l, t =>
    if a.1 < t.made.size ∧ a.2 < t.made.size then copyNumbers s l { t with num := fun b => if b = a then s.num a else t.num b }
    else .error .IndexError

/-- sudoku.py:139-141: the loop copying the candidates. -/
def copyCandidates (s : Raw) : List Cell → Raw → Except PyErr Raw
  | [], t => .ok t
  | a :: l, t =>
    if a.1 < t.made.size ∧ a.2 < t.made.size then copyCandidates s l { t with cand := fun b => if b = a then s.cand a else t.cand b }
    else .error .IndexError

/-- sudoku.py:124-143 `copy`; `self.box_size` is the tuple of the two box sizes (line 59). -/
def Raw.copy (s : Raw) (includeCandidates : Bool := false) : Except PyErr Raw :=
  match ErrorText.forget (NewArgs.new (.arg (.value (.ints .tuple [s.made.width, s.made.height])))) with
  | .error e => .error e
  | .ok m => match copyNumbers s s.fields (fresh m) with
    | .error e => .error e
    | .ok t => if includeCandidates then copyCandidates s s.fields t else .ok t

/-- sudoku.py:271-276: the numbers of `encode`. -/
def Raw.encodeNumbers (s : Raw) (rowSep colSep : List Char) : List Char :=
  Py.join rowSep ((List.range s.made.size).map fun i => Py.join colSep ((List.range s.made.size).map fun j => Py.intStr (s.num (i, j))))

/-- sudoku.py:254-288 `encode`. -/
def Raw.encode (s : Raw) (rowSep colSep : List Char := []) (includeCandidates : Bool := false) : List Char :=
  if includeCandidates then
    s.encodeNumbers rowSep colSep ++ '|' :: Py.join [','] (s.fields.map fun a => Codec.encodeField (s.cand a))
  else s.encodeNumbers rowSep colSep

end DecodeArgs
