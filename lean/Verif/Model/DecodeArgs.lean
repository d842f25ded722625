import Verif.Model.NewArgs
import Verif.Model.Codec

set_option autoImplicit false

/-!
# `Sudoku.decode(s, ..., box_size)`: box sizes of any kind

`decode` passes `box_size` to the constructor, but reads with `box_width * box_height`.
-/

open Spec Shell

namespace DecodeArgs

/-- sudoku.py:51-67: an instance; its `indices` need not fit its box sizes (see Model/NewArgs.lean). -/
structure Raw where
  made : NewArgs.Made
  num : Cell → Int
  cand : Cell → Finset Int

/-- sudoku.py:51-67: a new instance has no numbers and no candidates. -/
def fresh (m : NewArgs.Made) : Raw := ⟨m, fun _ => 0, fun _ => ∅⟩

/-- A sudoku with suitable sizes (Model/Sudoku.lean) as such an instance. -/
def ofSudoku (s : Sudoku) : Raw := ⟨⟨s.bw, s.bh, s.n⟩, s.num, s.cand⟩

/-- sudoku.py:403, 406, 424, 427: `box_width * box_height`. -/
def Raw.limit (s : Raw) : Int := s.made.width * s.made.height

/-- sudoku.py:396-407: the loop reading the numbers; the number of an item is computed first, then stored, which raises `IndexError` if there is no such
field. -/
def readNumbers (p : Codec.Args) : List (List Char) → Nat → Nat → Raw → Except PyErr Raw
  | [], _, _, s => .ok s
  | item :: l, row, col, s =>
    match Codec.itemNumber p item with
    | .error e => .error e
    | .ok v =>
      if row < s.made.size ∧ col < s.made.size then
        let s : Raw := { s with num := fun a => if a = (row, col) then v else s.num a }
        let row' := if ((col + 1 : Nat) : Int) ≥ s.limit then row + 1 else row
        let col' := if ((col + 1 : Nat) : Int) ≥ s.limit then 0 else col + 1
        if (row' : Int) ≥ s.limit then .ok s else readNumbers p l row' col' s
      else .error .IndexError

/-- sudoku.py:416-428: the loop reading the candidates. -/
def readCandidates (p : Codec.Args) : List (List Char) → Nat → Nat → Raw → Except PyErr Raw
  | [], _, _, s => .ok s
  | c :: l, row, col, s =>
    match Codec.pieceCandidates p c with
    | .error e => .error e
    | .ok v =>
      if row < s.made.size ∧ col < s.made.size then
        let s : Raw := { s with cand := fun a => if a = (row, col) then v.toFinset else s.cand a }
        let row' := if ((col + 1 : Nat) : Int) = s.limit then row + 1 else row
        let col' := if ((col + 1 : Nat) : Int) = s.limit then 0 else col + 1
        if (row' : Int) = s.limit then .ok s else readCandidates p l row' col' s
      else .error .IndexError

/-- sudoku.py:409-430: the candidates, if there are any. -/
def decodeCandidates (p : Codec.Args) (candidates : List Char) (s : Raw) : Except PyErr Raw :=
  if candidates = [] then .ok s
  else match Py.split candidates p.candidateSep with
    | .error e => .error e
    | .ok l => readCandidates p l 0 0 s

/-- sudoku.py:360-387: the new instance; `None` is the default for `box_size`. -/
def instanceFor (p : Codec.Args) (fields : List Char) : NewArgs.Box → Except PyErr NewArgs.Made
  | .arg (.value .none) => match Codec.boxFor { p with boxSize := none } fields with
    | .error e => .error e
    | .ok (w, h) => ErrorText.forget (NewArgs.new (.arg (.value (.ints .tuple [(w : Int), h]))))
  | x => ErrorText.forget (NewArgs.new x)

/-- sudoku.py:290-430 `decode` with `box_size` (`p.boxSize` is not used). -/
def decode (p : Codec.Args) (box : NewArgs.Box) (s : List Char) : Except PyErr Raw :=
  match Codec.parts p (Codec.removeSpace p (Py.strip s)) with
  | .error e => .error e
  | .ok (fields, candidates) =>
    match instanceFor p fields box with
    | .error e => .error e
    | .ok m =>
      match Codec.items p fields with
      | .error e => .error e
      | .ok l => match readNumbers p l 0 0 (fresh m) with
        | .error e => .error e
        | .ok s => decodeCandidates p candidates s

end DecodeArgs
