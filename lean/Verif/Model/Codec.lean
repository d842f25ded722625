import Verif.Model.Sudoku
import Verif.Model.Solvers
import Verif.Model.Strings
import Mathlib.Data.Nat.Sqrt

set_option autoImplicit false

/-!
# `sudokutools/sudoku.py`: `encode`, `decode`, `view`
-/

open Spec

namespace Codec

/-! ## encode -/

/-- sudoku.py:271-276: the numbers. -/
def encodeNumbers (s : Sudoku) (rowSep colSep : List Char) : List Char :=
  Py.join rowSep (s.indices.map fun row => Py.join colSep (s.indices.map fun col => Py.intStr (s.get (row, col))))

/-- sudoku.py:281-284: the candidates of one field. -/
def encodeField (c : Finset Int) : List Char := ((Solvers.sortSet c).map Py.intStr).flatten

/-- sudoku.py:254-288 `encode`. -/
def encode (s : Sudoku) (rowSep colSep : List Char) (includeCandidates : Bool) : List Char :=
  if includeCandidates then
    encodeNumbers s rowSep colSep ++ '|' :: Py.join [','] (s.cells.map fun a => encodeField (s.getCandidates a))
  else encodeNumbers s rowSep colSep

/-! ## decode -/

/-- The arguments of `decode` (sudoku.py:291) other than the string. -/
structure Args where
  empty : List Char := ['0']
  /-- `None` and `""` have the same effect -/
  numberSep : List Char := []
  sudokuSep : List Char := ['|']
  candidateSep : List Char := [',']
  boxSize : Option (Nat × Nat) := none
  /-- sudoku.py:397 `item is empty`: whether the item is the *same object* as the argument, see `SameOk` -/
  same : List Char → Bool := fun item => decide (item = ['0'])

/-- What CPython guarantees about `item is empty`: identical strings are equal, and there is only one string object for each
single character below 256.  Whether equal strings of another kind are identical is left open. -/
def SameOk (p : Args) : Prop :=
  (∀ item, p.same item = true → item = p.empty) ∧ ∀ c : Char, c.toNat < 256 → p.empty = [c] → p.same [c] = true

/-- sudoku.py:341-352: the unused whitespace is removed (or replaced by the separator). -/
def removeSpace (p : Args) (s : List Char) : List Char :=
  let special := p.empty ++ p.sudokuSep ++ p.candidateSep ++ p.numberSep
  Py.whitespace.foldl (fun s c => if c ∉ special then Py.replaceChar c p.numberSep s else s) s

/-- sudoku.py:391-394 / 362-365: the pieces of the field part. -/
def items (p : Args) (fields : List Char) : Except PyErr (List (List Char)) :=
  if p.numberSep ≠ [] then Py.split fields p.numberSep else .ok (fields.map fun c => [c])

/-- sudoku.py:378-381: the first divisor of `length` in `i, i + 1, ...`. -/
def firstDivisor (length : Nat) : Nat → Nat → Nat
  | 0, i => i
  | fuel + 1, i => if length % i = 0 then i else firstDivisor length fuel (i + 1)

/-- sudoku.py:360-384: the box size for `count` fields.  `x**0.5` is exact for the squares and never integral for other
numbers below 2^52, so `(x**0.5).is_integer()` is modelled as: `x` is a square. -/
def guessBox (count : Nat) : Except PyErr (Nat × Nat) :=
  if count.sqrt * count.sqrt = count then
    let length := count.sqrt
    if length.sqrt * length.sqrt = length then .ok (length.sqrt, length.sqrt)
    else
      let width := firstDivisor length length 2
      if width = length then .error .ValueError else .ok (width, length / width)
  else .error .ValueError

/-- sudoku.py:397-400: the number of an item. -/
def itemNumber (p : Args) (item : List Char) : Except PyErr Int :=
  if p.same item = true then .ok 0 else Py.int item

/-- sudoku.py:396-407: the loop reading the numbers. -/
def readNumbers (p : Args) : List (List Char) → Nat → Nat → Sudoku → Except PyErr Sudoku
  | [], _, _, s => .ok s
  | item :: l, row, col, s =>
    match itemNumber p item with
    | .error e => .error e
    | .ok v =>
      if row < s.n ∧ col < s.n then
        let s := s.setNumber (row, col) v
        let row' := if col + 1 ≥ s.n then row + 1 else row
        let col' := if col + 1 ≥ s.n then 0 else col + 1
        if row' ≥ s.n then .ok s else readNumbers p l row' col' s
      else .error .IndexError

/-- sudoku.py:417-421: the candidates in a piece. -/
def pieceCandidates (p : Args) (c : List Char) : Except PyErr (List Int) :=
  if p.numberSep ≠ [] then
    match Py.split (Py.strip c) p.numberSep with
    | .error e => .error e
    | .ok l => Py.ints l
  else Py.ints ((Py.strip c).map fun c => [c])

/-- sudoku.py:416-428: the loop reading the candidates. -/
def readCandidates (p : Args) : List (List Char) → Nat → Nat → Sudoku → Except PyErr Sudoku
  | [], _, _, s => .ok s
  | c :: l, row, col, s =>
    match pieceCandidates p c with
    | .error e => .error e
    | .ok v =>
      if row < s.n ∧ col < s.n then
        let s := s.setCandidates (row, col) v.toFinset
        let row' := if col + 1 = s.n then row + 1 else row
        let col' := if col + 1 = s.n then 0 else col + 1
        if row' = s.n then .ok s else readCandidates p l row' col' s
      else .error .IndexError

/-- sudoku.py:354-358: the parts before and after the separator. -/
def parts (p : Args) (s : List Char) : Except PyErr (List Char × List Char) :=
  match Py.cut p.sudokuSep s with
  | some ab => if p.sudokuSep = [] then .error .ValueError else .ok ab
  | none => .ok (s, [])

/-- sudoku.py:409-430: the candidates, if there are any. -/
def decodeCandidates (p : Args) (candidates : List Char) (s : Sudoku) : Except PyErr Sudoku :=
  if candidates = [] then .ok s
  else match Py.split candidates p.candidateSep with
    | .error e => .error e
    | .ok l => readCandidates p l 0 0 s

/-- sudoku.py:360-384: the box size, given or guessed. -/
def boxFor (p : Args) (fields : List Char) : Except PyErr (Nat × Nat) :=
  match p.boxSize with
  | some b => .ok b
  | none => match items p fields with
    | .error e => .error e
    | .ok l => guessBox l.length

/-- sudoku.py:290-430 `decode`. -/
def decode (p : Args) (s : List Char) : Except PyErr Sudoku :=
  match parts p (removeSpace p (Py.strip s)) with
  | .error e => .error e
  | .ok (fields, candidates) =>
    match boxFor p fields with
    | .error e => .error e
    | .ok (w, h) =>
      match items p fields with
      | .error e => .error e
      | .ok l => match readNumbers p l 0 0 (Sudoku.new w h) with
        | .error e => .error e
        | .ok s => decodeCandidates p candidates s

/-! ## view -/

/-- `max` of a non-empty list of lengths, 0 otherwise. -/
def maximum (l : List Nat) : Nat := l.foldl max 0

/-- sudoku.py:591: the length of the longest number. -/
def maxLength (s : Sudoku) : Nat := maximum (s.numbers.map fun n => (Py.intStr n).length)

/-- sudoku.py:592-595 (the argument `number_sep` is overwritten). -/
def viewSep (s : Sudoku) : List Char := if maxLength s > 1 then [','] else []

/-- sudoku.py:599-608; the candidates are visited in sorted order (in Python in an unspecified one, which makes no
difference for the length). -/
def fieldLength (s : Sudoku) (includeCandidates : Bool) (prefix_ : List Char) : Nat :=
  if includeCandidates then
    s.cells.foldl (fun m a =>
      let length := (Py.join (viewSep s) ((Solvers.sortSet (s.getCandidates a)).map Py.intStr)).length + prefix_.length
      if length > m then length else m) (maxLength s)
  else maxLength s

/-- sudoku.py:610-615; `range(box_height - 2)` is empty for a negative argument. -/
def rule (s : Sudoku) (m : Nat) : List Char :=
  let dash := s.bw + s.bw * m
  let r := List.replicate dash '-' ++ ['+']
  let r := (List.range (s.bh - 2)).foldl (fun r _ => r ++ (List.replicate (dash + 1) '-' ++ ['+'])) r
  r ++ (List.replicate dash '-' ++ ['\n'])

/-- sudoku.py:624-635: the text of a field, padded. -/
def fieldText (s : Sudoku) (includeCandidates : Bool) (prefix_ : List Char) (alignRight : Bool) (m : Nat) (a : Cell) :
    List Char :=
  let val :=
    if s.get a ≠ 0 then Py.intStr (s.get a)
    else if !includeCandidates then []
    else prefix_ ++ Py.join (viewSep s) ((Solvers.sortSet (s.getCandidates a)).map Py.intStr)
  if alignRight then Py.rjust m val else Py.ljust m val

/-- sudoku.py:623-639: the pieces of a line. -/
def linePieces (s : Sudoku) (includeCandidates : Bool) (prefix_ : List Char) (alignRight : Bool) (m row : Nat) :
    List (List Char) :=
  s.indices.foldl (fun l col =>
    let l := l ++ [fieldText s includeCandidates prefix_ alignRight m (row, col)]
    if (col + 1) % s.bw = 0 ∧ col + 1 < s.n then l ++ [['|']] else l) []

/-- sudoku.py:541-648 `view`. -/
def view (s : Sudoku) (includeCandidates : Bool) (prefix_ : List Char) (alignRight : Bool) : Except PyErr (List Char) :=
  if s.n = 0 then .error .ValueError -- `max([])`
  else
    let m := fieldLength s includeCandidates prefix_
    .ok (s.indices.foldl (fun text row =>
      let text := text ++ Py.join [' '] (linePieces s includeCandidates prefix_ alignRight m row)
      let text := if row + 1 < s.n then text ++ ['\n'] else text
      if (row + 1) % s.bh = 0 ∧ row + 1 < s.n then text ++ rule s m else text) [])

/-- sudoku.py:164-170 `__str__`. -/
def str (s : Sudoku) : Except PyErr (List Char) := view s false ['*'] true

end Codec
