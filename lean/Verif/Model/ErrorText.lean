import Verif.Model.Exceptions
import Verif.Model.Codec
import Verif.Model.Notation
import Verif.Model.Generate

set_option autoImplicit false

/-!
# The texts of the exceptions raised by the library

The functions of `Model/Coordinates.lean`, `Model/Codec.lean`, `Model/Notation.lean` and `Model/Generate.lean` once more, with
the argument of the exception.  (The shell prints it: shell.py:353-354 `self.error(str(e))`.)  That they are the same functions
otherwise is proved in `Proofs/ErrorText.lean`.
-/

open Spec

namespace ErrorText

/-- `raise ValueError(t)`. -/
def valueError {α : Type} (t : List Char) : Except Exn α := .error ⟨.ValueError, .text t⟩

/-- `int(item)`. -/
def int (item : List Char) : Except Exn Int :=
  match Py.int item with
  | .ok v => .ok v
  | .error e => .error ⟨e, .badInt item⟩

/-- `[int(x) for x in items]`. -/
def ints : List (List Char) → Except Exn (List Int)
  | [] => .ok []
  | x :: l => match int x with
    | .error e => .error e
    | .ok v => match ints l with
      | .error e => .error e
      | .ok vs => .ok (v :: vs)

/-! ## coordinates.py -/

/-- coordinates.py:183, 210, 234, 263: `"… less than %d" % width * height` is `("… less than %d" % width) * height`. -/
def unitText (name : List Char) (width height : Nat) : List Char :=
  (List.replicate height (name ++ " must be less equal 0 and less than ".toList ++ Py.natStr width)).flatten

/-- coordinates.py:163-187 `the_box`. -/
def theBox (box : Int) (width height : Nat) : Except Exn (List Cell) :=
  if ¬ (0 ≤ box ∧ box < (width * height : Nat)) then valueError (unitText "box".toList width height)
  else builtin (Coordinates.theBox box width height)

/-- coordinates.py:190-211 `the_column`. -/
def theColumn (col : Int) (width height : Nat) : Except Exn (List Cell) :=
  if ¬ (0 ≤ col ∧ col < (width * height : Nat)) then valueError (unitText "col".toList width height)
  else builtin (Coordinates.theColumn col width height)

/-- coordinates.py:214-240 `the_part`. -/
def thePart (part : Int) (width height : Nat) : Except Exn (List Cell) :=
  if ¬ (0 ≤ part ∧ part < (width * height : Nat)) then valueError (unitText "part".toList width height)
  else builtin (Coordinates.thePart part width height)

/-- coordinates.py:243-265 `the_row`. -/
def theRow (row : Int) (width height : Nat) : Except Exn (List Cell) :=
  if ¬ (0 ≤ row ∧ row < (width * height : Nat)) then valueError (unitText "row".toList width height)
  else builtin (Coordinates.theRow row width height)

/-! ## generate.py -/

/-- generate.py:26-33, 91: `", ".join([str(key) for key in SYMMETRY])`; the keys come in the order they are written in (Python 3.7). -/
def symmetryNames : List Char := "None, rotate-90, rotate-180, mirror-x, mirror-y, mirror-xy".toList

/-- generate.py:60-122 `generate`; what follows the two checks raises no exception of its own. -/
def generate (π : Dlx.Orders) (ρ : List Cell → Generate.RoundOrders) (fuel rounds : Nat) (c : Generate.Choices) (coords : List Cell)
    (minCount : Int) (symmetry : Option String) (w h : Nat) : Except Exn (Option Sudoku) :=
  let countLimit : Int := (w ^ 2 * h ^ 2 : Nat)
  if minCount > countLimit then
    valueError ("min_count must be <= ".toList ++ Py.intStr countLimit ++ " (".toList ++ Py.intStr minCount ++ " was given).".toList)
  else match Generate.Sym.lookup symmetry with
    | none => valueError ("symmetry must be one of ".toList ++ symmetryNames)
    | some _ => builtin (Generate.generate π ρ fuel rounds c coords minCount symmetry w h)

/-- generate.py:60-122 `generate(min_count, symmetry, (w, h))` with the random outcomes `e`. -/
def envGenerate {w h : Nat} (e : Generate.Env w h) (minCount : Int) (symmetry : Option String) : Except Exn (Option Sudoku) :=
  generate e.π e.ρ e.fuel e.rounds e.c e.coords minCount symmetry w h

/-- generate.py:181-195: the loop of `generate_from_template`. -/
def templateLoop (fuel : Nat) (f : Nat → Generate.Try) (template : Sudoku) (tries : Int) :
    Nat → Nat → Except Exn (Option Sudoku)
  | 0, _ => .ok none
  | rounds + 1, t =>
    if (t : Int) < tries ∨ tries < 0 then
      match Generate.createSolution (f t).create fuel (f t).choices template.bw template.bh with
      | .error e => .error ⟨e, .builtin⟩
      | .ok solution =>
        let sudoku := Generate.mask template solution.copy
        match Dlx.isUnique (f t).unique fuel sudoku with
        | .error e => .error ⟨e, .builtin⟩
        | .ok true => .ok (some sudoku)
        | .ok false => templateLoop fuel f template tries rounds (t + 1)
    else .error ⟨.RuntimeError,
      .text ("Failed to generate sudoku from template within ".toList ++ Py.intStr tries ++ " tries.".toList)⟩

/-- generate.py:125-195 `generate_from_template`. -/
def generateFromTemplate (fuel rounds : Nat) (f : Nat → Generate.Try) (template : Sudoku) (tries : Int) :
    Except Exn (Option Sudoku) :=
  templateLoop fuel f template tries rounds 0

/-! ## sudoku.py: `decode` -/

/-- sudoku.py:360-384: the box size for `count` fields. -/
def guessBox (count : Nat) : Except Exn (Nat × Nat) :=
  if count.sqrt * count.sqrt = count then
    let length := count.sqrt
    if length.sqrt * length.sqrt = length then .ok (length.sqrt, length.sqrt)
    else
      let width := Codec.firstDivisor length length 2
      if width = length then valueError ("Invalid row length: ".toList ++ Py.natStr length) else .ok (width, length / width)
  else valueError ("Invalid number of fields given (must be square number): ".toList ++ Py.natStr count)

/-- sudoku.py:397-400: the number of an item. -/
def itemNumber (p : Codec.Args) (item : List Char) : Except Exn Int :=
  if p.same item = true then .ok 0 else int item

/-- sudoku.py:396-407: the loop reading the numbers. -/
def readNumbers (p : Codec.Args) : List (List Char) → Nat → Nat → Sudoku → Except Exn Sudoku
  | [], _, _, s => .ok s
  | item :: l, row, col, s =>
    match itemNumber p item with
    | .error e => .error e
    | .ok v =>
      if row < s.n ∧ col < s.n then
        let s := s.setNumber (row, col) v
        let row' := if col + 1 ≥ s.n then row + 1 else row
        let col' := if col + 1 ≥ s.n then 0 else col + 1
        if row' ≥ s.n then .ok s else readNumbers p l row' col' s
      else .error ⟨.IndexError, .builtin⟩

/-- sudoku.py:417-421: the candidates in a piece. -/
def pieceCandidates (p : Codec.Args) (c : List Char) : Except Exn (List Int) :=
  if p.numberSep ≠ [] then
    match Py.split (Py.strip c) p.numberSep with
    | .error e => .error ⟨e, .builtin⟩
    | .ok l => ints l
  else ints ((Py.strip c).map fun c => [c])

/-- sudoku.py:416-428: the loop reading the candidates. -/
def readCandidates (p : Codec.Args) : List (List Char) → Nat → Nat → Sudoku → Except Exn Sudoku
  | [], _, _, s => .ok s
  | c :: l, row, col, s =>
    match pieceCandidates p c with
    | .error e => .error e
    | .ok v =>
      if row < s.n ∧ col < s.n then
        let s := s.setCandidates (row, col) v.toFinset
        let row' := if col + 1 = s.n then row + 1 else row
        let col' := if col + 1 = s.n then 0 else col + 1
        if row' = s.n then .ok s else readCandidates p l row' col' s
      else .error ⟨.IndexError, .builtin⟩

/-- sudoku.py:409-430: the candidates, if there are any. -/
def decodeCandidates (p : Codec.Args) (candidates : List Char) (s : Sudoku) : Except Exn Sudoku :=
  if candidates = [] then .ok s
  else match Py.split candidates p.candidateSep with
    | .error e => .error ⟨e, .builtin⟩
    | .ok l => readCandidates p l 0 0 s

/-- sudoku.py:360-384: the box size, given or guessed. -/
def boxFor (p : Codec.Args) (fields : List Char) : Except Exn (Nat × Nat) :=
  match p.boxSize with
  | some b => .ok b
  | none => match Codec.items p fields with
    | .error e => .error ⟨e, .builtin⟩
    | .ok l => guessBox l.length

/-- sudoku.py:290-430 `decode`. -/
def decodeSudoku (p : Codec.Args) (s : List Char) : Except Exn Sudoku :=
  match Codec.parts p (Codec.removeSpace p (Py.strip s)) with
  | .error e => .error ⟨e, .builtin⟩
  | .ok (fields, candidates) =>
    match boxFor p fields with
    | .error e => .error e
    | .ok (w, h) =>
      match Codec.items p fields with
      | .error e => .error ⟨e, .builtin⟩
      | .ok l => match readNumbers p l 0 0 (Sudoku.new w h) with
        | .error e => .error e
        | .ok s => decodeCandidates p candidates s

/-! ## notation.py -/

open Notation (Qual State)

/-- notation.py:112-115 and 168-171. -/
def checkSize (width height : Int) : Except Exn (Nat × Nat) :=
  if width < 1 ∨ height < 1 then valueError "width and height must be >= 1.".toList else .ok (width.toNat, height.toNat)

/-- notation.py:128-138: the loop filling `rows` and `boxes`. -/
def collect (width height : Nat) : List (Int × Int) → Notation.Dict → Notation.Dict → Except Exn (Notation.Dict × Notation.Dict)
  | [], rows, boxes => .ok (rows, boxes)
  | (row, col) :: cs, rows, boxes =>
    if ¬ (0 ≤ row ∧ row < (width * height : Nat)) ∨ ¬ (0 ≤ col ∧ col < (width * height : Nat)) then
      valueError ("Invalid coordinates (".toList ++ Py.intStr row ++ ", ".toList ++ Py.intStr col ++ ") for width = ".toList ++
        Py.natStr width ++ ", height = ".toList ++ Py.natStr height ++ ".".toList)
    else
      let row := row.toNat
      let col := col.toNat
      let box := col / width + row - row % height
      let part := col % width + (row % height) * width
      collect width height cs (Notation.add rows row col) (Notation.add boxes box part)

/-- notation.py:89-151 `encode`. -/
def encode (coordinates : List (Int × Int)) (width height : Int) (useBoxes : Option Bool) (sep nsep : List Char) :
    Except Exn (List Char) :=
  match checkSize width height with
  | .error e => .error e
  | .ok (w, h) =>
    let nsep := Notation.numberSep nsep (w * h)
    match collect w h coordinates [] [] with
    | .error e => .error e
    | .ok (rows, boxes) =>
      match useBoxes with
      | none =>
        let boxStr := Notation.dictToStr 'b' 'p' (Notation.joinKeys boxes) sep nsep
        let rowStr := Notation.dictToStr 'r' 'c' (Notation.joinKeys rows) sep nsep
        if boxStr.length < rowStr.length then .ok boxStr else .ok rowStr
      | some true => .ok (Notation.dictToStr 'b' 'p' (Notation.joinKeys boxes) sep nsep)
      | some false => .ok (Notation.dictToStr 'r' 'c' (Notation.joinKeys rows) sep nsep)

/-- notation.py:211-216: the key as a character. -/
def qualChar : Qual → Char
  | .r => 'r'
  | .c => 'c'
  | .b => 'b'
  | .p => 'p'

/-- notation.py:218-223 `all_funcs`. -/
def func : Qual → Int → Nat → Nat → Except Exn (List Cell)
  | .r => theRow
  | .c => theColumn
  | .b => theBox
  | .p => thePart

/-- notation.py:237-240 and 266-269. -/
def readQualNumbers (nsep str : List Char) : Except Exn (List Int) :=
  match ints (if nsep = [] then str.map fun c => [c] else Py.splitGo nsep str 0 []) with
  | .error e => .error e
  | .ok l => .ok (l.map (· - 1))

/-- notation.py:232, 244, 256, 262: `"Malformed group '%s'. " % group`. -/
def malformed (group : List Char) : List Char := "Malformed group '".toList ++ group ++ "'. ".toList

/-- notation.py:229-263: one round of the loop over the characters. -/
def readChar (group nsep : List Char) (st : State) (ch : Char) : Except Exn State :=
  match Notation.qual? ch with
  | some q =>
    if q ∈ st.present then valueError (malformed group ++ "'".toList ++ [ch] ++ "' has multiple occurrences.".toList)
    else match st.current with
      | some cur => match readQualNumbers nsep st.str with
        | .error e => .error e
        | .ok numbers =>
          if numbers = [] then valueError (malformed group ++ "No numbers given for '".toList ++ [qualChar cur] ++ "'".toList)
          else .ok { nums := State.put st.nums cur numbers, current := some q, present := st.present ++ [cur], str := [] }
      | none => .ok { st with current := some q, str := [] }
  | none =>
    if Py.isDigit ch = true ∨ ch ∈ nsep then
      if st.current = none then valueError (malformed group ++ "'".toList ++ [ch] ++ "' is illegal at this position.".toList)
      else .ok { st with str := st.str ++ [ch] }
    else valueError (malformed group ++ "Illegal character '".toList ++ [ch] ++ "'.".toList)

/-- notation.py:229-263. -/
def readChars (group nsep : List Char) : List Char → State → Except Exn State
  | [], st => .ok st
  | ch :: s, st => match readChar group nsep st ch with
    | .error e => .error e
    | .ok st => readChars group nsep s st

/-- notation.py:265-273. -/
def finish (group nsep : List Char) (st : State) : Except Exn (Qual → List Int) :=
  match st.current with
  | some cur => match readQualNumbers nsep st.str with
    | .error e => .error e
    | .ok numbers => .ok (State.put st.nums cur numbers)
  | none => if st.present = [] then valueError ("Empty group '".toList ++ group ++ "'".toList) else .ok st.nums

/-- notation.py:279-281: the fields named by the numbers of one key. -/
def fieldsOf (q : Qual) (width height : Nat) : List Int → Except Exn (List Cell)
  | [] => .ok []
  | x :: l => match func q x width height with
    | .error e => .error e
    | .ok cells => match fieldsOf q width height l with
      | .error e => .error e
      | .ok more => .ok (cells ++ more)

/-- notation.py:275-281: the values of `all_sets`. -/
def allSets (nums : Qual → List Int) (width height : Nat) : List Qual → Except Exn (List (List Cell))
  | [] => .ok []
  | q :: l => match fieldsOf q width height (nums q) with
    | .error e => .error e
    | .ok cells => match allSets nums width height l with
      | .error e => .error e
      | .ok more => .ok (if nums q = [] then more else cells :: more)

/-- notation.py:208-283 `_decode_single`. -/
def decodeSingle (group : List Char) (width height : Nat) (nsep : List Char) : Except Exn (List Cell) :=
  match readChars group nsep group State.init with
  | .error e => .error e
  | .ok st => match finish group nsep st with
    | .error e => .error e
    | .ok nums => match allSets nums width height [.r, .c, .b, .p] with
      | .error e => .error e
      | .ok sets => builtin (Notation.intersection sets)

/-- notation.py:200-203: the loop over the groups. -/
def decodeGroups (width height : Nat) (nsep : List Char) : List (List Char) → Except Exn (List Cell)
  | [] => .ok []
  | g :: l => match decodeSingle g width height nsep with
    | .error e => .error e
    | .ok cells => match decodeGroups width height nsep l with
      | .error e => .error e
      | .ok more => .ok (cells ++ more)

/-- notation.py:154-205 `decode`. -/
def decode (s : List Char) (width height : Int) (sep nsep : List Char) : Except Exn (List Cell) :=
  match checkSize width height with
  | .error e => .error e
  | .ok (w, h) =>
    let nsep := Notation.numberSep nsep (w * h)
    let s := Notation.removeWhitespace sep nsep s
    match decodeGroups w h nsep (Notation.splitGroups sep s) with
    | .error e => .error e
    | .ok cells => .ok (Solvers.sortCells cells.dedup)

/-- notation.py:296-314 `decode_action`. -/
def decodeAction (s : List Char) (width height : Int) : Except Exn (Actions.Action Int) :=
  let s := Py.strip s
  if ['-'].isPrefixOf s then
    let (left, right) := match Py.cut [' '] s with
      | some p => p
      | none => (s, [])
    match decode right width height [','] [] with
    | .error e => .error e
    | .ok coordinates => match ints (left.map fun c => [c]) with
      | .error e => .error e
      | .ok candidates => .ok (.removeCandidates (coordinates.map Notation.toPair) candidates)
  else match Py.cut ['<', '>'] s with
    | some (left, right) => match ints (right.map fun c => [c]) with
      | .error e => .error e
      | .ok candidates => match decode left width height [','] [] with
        | .error e => .error e
        | .ok coordinates => .ok (.removeCandidates (coordinates.map Notation.toPair) candidates)
    | none => match Py.cut ['='] s with
      | some (left, right) => match int right with
        | .error e => .error e
        | .ok number => match decode left width height [','] [] with
          | .error e => .error e
          | .ok coordinates => .ok (.setNumber (coordinates.map Notation.toPair) number)
      | none => valueError ("Cannot decode action '".toList ++ s ++ "'".toList)

end ErrorText
