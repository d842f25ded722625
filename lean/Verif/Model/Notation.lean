import Verif.Model.Actions
import Verif.Model.Solvers
import Verif.Model.Strings

set_option autoImplicit false

/-!
# `sudokutools/notation.py`

Box width and height are integers here (the check for non-integral numbers, lines 112-113 and 168-169, never fails then),
separators and texts are strings.  Dictionaries are lists of entries in insertion order.
-/

open Spec

namespace Notation

/-- `sorted(l)` for natural numbers. -/
def sortNats (l : List Nat) : List Nat := l.insertionSort (· ≤ ·)

/-- `sorted(S)` for a set of natural numbers. -/
def sortSet (S : Finset Nat) : List Nat :=
  Quot.liftOn S.1 sortNats fun l l' (h : l.Perm l') =>
    List.Perm.eq_of_pairwise' (r := (· ≤ ·)) (List.pairwise_insertionSort (· ≤ ·) l) (List.pairwise_insertionSort (· ≤ ·) l')
      ((List.perm_insertionSort _ l).trans (h.trans (List.perm_insertionSort _ l').symm))

/-- notation.py:125-126: a `defaultdict` of sets. -/
abbrev Dict := List (Nat × Finset Nat)

/-- notation.py:137-138 `d[k].add(x)`. -/
def add : Dict → Nat → Nat → Dict
  | [], k, x => [(k, {x})]
  | (k', S) :: d, k, x => if k' = k then (k', insert x S) :: d else (k', S) :: add d k x

/-- notation.py:112-115 and 168-171. -/
def checkSize (width height : Int) : Except PyErr (Nat × Nat) :=
  if width < 1 ∨ height < 1 then .error .ValueError else .ok (width.toNat, height.toNat)

/-- notation.py:119-123 and 175-179. -/
def numberSep (nsep : List Char) (length : Nat) : List Char :=
  if nsep = [] then (if length > 9 then [','] else []) else nsep

/-- notation.py:128-138: the loop filling `rows` and `boxes`. -/
def collect (width height : Nat) : List (Int × Int) → Dict → Dict → Except PyErr (Dict × Dict)
  | [], rows, boxes => .ok (rows, boxes)
  | (row, col) :: cs, rows, boxes =>
    if ¬ (0 ≤ row ∧ row < (width * height : Nat)) ∨ ¬ (0 ≤ col ∧ col < (width * height : Nat)) then .error .ValueError
    else
      let row := row.toNat
      let col := col.toNat
      let box := col / width + row - row % height
      let part := col % width + (row % height) * width
      collect width height cs (add rows row col) (add boxes box part)

/-- notation.py:319-336: one round of the loop of `_join_keys`. -/
def joinStep (new : List (List Nat × Finset Nat)) (e : Nat × Finset Nat) : List (List Nat × Finset Nat) :=
  match new.find? fun f => f.2 = e.2 with
  | some f => new.eraseP (fun g => g.1 = f.1) ++ [(sortNats (e.1 :: f.1), e.2)]
  | none => new ++ [([e.1], e.2)]

/-- notation.py:317-338 `_join_keys`. -/
def joinKeys (d : Dict) : List (List Nat × Finset Nat) := d.foldl joinStep []

/-- notation.py:346-347: numbers, counted from 1. -/
def numbersStr (nsep : List Char) (l : List Nat) : List Char := Py.join nsep (l.map fun k => Py.natStr (k + 1))

/-- The order of Python on tuples of numbers. -/
def tupleLe : List Nat → List Nat → Bool
  | [], _ => true
  | _ :: _, [] => false
  | a :: l, b :: m => decide (a < b) || (decide (a = b) && tupleLe l m)

/-- notation.py:341-350 `_dict_to_str`; the format strings are `"b%sp%s"` and `"r%sc%s"`.  Sorting the keys and looking
them up is done by sorting the entries by their keys. -/
def dictToStr (k v : Char) (d : List (List Nat × Finset Nat)) (sep nsep : List Char) : List Char :=
  Py.join sep ((d.insertionSort fun a b => tupleLe a.1 b.1).map fun e =>
    k :: numbersStr nsep (sortNats e.1) ++ v :: numbersStr nsep (sortSet e.2))

/-- notation.py:89-151 `encode`. -/
def encode (coordinates : List (Int × Int)) (width height : Int) (useBoxes : Option Bool) (sep nsep : List Char) :
    Except PyErr (List Char) :=
  match checkSize width height with
  | .error e => .error e
  | .ok (w, h) =>
    let nsep := numberSep nsep (w * h)
    match collect w h coordinates [] [] with
    | .error e => .error e
    | .ok (rows, boxes) =>
      match useBoxes with
      | none =>
        let boxStr := dictToStr 'b' 'p' (joinKeys boxes) sep nsep
        let rowStr := dictToStr 'r' 'c' (joinKeys rows) sep nsep
        if boxStr.length < rowStr.length then .ok boxStr else .ok rowStr
      | some true => .ok (dictToStr 'b' 'p' (joinKeys boxes) sep nsep)
      | some false => .ok (dictToStr 'r' 'c' (joinKeys rows) sep nsep)

/-- notation.py:211-216: the keys of `all_numbers`. -/
inductive Qual
  | r | c | b | p
  deriving DecidableEq

/-- `c in all_numbers`. -/
def qual? (c : Char) : Option Qual :=
  if c = 'r' then some .r else if c = 'c' then some .c else if c = 'b' then some .b else if c = 'p' then some .p else none

/-- notation.py:218-223 `all_funcs`. -/
def func : Qual → Int → Nat → Nat → Except PyErr (List Cell)
  | .r => Coordinates.theRow
  | .c => Coordinates.theColumn
  | .b => Coordinates.theBox
  | .p => Coordinates.thePart

/-- notation.py:237-240 and 266-269. -/
def readNumbers (nsep str : List Char) : Except PyErr (List Int) :=
  match Py.ints (if nsep = [] then str.map fun c => [c] else Py.splitGo nsep str 0 []) with
  | .error e => .error e
  | .ok l => .ok (l.map (· - 1))

/-- notation.py:211-227: the variables of `_decode_single`. -/
structure State where
  nums : Qual → List Int
  current : Option Qual
  present : List Qual
  str : List Char

/-- notation.py:211-227: their first values. -/
def State.init : State := ⟨fun _ => [], none, [], []⟩

/-- `all_numbers[q] = l`. -/
def State.put (nums : Qual → List Int) (q : Qual) (l : List Int) : Qual → List Int := fun q' => if q' = q then l else nums q'

/-- notation.py:229-263: one round of the loop over the characters. -/
def readChar (nsep : List Char) (st : State) (ch : Char) : Except PyErr State :=
  match qual? ch with
  | some q =>
    if q ∈ st.present then .error .ValueError
    else match st.current with
      | some cur => match readNumbers nsep st.str with
        | .error e => .error e
        | .ok numbers =>
          if numbers = [] then .error .ValueError
          else .ok { nums := State.put st.nums cur numbers, current := some q, present := st.present ++ [cur], str := [] }
      | none => .ok { st with current := some q, str := [] }
  | none =>
    if Py.isDigit ch = true ∨ ch ∈ nsep then
      if st.current = none then .error .ValueError else .ok { st with str := st.str ++ [ch] }
    else .error .ValueError

/-- notation.py:229-263. -/
def readChars (nsep : List Char) : List Char → State → Except PyErr State
  | [], st => .ok st
  | ch :: s, st => match readChar nsep st ch with
    | .error e => .error e
    | .ok st => readChars nsep s st

/-- notation.py:265-273. -/
def finish (nsep : List Char) (st : State) : Except PyErr (Qual → List Int) :=
  match st.current with
  | some cur => match readNumbers nsep st.str with
    | .error e => .error e
    | .ok numbers => .ok (State.put st.nums cur numbers)
  | none => if st.present = [] then .error .ValueError else .ok st.nums

/-- notation.py:279-281: the fields named by the numbers of one key (as a list with repetitions). -/
def fieldsOf (q : Qual) (width height : Nat) : List Int → Except PyErr (List Cell)
  | [] => .ok []
  | x :: l => match func q x width height with
    | .error e => .error e
    | .ok cells => match fieldsOf q width height l with
      | .error e => .error e
      | .ok more => .ok (cells ++ more)

/-- notation.py:275-281: the values of `all_sets`, one for each key with a number. -/
def allSets (nums : Qual → List Int) (width height : Nat) : List Qual → Except PyErr (List (List Cell))
  | [] => .ok []
  | q :: l => match fieldsOf q width height (nums q) with
    | .error e => .error e
    | .ok cells => match allSets nums width height l with
      | .error e => .error e
      | .ok more => .ok (if nums q = [] then more else cells :: more)

/-- notation.py:283 `set.intersection(*sets)`: a `TypeError` without arguments. -/
def intersection : List (List Cell) → Except PyErr (List Cell)
  | [] => .error .TypeError
  | S :: l => .ok (S.filter fun a => l.all fun T => decide (a ∈ T))

/-- notation.py:208-283 `_decode_single`. -/
def decodeSingle (group : List Char) (width height : Nat) (nsep : List Char) : Except PyErr (List Cell) :=
  match readChars nsep group State.init with
  | .error e => .error e
  | .ok st => match finish nsep st with
    | .error e => .error e
    | .ok nums => match allSets nums width height [.r, .c, .b, .p] with
      | .error e => .error e
      | .ok sets => intersection sets

/-- notation.py:200-203: the loop over the groups. -/
def decodeGroups (width height : Nat) (nsep : List Char) : List (List Char) → Except PyErr (List Cell)
  | [] => .ok []
  | g :: l => match decodeSingle g width height nsep with
    | .error e => .error e
    | .ok cells => match decodeGroups width height nsep l with
      | .error e => .error e
      | .ok more => .ok (cells ++ more)

/-- notation.py:183-185: `s.replace(string.whitespace, "")` removes the text consisting of all six characters. -/
def removeWhitespace (sep nsep s : List Char) : List Char :=
  if (Py.whitespace.all fun c => decide (c ∉ sep)) && (Py.whitespace.all fun c => decide (c ∉ nsep)) then
    Py.join [] (Py.splitGo Py.whitespace s 0 [])
  else s

/-- notation.py:192-197: `group` split at `sep + c`. -/
def splitGroup (sep : List Char) (c : Char) (group : List Char) : List (List Char) :=
  match Py.splitGo (sep ++ [c]) group 0 [] with
  | [] => []
  | g :: gs => g :: gs.map (c :: ·)

/-- notation.py:188-198. -/
def splitGroups (sep s : List Char) : List (List Char) :=
  ['r', 'c', 'b', 'p'].foldl (fun groups c => groups.flatMap (splitGroup sep c)) [s]

/-- notation.py:154-205 `decode`. -/
def decode (s : List Char) (width height : Int) (sep nsep : List Char) : Except PyErr (List Cell) :=
  match checkSize width height with
  | .error e => .error e
  | .ok (w, h) =>
    let nsep := numberSep nsep (w * h)
    let s := removeWhitespace sep nsep s
    match decodeGroups w h nsep (splitGroups sep s) with
    | .error e => .error e
    | .ok cells => .ok (Solvers.sortCells cells.dedup)

/-- The numbers given to an action: integers, or strings. -/
inductive Val
  | int (i : Int)
  | str (s : List Char)
  deriving DecidableEq

/-- notation.py:286-293 `encode_action` (of a `SetNumber` or a `RemoveCandidates`); `"=" + number` and `"".join` reject
integers, and the second branch ends without a `return`. -/
def encodeAction (action : Actions.Action Val) (width height : Int) : Except PyErr (Option (List Char)) :=
  match action with
  | .setNumber coordinates number =>
    match encode coordinates width height none [','] [] with
    | .error e => .error e
    | .ok s => match number with
      | .int _ => .error .TypeError
      | .str t => .ok (some (s ++ '=' :: t))
  | .removeCandidates coordinates candidates =>
    match encode coordinates width height none [','] [] with
    | .error e => .error e
    | .ok _ => if candidates.all fun v => match v with | .int _ => false | .str _ => true then .ok none else .error .TypeError

/-- A field as a pair of Python integers. -/
def toPair (a : Cell) : Int × Int := (a.1, a.2)

/-- notation.py:296-314 `decode_action`. -/
def decodeAction (s : List Char) (width height : Int) : Except PyErr (Actions.Action Int) :=
  let s := Py.strip s
  if ['-'].isPrefixOf s then
    let (left, right) := match Py.cut [' '] s with
      | some p => p
      | none => (s, [])
    match decode right width height [','] [] with
    | .error e => .error e
    | .ok coordinates => match Py.ints (left.map fun c => [c]) with
      | .error e => .error e
      | .ok candidates => .ok (.removeCandidates (coordinates.map toPair) candidates)
  else match Py.cut ['<', '>'] s with
    | some (left, right) => match Py.ints (right.map fun c => [c]) with
      | .error e => .error e
      | .ok candidates => match decode left width height [','] [] with
        | .error e => .error e
        | .ok coordinates => .ok (.removeCandidates (coordinates.map toPair) candidates)
    | none => match Py.cut ['='] s with
      | some (left, right) => match Py.int right with
        | .error e => .error e
        | .ok number => match decode left width height [','] [] with
          | .error e => .error e
          | .ok coordinates => .ok (.setNumber (coordinates.map toPair) number)
      | none => .error .ValueError

end Notation
