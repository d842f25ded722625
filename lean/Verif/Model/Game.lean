import Verif.Model.Notation
import Verif.Model.Codec
import Verif.Model.Solvers

set_option autoImplicit false

/-!
# `sudokutools/shell.py`: the class `GameShell`

Sudokus are mutable objects: they live in a heap (a list of contents), `self.sudokus`, `self.hinted_sudoku` and the generator
`self.hints` refer to addresses in it.  Lines printed are events; the text of a hint (`str(step)`) is in `Model/StepText.lean`, the
greeting is not modelled.  `KeyboardInterrupt` is not modelled.
-/

open Spec

namespace Game

/-- shell.py:28-36 `self.settings`.  `dim` and `rating` are not used by the code; the settings `autocheck` and `autoconflicts`
are not used either. -/
structure Settings where
  autocandidates : Bool := true
  autocheck : Bool := false
  autoconflicts : Bool := true
  autoremove : Bool := true
  autoset : Bool := false

/-- Something printed. -/
inductive Event
  | text (s : List Char)
  | view (s : List Char)
  | hint (st : Solvers.Step)
  deriving DecidableEq

/-! ## autofill -/

/-- The variables of `autofill`: the sudoku, `changed` and what has been printed. -/
structure Fill where
  sudoku : Sudoku
  changed : Bool
  out : List Event

/-- A loop whose body may raise. -/
def each (f : Cell → Fill → Fill × Option PyErr) : List Cell → Fill → Fill × Option PyErr
  | [], s => (s, none)
  | a :: l, s => match f a s with
    | (s, some e) => (s, some e)
    | (s, none) => each f l s

/-- shell.py:165-172: removing `value` from the candidates of the fields `l`; the list `coordinates`. -/
def removeFrom (value : Int) : List Cell → Fill → List Cell → Fill × List Cell
  | [], s, coordinates => (s, coordinates)
  | b :: l, s, coordinates =>
    if value ∈ s.sudoku.getCandidates b then
      removeFrom value l { s with sudoku := s.sudoku.removeCandidates b {value}, changed := true } (coordinates ++ [b])
    else removeFrom value l s coordinates

/-- shell.py:162-174: one round of the loop over `sudoku.filled()` (which asks for the number when it comes to a field). The
fields are printed as if the boxes were 3 by 3. -/
def removeStep (verbose : Bool) (a : Cell) (s : Fill) : Fill × Option PyErr :=
  if s.sudoku.get a ≠ 0 then
    let value := s.sudoku.get a
    let (s, coordinates) := removeFrom value (s.sudoku.surroundingOf a false) s []
    if verbose && !coordinates.isEmpty then
      match Notation.encode (coordinates.map Notation.toPair) 3 3 none [','] [] with
      | .error e => (s, some e)
      | .ok t => ({ s with out := s.out ++ [.text ("autoremove: ".toList ++ t ++ "<>".toList ++ Py.intStr value)] }, none)
    else (s, none)
  else (s, none)

/-- shell.py:177-185: one round of the loop over `sudoku.empty()`. -/
def setStep (verbose : Bool) (a : Cell) (s : Fill) : Fill × Option PyErr :=
  if s.sudoku.get a = 0 ∧ (s.sudoku.getCandidates a).card = 1 then
    (Solvers.sortSet (s.sudoku.getCandidates a)).foldl (fun (p : Fill × Option PyErr) value => match p with
      | (s, some e) => (s, some e)
      | (s, none) =>
        let s := { s with sudoku := s.sudoku.setNumber a value }
        if verbose then match Notation.encode [Notation.toPair a] 3 3 none [','] [] with
          | .error e => (s, some e)
          | .ok t => ({ s with out := s.out ++ [.text ("autoset: ".toList ++ t ++ '=' :: Py.intStr value)], changed := true }, none)
        else ({ s with changed := true }, none)) (s, none)
  else (s, none)

/-- shell.py:159-185: one round of the `while` loop. -/
def round (set : Settings) (verbose : Bool) (s : Fill) : Fill × Option PyErr :=
  let s := { s with changed := false }
  match if set.autoremove then each (removeStep verbose) s.sudoku.cells s else (s, none) with
  | (s, some e) => (s, some e)
  | (s, none) => if set.autoset then each (setStep verbose) s.sudoku.cells s else (s, none)

/-- shell.py:156-185 `autofill`, at most `rounds` rounds; `none`: not finished by then. -/
def autofillLoop (set : Settings) (verbose : Bool) : Nat → Fill → Option (Fill × Option PyErr)
  | 0, _ => none
  | rounds + 1, s => match round set verbose s with
    | (s, some e) => some (s, some e)
    | (s, none) => if s.changed then autofillLoop set verbose rounds s else some (s, none)

/-- shell.py:156-185 `autofill`. -/
def autofill (set : Settings) (verbose : Bool) (rounds : Nat) (s : Sudoku) (out : List Event) : Option (Fill × Option PyErr) :=
  autofillLoop set verbose rounds ⟨s, true, out⟩

/-! ## The shell -/

/-- shell.py:25-56: the attributes.  `hints` is the address of the sudoku given to `hints()` and the number of hints already
taken; `hinted` is the address of `hinted_sudoku`. -/
structure State where
  heap : List Sudoku
  sudokus : List Nat
  index : Nat
  solution : Sudoku
  hints : Option (Nat × Nat)
  hinted : Option Nat
  out : List Event

/-- How `run` may end: an uncaught exception, no more input (`EOFError`), or not at all (`autofill` does not come back). -/
inductive Ending
  | crash (e : PyErr)
  | eof
  | hangs
  deriving DecidableEq

/-- Objects of the program. -/
def State.at (s : State) (k : Nat) : Sudoku := s.heap.getD k (Sudoku.new 0 0)

/-- The address `self.sudokus[self.index]` (see `C53_step` for the index). -/
def State.cur (s : State) : Nat := s.sudokus.getD s.index 0

/-- shell.py:86-87 `line.split()[0]`. -/
def firstWord (line : List Char) : Option (List Char) :=
  match line.dropWhile Py.isSpace with
  | [] => none
  | l => some (l.takeWhile fun c => !Py.isSpace c)

/-- The steps the generator `hints(s)` yields, `s` being left alone (the generator's state: the sudoku and what it has yielded,
each step with the sudoku at that time). -/
def hintList (π : Solvers.Orders (Sudoku × List (Sudoku × Solvers.Step))) (s : Sudoku) : List Solvers.Step :=
  (Solvers.hints Prod.fst (fun w st => (w.1, w.2 ++ [(w.1, st)])) π (s, [])).2.map Prod.snd

/-- shell.py:93-96: the hint, once the generator is there. -/
def nextHint (π : Nat → Solvers.Orders (Sudoku × List (Sudoku × Solvers.Step))) (s : State) : State :=
  match s.hints with
  | none => s
  | some (k, i) => match (hintList (π k) (s.at k))[i]? with
    | some st => { s with hints := some (k, i + 1), out := s.out ++ [.hint st] }
    | none => { s with out := s.out ++ [.text "No more hints available.".toList] }

/-- shell.py:90: `self.hints is None or self.hinted_sudoku != sudoku`. -/
def fresh (k : Nat) (s : State) : Bool :=
  match s.hints, s.hinted with
  | some _, some h => !(s.at h).eq (s.at k)
  | _, _ => true

/-- shell.py:89-96: command "hint"; `k` is the address of `sudoku`. -/
def hint (π : Nat → Solvers.Orders (Sudoku × List (Sudoku × Solvers.Step))) (k : Nat) (s : State) : State :=
  nextHint π (if fresh k s then
    { s with heap := s.heap ++ [(s.at k).copy true], hinted := some s.heap.length, hints := some (k, 0) } else s)

/-- Texts that may raise. -/
def texts {α : Type} (f : α → Except PyErr (List Char)) : List α → Except PyErr (List (List Char))
  | [] => .ok []
  | x :: l => match f x with
    | .error e => .error e
    | .ok t => match texts f l with
      | .error e => .error e
      | .ok ts => .ok (t :: ts)

/-- `encode((a,), sudoku.box_width, sudoku.box_height)`. -/
def fieldText (x : Sudoku) (a : Cell) : Except PyErr (List Char) := Notation.encode [Notation.toPair a] x.bw x.bh none [','] []

/-- shell.py:100-107: the conflicts without those listed before; `{a, b}, v` is compared. -/
def listConflicts (x : Sudoku) : List (Cell × Cell × Int) :=
  (Solve.findConflicts x).foldl (fun listed p =>
    if listed.any fun q => q.2.2 = p.2.2 ∧ ((q.1 = p.1 ∧ q.2.1 = p.2.1) ∨ (q.1 = p.2.1 ∧ q.2.1 = p.1)) then listed else listed ++ [p]) []

/-- shell.py:109-114. -/
def conflictText (x : Sudoku) (p : Cell × Cell × Int) : Except PyErr (List Char) :=
  match fieldText x p.1 with
  | .error e => .error e
  | .ok t => match fieldText x p.2.1 with
    | .error e => .error e
    | .ok u => .ok ("[F]".toList ++ t ++ " = ".toList ++ u ++ " = ".toList ++ Py.intStr p.2.2)

/-- shell.py:123-125: the fields reported by "check". -/
def wrongFields (x solution : Sudoku) : List Cell := x.cells.filter fun a => x.get a != 0 && x.get a != solution.get a

/-- shell.py:126-129. -/
def checkText (x : Sudoku) (a : Cell) : Except PyErr (List Char) :=
  match fieldText x a with
  | .error e => .error e
  | .ok t => .ok ("[F] ".toList ++ t ++ " = ".toList ++ Py.intStr (x.get a))

/-- Lines printed one after the other (all of them, or an exception; what is printed before an exception is not kept). -/
def printAll (r : Except PyErr (List (List Char))) (s : State) : State × Option Ending :=
  match r with
  | .error e => (s, some (.crash e))
  | .ok ts => ({ s with out := s.out ++ ts.map .text }, none)

/-- shell.py:146-147: "Unknown command". -/
def unknown (line : List Char) (s : State) : State × Option Ending :=
  ({ s with out := s.out ++ [.text ("Unknown command '".toList ++ line ++ "'".toList)] }, none)

/-- shell.py:141-147: any other line; `k` is the address of `sudoku`. -/
def act (set : Settings) (rounds : Nat) (line : List Char) (k : Nat) (s : State) : State × Option Ending :=
  match Notation.decodeAction line (s.at k).bw (s.at k).bh with
  | .error .ValueError => unknown line s
  | .error e => (s, some (.crash e))
  | .ok action => match Actions.call action (s.at k) with
    | (x, .error .ValueError) => unknown line { s with heap := s.heap.set k x }
    | (x, .error e) => ({ s with heap := s.heap.set k x }, some (.crash e))
    | (x, .ok ()) => match autofill set true rounds x s.out with
      | none => (s, some .hangs)
      | some (r, none) => ({ s with heap := s.heap.set k r.sudoku, out := r.out }, none)
      | some (r, some .ValueError) => unknown line { s with heap := s.heap.set k r.sudoku, out := r.out }
      | some (r, some e) => ({ s with heap := s.heap.set k r.sudoku, out := r.out }, some (.crash e))

/-- shell.py:149-154: keeping the new sudoku (at address `k`), if anything changed. -/
def record (k : Nat) (s : State) : State :=
  if (s.at k).equals (s.at s.cur) true then s
  else { s with sudokus := s.sudokus.take (s.index + 1) ++ [k], index := s.index + 1 }

/-- shell.py:89-147: the commands; `k` is the address of `sudoku`.  "settings" always fails, as the values in
`self.settings` are no pairs. -/
def dispatch (set : Settings) (π : Nat → Solvers.Orders (Sudoku × List (Sudoku × Solvers.Step))) (rounds : Nat) (line word : List Char) (k : Nat)
    (s : State) : State × Option Ending :=
  if word = "hint".toList then (hint π k s, none)
  else if word = "candidates".toList then ({ s with heap := s.heap.set k (Solve.initCandidates (s.at k)) }, none)
  else if word = "conflicts".toList then printAll (texts (conflictText (s.at k)) (listConflicts (s.at k))) s
  else if word = "settings".toList then (s, some (.crash .TypeError))
  else if word = "check".toList then printAll (texts (checkText (s.at k)) (wrongFields (s.at k) s.solution)) s
  else if word = "undo".toList then
    (if s.index = 0 then { s with out := s.out ++ [.text "Nothing to undo.".toList] } else { s with index := s.index - 1 }, none)
  else if word = "redo".toList then
    (if s.index + 1 = s.sudokus.length then { s with out := s.out ++ [.text "Nothing to redo.".toList] }
      else { s with index := s.index + 1 }, none)
  else act set rounds line k s

/-- shell.py:82-154: one round of the loop of `run` for the line returned by `input()`. -/
def step (set : Settings) (π : Nat → Solvers.Orders (Sudoku × List (Sudoku × Solvers.Step))) (rounds : Nat) (line : List Char) (s : State) :
    State × Option Ending :=
  let k := s.heap.length
  let s := { s with heap := s.heap ++ [(s.at s.cur).copy true] }
  match Codec.view (s.at k) true ['*'] true with
  | .error e => (s, some (.crash e))
  | .ok t =>
    let s := { s with out := s.out ++ [.view t] }
    match firstWord line with
    | none => (s, some (.crash .IndexError))
    | some word => match dispatch set π rounds line word k s with
      | (s, some e) => (s, some e)
      | (s, none) => (if word = "undo".toList ∨ word = "redo".toList then s else record k s, none)

/-- shell.py:81-154: the loop of `run` (nothing ever sets `self.running`). -/
def run (set : Settings) (π : Nat → Solvers.Orders (Sudoku × List (Sudoku × Solvers.Step))) (rounds : Nat) : List (List Char) → State → State × Ending
  | [], s => (s, .eof)
  | line :: input, s => match step set π rounds line s with
    | (s, some e) => (s, e)
    | (s, none) => run set π rounds input s

/-- shell.py:58-71 `new_sudoku`: `generated` is the result of `generate()`, `solution` the one of `next(bruteforce(...))`. -/
def newSudoku (set : Settings) (rounds : Nat) (generated solution : Sudoku) : Option (State × Option PyErr) :=
  let state := fun x => { heap := [x], sudokus := [0], index := 0, solution, hints := none, hinted := none, out := [] }
  if set.autocandidates then
    match autofill set false rounds (Solve.initCandidates generated) [] with
    | none => none
    | some (r, e) => some (state r.sudoku, e)
  else some (state (Solve.initCandidates generated true), none)

/-- shell.py:58-71 `new_sudoku` as a whole: `generated` is the outcome of `generate()`; `none`: one of the functions did not finish.
`fuel` limits the recursion of `bruteforce`. -/
def newGame (set : Settings) (π : Solve.SetOrder) (ρ : Solvers.Orders Solvers.Run) (fuel rounds : Nat) (generated : Except PyErr (Option Sudoku)) :
    Option (Except PyErr State) :=
  match generated with
  | .error e => some (.error e)
  | .ok none => none
  | .ok (some x) => match Solve.bruteforce π fuel x with
    | none => none
    | some [] => some (.error .StopIteration)
    | some (solution :: _) => match Solvers.rate ρ fuel rounds x with
      | .error e => some (.error e)
      | .ok none => none
      | .ok (some r) => match newSudoku set rounds x solution with
        | none => none
        | some (_, some e) => some (.error e)
        | some (s, none) =>
          some (.ok { s with out := .text ("Generating new sudoku. Rating: ".toList ++ Py.intStr r ++ "/10".toList) :: s.out })

end Game
