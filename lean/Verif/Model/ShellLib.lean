import Verif.Model.PyValues
import Verif.Model.Codec
import Verif.Model.Solve
import Verif.Model.Actions
import Verif.Model.Generate
import Verif.Model.ErrorText

set_option autoImplicit false

/-!
# `sudokutools/shell.py`: the library functions behind the commands

`Real lib val π fuel` says what `lib` does with the values of `Model/PyValues.lean` (`val v` is the Python object), as far as the function is modelled
for them.  For other arguments (for example numbers of fields that are no integers) it says nothing; the theorems in
`Props/Shell.lean` and `Props/ShellRun.lean` hold whatever the functions make of them.
-/

open Spec

namespace Shell

variable {ν ω : Type}

/-- The argument as an object. -/
def Arg.map (val : Val → ν) : Arg Val → Arg ν
  | .value v => .value (val v)
  | .command s => .command s
  | .keyword s => .keyword s

/-- The keyword arguments as objects. -/
def kwMap (val : Val → ν) (kwargs : List (List Char × Val)) : List (List Char × ν) := kwargs.map fun p => (p.1, val p.2)

/-- Arguments that are integers. -/
def intArgs (val : Val → ν) (ks : List Int) : List (Arg ν) := ks.map fun k => .value (val (.int k))

/-- `bool(x)`; named tuples with one element are true. -/
def Arg.truth : Arg Val → Bool
  | .value v => v.truth
  | _ => true

/-- A result, or the exception. -/
def ofText : Except PyErr (List Char) → Except PyErr (Result Sudoku)
  | .ok t => .ok (.text t)
  | .error e => .error e

/-- sudoku.py:51-67 `Sudoku(box_size)`.  `tuple(x)` raises `TypeError` for `None`, booleans and integers; unpacking raises `ValueError` unless there
are two elements; strings cannot be multiplied, sets have no `box_size[0]`. Not modelled: negative sizes. -/
def newFn : Arg Val → Option (Except PyErr Sudoku)
  | .value .none | .value (.bool _) | .value (.int _) => some (.error .TypeError)
  | .value (.str s) => some (.error (if s.length = 2 then .TypeError else .ValueError))
  | .value (.ints .set l) => some (.error (if l.dedup.length = 2 then .TypeError else .ValueError))
  | .value (.ints _ [w, h]) => if 0 ≤ w ∧ 0 ≤ h then some (.ok (Sudoku.new w.toNat h.toNat)) else none
  | .value (.ints _ _) => some (.error .ValueError)
  | .command _ | .keyword _ => some (.error .ValueError)

/-- sudoku.py:291: the arguments of `decode` other than `s`, as far as they are modelled: strings, `empty` a single character below 256. -/
def decodeArgs : List (Arg Val) → Option Codec.Args
  | [.value (.str [c]), .value numberSep, .value (.str sudokuSep), .value (.str candidateSep), .value boxSize] =>
    if 256 ≤ c.toNat then none
    else match (match numberSep with | .none => some [] | .str t => some t | _ => none),
      (match boxSize with
        | .none => some none
        | .ints .set _ => none
        | .ints _ [w, h] => if 0 ≤ w ∧ 0 ≤ h then some (some (w.toNat, h.toNat)) else none
        | _ => none) with
      | some numberSep, some boxSize =>
        some { empty := [c], numberSep, sudokuSep, candidateSep, boxSize, same := fun item => decide (item = [c]) }
      | _, _ => none
  | _ => none

/-- sudoku.py:290-430 `decode`; `s.strip()` is an `AttributeError` unless `s` is a string. -/
def decodeFn : List (Arg Val) → Option (Except ErrorText.Exn Sudoku)
  | .value (.str s) :: rest => (decodeArgs rest).map fun p => ErrorText.decodeSudoku p s
  | _ :: _ => some (.error ⟨.AttributeError, .builtin⟩)
  | [] => none

/-- A result, or the exception. -/
def ofSudoku : Except ErrorText.Exn Sudoku → Except ErrorText.Exn (Result Sudoku)
  | .ok x => .ok (.sudoku x)
  | .error e => .error e

/-- The functions of `COMMANDS` without a sudoku (but with all arguments), except `generate`: `Sudoku`, `Sudoku.decode`, and `clear` (shell.py:278-287; the
terminal is not modelled). -/
def createFn : Name → List (Arg Val) → Option (Except ErrorText.Exn (Result Sudoku))
  | .new, [b] => (newFn b).map fun r => ofSudoku (ErrorText.builtin r)
  | .decode, args => (decodeFn args).map ofSudoku
  | .clear, [] => some (.ok .none)
  | _, _ => none

/-- sudoku.py:231-240: `self.__candidates[row][col] = frozenset(value)`, the right side first. -/
def setCandidatesFn (x : Sudoku) (r c : Int) : Val → Option (Sudoku × Except PyErr (Result Sudoku))
  | .ints _ l => some (match Actions.locate x (r, c) with
    | .ok a => (x.setCandidates a l.toFinset, .ok .none)
    | .error e => (x, .error e))
  | .none | .bool _ | .int _ => some (x, .error .TypeError)
  | .str _ => none

/-- sudoku.py:242-252: `self.__candidates[row][col] -= set(value)`, the left side first. -/
def removeCandidatesFn (x : Sudoku) (r c : Int) : Val → Option (Sudoku × Except PyErr (Result Sudoku))
  | .ints _ l => some (match Actions.locate x (r, c) with
    | .ok a => (x.removeCandidates a l.toFinset, .ok .none)
    | .error e => (x, .error e))
  | .none | .bool _ | .int _ => some (x, match Actions.locate x (r, c) with
    | .ok _ => .error .TypeError
    | .error e => .error e)
  | .str _ => none

/-- The functions of `COMMANDS` with a sudoku and all their other arguments, except `generate_from_template` (the exceptions are all made by built-in operations): sudoku.py:164-170, 211-288, 541-648,
solve.py:45-61, shell.py:524-526 (`next(bruteforce(sudoku))`). -/
def callFn (π : Solve.SetOrder) (fuel : Nat) (x : Sudoku) : Name → List (Arg Val) → Option (Sudoku × Except PyErr (Result Sudoku))
  | .get, [.value (.int r), .value (.int c)] | .getCandidates, [.value (.int r), .value (.int c)] =>
    some (x, match Actions.locate x (r, c) with | .ok _ => .ok .other | .error e => .error e)
  | .set, [.value (.int r), .value (.int c), .value (.int v)] =>
    some (match Actions.locate x (r, c) with | .ok a => (x.setNumber a v, .ok .none) | .error e => (x, .error e))
  | .setCandidates, [.value (.int r), .value (.int c), .value v] => setCandidatesFn x r c v
  | .removeCandidates, [.value (.int r), .value (.int c), .value v] => removeCandidatesFn x r c v
  | .initCandidates, [f] => some (Solve.initCandidates x f.truth, .ok .none)
  | .encode, [.value (.str rowSep), .value (.str colSep), f] => some (x, .ok (.text (Codec.encode x rowSep colSep f.truth)))
  | .print, [] => some (x, ofText (Codec.str x))
  | .view, [f, _, .value (.str prefix_), right] => some (x, ofText (Codec.view x f.truth prefix_ right.truth))
  | .solve, [] => some (x, match Solve.bruteforce π fuel x with
    | none => .error .RecursionError
    | some [] => .error .StopIteration
    | some (t :: _) => .ok (.sudoku t))
  | _, _ => none

/-- shell.py:235-249 (`literal_eval`), 325 (`Sudoku()`), 504 (`copy`), 345 (the call), and shell.py:530-563 (`COMMANDS`). -/
structure Real (lib : Lib Sudoku ν ω) (val : Val → ν) (π : Solve.SetOrder) (fuel : Nat) : Prop where
  literal' : ∀ t v, literalEval t = some v → lib.literal t = .ok (val v)
  toInt' : ∀ v, lib.toInt (val v) = v.toInt
  isNone' : ∀ v, lib.isNone (val v) = decide (v = .none)
  isEnd' : ∀ v, lib.isEnd (val v) = false
  str' : ∀ t, lib.str (val (.str t)) = t
  fresh : lib.fresh = Sudoku.new 3 3
  copy : ∀ x, lib.copy x = x.copy true
  createError : ∀ n args kwargs u e, n.takesSudoku = false → bindCommand n args kwargs = .error e →
    lib.create n (args.map (Arg.map val)) (kwMap val kwargs) u = (u, .error ⟨e, .builtin⟩)
  create : ∀ n args kwargs u vs r, n.takesSudoku = false → bindCommand n args kwargs = .ok vs → createFn n vs = some r →
    lib.create n (args.map (Arg.map val)) (kwMap val kwargs) u = (u, r)
  callError : ∀ n args kwargs x u e, n.takesSudoku = true → bindCommand n args kwargs = .error e →
    lib.call n (args.map (Arg.map val)) (kwMap val kwargs) x u = (x, u, .error ⟨e, .builtin⟩)
  call : ∀ n args kwargs x u vs y r, n.takesSudoku = true → bindCommand n args kwargs = .ok vs → callFn π fuel x n vs = some (y, r) →
    lib.call n (args.map (Arg.map val)) (kwMap val kwargs) x u = (y, u, ErrorText.builtin r)

/-- generate.py:60-122: the arguments of `generate`, as far as they are modelled. -/
def generateArgs : List (Arg Val) → Option (Int × Option String × Nat × Nat)
  | [.value (.int m), .value sym, .value (.ints kind [w, h])] =>
    if kind = .set ∨ w ≤ 0 ∨ h ≤ 0 then none
    else match sym with
      | .none => some (m, none, w.toNat, h.toNat)
      | .str t => some (m, some (String.ofList t), w.toNat, h.toNat)
      | _ => none
  | _ => none

/-- What `generate` returned. -/
def ofGenerated : Except ErrorText.Exn (Option Sudoku) → Except ErrorText.Exn (Result Sudoku)
  | .error e => .error e
  | .ok none => .error ⟨.RecursionError, .builtin⟩
  | .ok (some x) => .ok (.sudoku x)

/-- shell.py:533-534: `generate(min_count, symmetry, box_size)` and `generate_from_template(sudoku, tries)` (for `tries >= 0`, where it ends); every time there are
some random outcomes. -/
structure RealGenerate (lib : Lib Sudoku ν ω) (val : Val → ν) : Prop where
  generate' : ∀ args kwargs u vs m sym w h, bindCommand .generate args kwargs = .ok vs → generateArgs vs = some (m, sym, w, h) →
    ∃ (e : Generate.Env w h) (u' : ω), lib.create .generate (args.map (Arg.map val)) (kwMap val kwargs) u = (u', ofGenerated (ErrorText.envGenerate e m sym))
  template : ∀ args kwargs x u (tries : Int), bindCommand .generateFromTemplate args kwargs = .ok [.value (.int tries)] → 0 ≤ tries →
    0 < x.bw → 0 < x.bh → ∃ (e : Generate.TryEnv x) (rounds : Nat) (u' : ω), tries < rounds ∧
      lib.call .generateFromTemplate (args.map (Arg.map val)) (kwMap val kwargs) x u =
        (x, u', ofGenerated (ErrorText.generateFromTemplate e.fuel rounds e.f x tries))

end Shell
