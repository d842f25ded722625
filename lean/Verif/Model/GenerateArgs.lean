import Verif.Model.ShellLib

set_option autoImplicit false

/-!
# `sudokutools/generate.py`: arguments of any kind

`generate` and `generate_from_template` do not check the types of their arguments; what happens is decided by the built-in operations they use.  Here the
arguments are any of the values of `Model/PyValues.lean` or one of the named tuples the shell passes.
-/

open Spec ErrorText

namespace GenerateArgs

open Shell

/-- `v[i]` for the index `i >= 0`: `TypeError` for objects without items, sets among them; `IndexError` if there is no such item.  The named tuples have
one item, a string. -/
def item (i : Nat) : Arg Val → Except PyErr Val
  | .value (.str s) => match s[i]? with
    | some c => .ok (.str [c])
    | none => .error .IndexError
  | .value (.ints .set _) => .error .TypeError
  | .value (.ints _ l) => match l[i]? with
    | some k => .ok (.int k)
    | none => .error .IndexError
  | .value .none | .value (.bool _) | .value (.int _) => .error .TypeError
  | .command s | .keyword s => match i with
    | 0 => .ok (.str s)
    | _ + 1 => .error .IndexError

/-- `v ** 2`: `TypeError` unless `v` is a number (only integers and booleans are modelled). -/
def square : Val → Except PyErr Int
  | .int k => .ok (k ^ 2)
  | .bool b => .ok (if b then 1 else 0)
  | _ => .error .TypeError

/-- An integer to compare with; `True` is 1 and `False` is 0.  Everything else raises `TypeError` in `v > k` and `k < v`. -/
def number : Arg Val → Except PyErr Int
  | .value (.int k) => .ok k
  | .value (.bool b) => .ok (if b then 1 else 0)
  | _ => .error .TypeError

/-- generate.py:83: `box_size[0] ** 2 * box_size[1] ** 2`, from left to right. -/
def countLimit (box : Arg Val) : Except PyErr Int :=
  match item 0 box with
  | .error e => .error e
  | .ok a => match square a with
    | .error e => .error e
    | .ok p => match item 1 box with
      | .error e => .error e
      | .ok b => match square b with
        | .error e => .error e
        | .ok q => .ok (p * q)

/-- generate.py:88-92: `SYMMETRY[symmetry]`.  Lists and sets are not hashable (`TypeError`); other objects than `None` and strings are no keys. -/
def symmetryKey : Arg Val → Except Exn (Option String)
  | .value (.ints .list _) | .value (.ints .set _) => .error ⟨.TypeError, .builtin⟩
  | .value .none => .ok none
  | .value (.str t) => match Generate.Sym.lookup (some (String.ofList t)) with
    | some _ => .ok (some (String.ofList t))
    | none => valueError ("symmetry must be one of ".toList ++ symmetryNames)
  | _ => valueError ("symmetry must be one of ".toList ++ symmetryNames)

/-- sudoku.py:60-61, generate.py:47-50: `Sudoku(box_size)` unpacks two numbers (`ValueError` if there are more), `choice` of an empty range raises
`IndexError`. -/
def sizes : Arg Val → Except PyErr (Nat × Nat)
  | .value (.ints _ [w, h]) => if h ≤ 0 then .error .IndexError else if w ≤ 0 then .error .IndexError else .ok (w.toNat, h.toNat)
  | _ => .error .ValueError

/-- generate.py:83-92 and what `create_solution` makes of `box_size`: the arguments of `generate` as numbers and a key. -/
def check (minCount symmetry box : Arg Val) : Except Exn (Int × Option String × Nat × Nat) :=
  match countLimit box with
  | .error e => .error ⟨e, .builtin⟩
  | .ok limit => match number minCount with
    | .error e => .error ⟨e, .builtin⟩
    | .ok m =>
      if m > limit then
        valueError ("min_count must be <= ".toList ++ Py.intStr limit ++ " (".toList ++ Py.intStr m ++ " was given).".toList)
      else match symmetryKey symmetry with
        | .error e => .error e
        | .ok sym => match sizes box with
          | .error e => .error ⟨e, .builtin⟩
          | .ok (w, h) => .ok (m, sym, w, h)

/-- generate.py:60-122 `generate(min_count, symmetry, box_size)`; the random outcomes may depend on the size. -/
def generate (env : (w h : Nat) → 0 < w → 0 < h → Generate.Env w h) (minCount symmetry box : Arg Val) : Except Exn (Option Sudoku) :=
  match check minCount symmetry box with
  | .error e => .error e
  | .ok (m, sym, w, h) => if hw : 0 < w then if hh : 0 < h then envGenerate (env w h hw hh) m sym else .error ⟨.IndexError, .builtin⟩
    else .error ⟨.IndexError, .builtin⟩

/-- generate.py:181, 195: `generate_from_template(template, tries)`; the first comparison is `0 < tries`. -/
def generateFromTemplate (fuel rounds : Nat) (f : Nat → Generate.Try) (template : Sudoku) (tries : Arg Val) : Except Exn (Option Sudoku) :=
  match number tries with
  | .error e => .error ⟨e, .builtin⟩
  | .ok k => ErrorText.generateFromTemplate fuel rounds f template k

end GenerateArgs
