import Verif.Model.GenerateArgs

set_option autoImplicit false

/-!
# `Sudoku(box_size)` and `create_solution(box_size)`: arguments of any kind

As in Model/GenerateArgs.lean nothing is checked; the built-in operations decide.  Besides the values of Model/PyValues.lean and the named tuples of the
shell dictionaries are considered, since the handler for `KeyError` is made for them.
-/

open Spec ErrorText Shell

namespace NewArgs

/-- A value for `box_size`: one of those the shell can pass, or a dictionary from integers to integers, the keys in the order in which they were added. -/
inductive Box
  | arg (a : Arg Val)
  | dict (l : List (Int × Int))

/-- `tuple(x)`: `TypeError` if `x` cannot be iterated over.  The elements of a set are all different (in some order, which does not matter here). -/
def elements : Box → Except PyErr (List Val)
  | .arg (.value .none) | .arg (.value (.bool _)) | .arg (.value (.int _)) => .error .TypeError
  | .arg (.value (.str s)) => .ok (s.map fun c => .str [c])
  | .arg (.value (.ints .set l)) => .ok (l.dedup.map .int)
  | .arg (.value (.ints _ l)) => .ok (l.map .int)
  | .arg (.command s) | .arg (.keyword s) => .ok [.str s]
  | .dict l => .ok (l.map fun p => .int p.1)

/-- `x[i]`. -/
def subscript (i : Nat) : Box → Except PyErr Val
  | .arg a => GenerateArgs.item i a
  | .dict l => match l.lookup (i : Int) with
    | some v => .ok (.int v)
    | none => .error .KeyError

/-- `range(a * b)`, its length: `TypeError` for two strings.  (All elements are of the same kind.) -/
def rangeLength : Val → Val → Except PyErr Nat
  | .int a, .int b => .ok (a * b).toNat
  | _, _ => .error .TypeError

/-- A new instance: `box_width`, `box_height`, and the length of `indices` (all numbers are 0, all candidates are empty). -/
structure Made where
  width : Int
  height : Int
  size : Nat
  deriving DecidableEq, Repr

/-- sudoku.py:59-62: the body of the `try` statement. -/
def body (x : Box) : Except PyErr Made :=
  match elements x with
  | .error e => .error e
  | .ok [a, b] => match subscript 0 x with
    | .error e => .error e
    | .ok p => match subscript 1 x with
      | .error e => .error e
      | .ok q => match rangeLength p q with
        | .error e => .error e
        | .ok n => match a, b with
          | .int w, .int h => .ok ⟨w, h, n⟩
          | _, _ => .error .TypeError
  | .ok _ => .error .ValueError

/-- `"%s" % x`; only needed for dictionaries (C125_handler). -/
def shown : Box → List Char
  | .arg _ => []
  | .dict l => '{' :: Py.join ", ".toList (l.map fun p => Py.intStr p.1 ++ ": ".toList ++ Py.intStr p.2) ++ ['}']

/-- sudoku.py:51-67 `Sudoku(box_size)`. -/
def new (x : Box) : Except Exn Made :=
  match body x with
  | .error .IndexError | .error .KeyError => valueError ("Invalid sudoku box_size: ".toList ++ shown x)
  | .error e => .error ⟨e, .builtin⟩
  | .ok m => .ok m

/-- sudoku.py:203-209 `__len__` of a new instance. -/
def Made.len (m : Made) : Int := m.width ^ 2 * m.height ^ 2

/-- sudoku.py:69-75 `__iter__`: the number of fields of a new instance. -/
def Made.fields (m : Made) : Nat := m.size * m.size

/-- generate.py:36-57 `create_solution(box_size)`; `choice` of an empty range raises `IndexError`.  Where both sizes are positive there are
`width * height` indices (C125_size), so that it is `Generate.createSolution`. -/
def createSolution (env : (w h : Nat) → 0 < w → 0 < h → Generate.Env w h) (x : Box) : Except Exn Sudoku :=
  match new x with
  | .error e => .error e
  | .ok m => if hh : 0 < m.height.toNat then
      if hw : 0 < m.width.toNat then
        let e := env m.width.toNat m.height.toNat hw hh
        builtin (Generate.createSolution e.π e.fuel e.c m.width.toNat m.height.toNat)
      else .error ⟨.IndexError, .builtin⟩
    else .error ⟨.IndexError, .builtin⟩

end NewArgs
