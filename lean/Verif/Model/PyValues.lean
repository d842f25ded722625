import Verif.Model.Shell

set_option autoImplicit false

/-!
# Python values in the shell: literals, and how arguments are bound to parameters

This models CPython (`ast.literal_eval`, calls), not lines of /repo, except for `signature`.
-/

namespace Shell

/-- The kind of a collection. -/
inductive Kind | tuple | list | set
  deriving DecidableEq, Repr

/-- The values that are modelled: `None`, booleans, integers, strings, and collections of integers. -/
inductive Val
  | none
  | bool (b : Bool)
  | int (k : Int)
  | str (s : List Char)
  | ints (kind : Kind) (l : List Int)
  deriving DecidableEq, Repr

/-- `bool(v)`. -/
def Val.truth : Val → Bool
  | .none => false
  | .bool b => b
  | .int k => k != 0
  | .str s => !s.isEmpty
  | .ints _ l => !l.isEmpty

/-- `int(v)`. -/
def Val.toInt : Val → Except PyErr Int
  | .none => .error .TypeError
  | .bool b => .ok (if b then 1 else 0)
  | .int k => .ok k
  | .str s => Py.int s
  | .ints _ _ => .error .TypeError

/-- A decimal integer as `str` writes it. -/
def litInt (t : List Char) : Option Int := match Py.int t with
  | .ok k => if Py.intStr k = t then some k else none
  | .error _ => none

/-- All of them, or none. -/
def litAll : List (List Char) → Option (List Int)
  | [] => some []
  | t :: l => match litInt t, litAll l with
    | some k, some ks => some (k :: ks)
    | _, _ => none

/-- Such integers separated by commas. -/
def litInts (t : List Char) : Option (List Int) := if t = [] then some [] else litAll (Py.splitGo [','] t 0 [])

/-- What stands between the characters `a` and `b`. -/
def inside (a b : Char) : List Char → Option (List Char)
  | [] => none
  | c :: r => if c = a ∧ r.getLast? = some b then some r.dropLast else none

/-- A text between quotation marks `q`, without these, backslashes and line ends. -/
def litStr (q : Char) (t : List Char) : Option (List Char) := match inside q q t with
  | some s => if s.all fun c => c != q && c != '\\' && c != '\n' && c != '\r' && c.toNat != 0 then some s else none
  | none => none

/-- A collection of at least `n` integers between brackets. -/
def litColl (a b : Char) (kind : Kind) (n : Nat) (t : List Char) : Option Val := match inside a b t with
  | none => none
  | some t => match litInts t with
    | none => none
    | some l => if n ≤ l.length then some (.ints kind l) else none

/-- `literal_eval(t)`, where it is modelled: the texts `None`, `True`, `False`, integers, strings without escapes, and tuples
(also without parentheses), lists and sets of integers without blanks. -/
def literalEval (t : List Char) : Option Val :=
  if t = "None".toList then some .none
  else if t = "True".toList then some (.bool true)
  else if t = "False".toList then some (.bool false)
  else match litStr '"' t with
  | some s => some (.str s)
  | none => match litStr '\'' t with
  | some s => some (.str s)
  | none => match litColl '(' ')' .tuple 2 t with
  | some v => some v
  | none => match litColl '[' ']' .list 0 t with
  | some v => some v
  | none => match litColl '{' '}' .set 1 t with
  | some v => some v
  | none => match litInts t with
  | some [k] => some (.int k)
  | some (k :: l) => some (.ints .tuple (k :: l))
  | _ => none

/-- The argument for a parameter that is not given by position. -/
def valueFor {α : Type} (kwargs : List (List Char × α)) (name : List Char) (dflt : Option α) : Option α :=
  match kwargs.find? (fun p => p.1 = name) with
  | some p => some p.2
  | none => dflt

/-- The arguments for the parameters that are not given by position: by name, or by default. -/
def fill {α : Type} (kwargs : List (List Char × α)) : List (List Char × Option α) → Except PyErr (List α)
  | [] => .ok []
  | (name, dflt) :: sig => match valueFor kwargs name dflt with
    | none => .error .TypeError
    | some v => match fill kwargs sig with
      | .error e => .error e
      | .ok vs => .ok (v :: vs)

/-- A call `f(*args, **kwargs)`: the values of the parameters in their order; `TypeError` for too many arguments, unknown names, names
whose parameter is already given by position, and missing arguments. -/
def bindArgs {α : Type} (sig : List (List Char × Option α)) (args : List α) (kwargs : List (List Char × α)) : Except PyErr (List α) :=
  if sig.length < args.length then .error .TypeError
  else if kwargs.any fun p => !((sig.drop args.length).map Prod.fst).contains p.1 then .error .TypeError
  else match fill kwargs (sig.drop args.length) with
    | .error e => .error e
    | .ok vs => .ok (args ++ vs)

/-- shell.py:530-563 with sudoku.py:51, 164, 211-254, 291, 541-544, generate.py:60, 125, solve.py:45, shell.py:278, 425-524: the parameters and defaults of
the functions in `COMMANDS`, without those that `execute` (or the class) provides: `self`, `cls`, `sudoku`, `template`.  Using the name of one
of these is a `TypeError`, as for names that do not exist. -/
def signature : Name → List (List Char × Option Val)
  | .new => [("box_size".toList, some (.ints .tuple [3, 3]))]
  | .generate => [("min_count".toList, some (.int 0)), ("symmetry".toList, some .none), ("box_size".toList, some (.ints .tuple [3, 3]))]
  | .generateFromTemplate => [("tries".toList, some (.int 100))]
  | .decode => [("s".toList, none), ("empty".toList, some (.str ['0'])), ("number_sep".toList, some .none),
      ("sudoku_sep".toList, some (.str ['|'])), ("candidate_sep".toList, some (.str [','])), ("box_size".toList, some .none)]
  | .get | .getCandidates => [("row".toList, none), ("col".toList, none)]
  | .set | .setCandidates | .removeCandidates => [("row".toList, none), ("col".toList, none), ("value".toList, none)]
  | .initCandidates => [("filled_only".toList, some (.bool false))]
  | .encode => [("row_sep".toList, some (.str [])), ("col_sep".toList, some (.str [])), ("include_candidates".toList, some (.bool false))]
  | .view => [("include_candidates".toList, some (.bool true)), ("number_sep".toList, some .none),
      ("candidate_prefix".toList, some (.str ['*'])), ("align_right".toList, some (.bool true))]
  | .print | .clear | .solve | .stack | .push | .exit => []
  | .loop => [(['n'], none)]
  | .pop => [("position".toList, some .none)]
  | .help => [("command".toList, some .none), ("verbose".toList, some (.bool true))]

/-- The same for arguments that may be commands or keywords. -/
def signatureArgs (n : Name) : List (List Char × Option (Arg Val)) := (signature n).map fun p => (p.1, p.2.map .value)

/-- The arguments of a command, bound. -/
def bindCommand (n : Name) (args : List (Arg Val)) (kwargs : List (List Char × Val)) : Except PyErr (List (Arg Val)) :=
  bindArgs (signatureArgs n) args (kwargs.map fun p => (p.1, .value p.2))

end Shell
