import Verif.Model.ShellLib
import Verif.Model.Store

set_option autoImplicit false

/-!
# `sudokutools/shell.py`: `signature_str` and `help_command`

`inspect.getargspec` exists up to Python 3.10 (later versions raise `AttributeError` for every `help` with a command); it is modelled for Python 3, where only
`Sudoku.decode` (a class method) is a method.  The documentation strings are a parameter.
-/

namespace Shell

/-- What `inspect` tells about a function: the names of all its parameters, the `repr` of the defaults of the last ones (`None` is modelled
as no defaults), and whether it is a (bound) method. -/
structure Func where
  args : List (List Char)
  defaults : List (List Char)
  isMethod : Bool := false

/-- shell.py:205-207: the parameters that are shown. -/
def Func.shown (f : Func) : List (List Char) := if f.isMethod then f.args.drop 1 else f.args

/-- shell.py:208-213: the text for the parameter number `i` of `n`. -/
def sigItem (defaults : List (List Char)) (n i : Nat) (name : List Char) : Except PyErr (List Char) :=
  if defaults ≠ [] ∧ (n : Int) - defaults.length ≤ i then
    match Store.pyGet defaults ((i : Int) - defaults.length) with
    | .error e => .error e
    | .ok d => .ok (name ++ '=' :: d)
  else .ok name

/-- shell.py:208-213: the loop. -/
def sigItems (defaults : List (List Char)) (n : Nat) : Nat → List (List Char) → Except PyErr (List (List Char))
  | _, [] => .ok []
  | i, name :: l => match sigItem defaults n i name with
    | .error e => .error e
    | .ok t => match sigItems defaults n (i + 1) l with
      | .error e => .error e
      | .ok ts => .ok (t :: ts)

/-- shell.py:191-215 `signature_str`. -/
def signatureStr (f : Func) : Except PyErr (List Char) :=
  match sigItems f.defaults f.shown.length 0 f.shown with
  | .error e => .error e
  | .ok ts => .ok (Py.join [' '] ts)

/-- `repr(v)`, for strings without quotation marks, backslashes and unprintable characters, and for collections that are no sets. -/
def Val.repr : Val → List Char
  | .none => "None".toList
  | .bool b => if b then "True".toList else "False".toList
  | .int k => Py.intStr k
  | .str s => '\'' :: (s ++ ['\''])
  | .ints .tuple [k] => '(' :: (Py.intStr k ++ [',', ')'])
  | .ints .tuple l => '(' :: (Py.join [',', ' '] (l.map Py.intStr) ++ [')'])
  | .ints .list l => '[' :: (Py.join [',', ' '] (l.map Py.intStr) ++ [']'])
  | .ints .set l => '{' :: (Py.join [',', ' '] (l.map Py.intStr) ++ ['}'])

/-- The parameters of a function in `COMMANDS` that do not come from the line: `self` or `cls`, `sudoku` or `template`. -/
def given : Name → List (List Char)
  | .new | .get | .set | .setCandidates | .getCandidates | .removeCandidates | .encode | .print | .loop | .stack | .push | .pop | .help | .exit => ["self".toList]
  | .generate | .clear => []
  | .generateFromTemplate => ["template".toList]
  | .decode => ["cls".toList]
  | .initCandidates | .view => ["sudoku".toList]
  | .solve => ["self".toList, "sudoku".toList]

/-- shell.py:431-435 with shell.py:530-563: the function of a command (for `new`: `Sudoku.__init__`). -/
def func (n : Name) : Func :=
  { args := given n ++ (signature n).map Prod.fst
    defaults := (signature n).filterMap fun p => p.2.map Val.repr
    isMethod := n = .decode }

/-- shell.py:439-442. -/
def helpFirst : Option (List Char) → List Char
  | none => "(Not documented)".toList
  | some d => Py.strip ((Py.splitGo ['\n'] d 0 []).headD [])

/-- shell.py:446-447. -/
def helpRest (verbose : Bool) : Option (List Char) → List Char
  | none => []
  | some d => if verbose ∧ d ≠ [] then Py.join ['\n'] ((Py.splitGo ['\n'] d 0 []).drop 1) else []

/-- shell.py:426-447: `help_command` for a name. -/
def helpOne (docs : Name → Option (List Char)) (name : List Char) (verbose : Bool) : Except PyErr (List Char) :=
  match command? name with
  | none => .error .KeyError
  | some n => match signatureStr (func n) with
    | .error e => .error e
    | .ok sig => .ok (Py.join [' '] [name, sig] ++ [':', ' '] ++ helpFirst (docs n) ++ helpRest verbose (docs n))

/-- shell.py:566-577 `COMMANDS_HELP`. -/
def sections : List (List Char × List (List Char)) :=
  [("Creating sudokus:".toList, ["new".toList, "decode".toList, "generate".toList, "generate_from_template".toList]),
   ("Setting and getting numbers and candidates:".toList,
     ["get".toList, "set".toList, "get_candidates".toList, "set_candidates".toList, "remove_candidates".toList, "init_candidates".toList]),
   ("Printing:".toList, ["encode".toList, "print".toList, "clear".toList, "view".toList]),
   ("Solving:".toList, ["solve".toList]),
   ("Advanced:".toList, ["loop".toList, "stack".toList, "push".toList, "pop".toList]),
   ("Other commands:".toList, ["help".toList, "exit".toList])]

/-- shell.py:453-456: the lines of a section. -/
def helpNames (docs : Name → Option (List Char)) : List (List Char) → List Char → Except PyErr (List Char)
  | [], s => .ok s
  | name :: l, s => match helpOne docs name false with
    | .error e => .error e
    | .ok t => helpNames docs l (s ++ " - ".toList ++ (t ++ ['\n']))

/-- shell.py:451-458: the sections. -/
def helpSections (docs : Name → Option (List Char)) : List (List Char × List (List Char)) → List Char → Except PyErr (List Char)
  | [], s => .ok s
  | (title, names) :: l, s => match helpNames docs names (s ++ (title ++ ['\n'])) with
    | .error e => .error e
    | .ok s => helpSections docs l (s ++ ['\n'])

/-- shell.py:449-462: `help_command` without a name. -/
def helpAll (docs : Name → Option (List Char)) : Except PyErr (List Char) :=
  match helpSections docs sections [] with
  | .error e => .error e
  | .ok s => .ok (s ++ "NOTE: The 'sudoku' argument will be supplied automatically.".toList)

/-- shell.py:426-462 `help_command`, with all arguments; only commands and keywords have a `name`. -/
def helpFn (docs : Name → Option (List Char)) : List (Arg Val) → Except PyErr (List Char)
  | [command, verbose] =>
    if command.truth then match command with
      | .value _ => .error .AttributeError
      | .command s | .keyword s => helpOne docs s verbose.truth
    else helpAll docs
  | _ => .error .TypeError

/-- shell.py:561: `help` calls `help_command`. -/
def RealHelp {σ ν ω : Type} (lib : Lib σ ν ω) (val : Val → ν) (docs : Name → Option (List Char)) : Prop :=
  ∀ args kwargs, lib.help (args.map (Arg.map val)) (kwMap val kwargs) = match bindCommand .help args kwargs with
    | .error e => .error e
    | .ok vs => helpFn docs vs

end Shell
