import Verif.Model.Strings
import Verif.Model.Exceptions

set_option autoImplicit false

/-!
# `sudokutools/shell.py`: the class `Shell`

The shell is modelled for any type `σ` of (contents of) sudokus, any type `ν` of Python values and any type `ω` of the rest
of the world (the state of the random number generator).  What the called library functions do is given by a `Lib`;
`Model/ShellLib.lean` has the one with the functions modelled in the other files.

Sudokus are mutable objects.  They live in a heap (a list of contents); the shell holds their addresses, so that the stack
and the current sudoku could be the same object.  (That the rows inside different sudokus are different objects is C08.)

Not modelled here: `KeyboardInterrupt` (see Model/Interrupt.lean). Not modelled: the constructor arguments `commands` and `keywords` (which are stored, but not used: `parse`
uses the global tables), and flushing.
-/

namespace Shell

/-- shell.py:530-563: the functions in `COMMANDS`. -/
inductive Name
  | new | generate | generateFromTemplate | decode | get | set | setCandidates | getCandidates | removeCandidates
  | initCandidates | encode | print | clear | view | solve | loop | stack | push | pop | help | exit
  deriving DecidableEq, Repr

/-- shell.py:530-563: the keys of `COMMANDS`. -/
def commands : List (List Char × Name) :=
  [("new".toList, .new), ("generate".toList, .generate), ("generate_from_template".toList, .generateFromTemplate),
   ("decode".toList, .decode), ("get".toList, .get), ("set".toList, .set), ("set_candidates".toList, .setCandidates),
   ("get_candidates".toList, .getCandidates), ("remove_candidates".toList, .removeCandidates),
   ("init_candidates".toList, .initCandidates), ("encode".toList, .encode), ("print".toList, .print), ("clear".toList, .clear),
   ("view".toList, .view), ("solve".toList, .solve), ("loop".toList, .loop), ("stack".toList, .stack), ("push".toList, .push),
   ("pop".toList, .pop), ("help".toList, .help), ("exit".toList, .exit)]

/-- `COMMANDS[s][0]`. -/
def command? (s : List Char) : Option Name := (commands.find? fun p => p.1 = s).map Prod.snd

/-- shell.py:582-584: the only key of `SHELL_KEYWORDS`. -/
def keywords : List (List Char) := ["end".toList]

/-- shell.py:530-563: does the entry contain `"sudoku"`? -/
def Name.takesSudoku : Name → Bool
  | .generateFromTemplate | .get | .set | .setCandidates | .getCandidates | .removeCandidates | .initCandidates | .encode
  | .print | .view | .solve => true
  | _ => false

/-- shell.py:579-580 and 244-249: an argument: a value, a `Command` or a `Keyword`. -/
inductive Arg (ν : Type)
  | value (v : ν)
  | command (s : List Char)
  | keyword (s : List Char)

/-- shell.py:275: what `parse` returns (the special arguments follow from the function). -/
structure Command (ν : Type) where
  name : Name
  args : List (Arg ν)
  kwargs : List (List Char × ν)

/-- The exceptions of `literal_eval`, as far as `parse` distinguishes them. -/
inductive LiteralErr
  | syntaxOrValue
  | other (e : PyErr)
  deriving DecidableEq

/-- The exceptions of `parse`: shell.py:259-261 (`KeyError`, with the name of the command), shell.py:252-253 (`ValueError`, with the value), and others. -/
inductive ParseErr
  | unknown (name : List Char)
  | invalid (value : List Char)
  | other (e : PyErr)
  deriving DecidableEq

/-- What a library function returns: `None`, a string, a new sudoku, the sudoku it was given, or anything else. -/
inductive Result (σ : Type)
  | none
  | text (s : List Char)
  | sudoku (s : σ)
  | same
  | other

/-- What the shell uses: `ast.literal_eval`; `v == Keyword("end")` (true for the tuple `("end",)`), `v is None`, `int(v)` and `"%s" % v`
for values; `Sudoku()`, `copy(include_candidates=True)`; the functions of `COMMANDS` with and without a sudoku (which may be
changed by the function, also if it raises); and `help_command`. -/
structure Lib (σ ν ω : Type) where
  literal : List Char → Except LiteralErr ν
  isEnd : ν → Bool
  isNone : ν → Bool
  toInt : ν → Except PyErr Int
  str : ν → List Char
  fresh : σ
  copy : σ → σ
  call : Name → List (Arg ν) → List (List Char × ν) → σ → ω → σ × ω × Except ErrorText.Exn (Result σ)
  create : Name → List (Arg ν) → List (List Char × ν) → ω → ω × Except ErrorText.Exn (Result σ)
  help : List (Arg ν) → List (List Char × ν) → Except PyErr (List Char)

/-- Something written to `outfile`: results of commands, or greetings and prompts of the shell. -/
inductive Event
  | text (s : List Char)
  | prompt (s : List Char)
  deriving DecidableEq

/-- Something reported by `error`: an exception of a function (with its text, unless that is Python's), or a message of the shell itself. -/
inductive Err
  | exn (cls : PyErr) (why : ErrorText.Why := .builtin)
  | message (text : List Char)
  deriving DecidableEq

/-- How a call may end other than by returning: `sys.exit(code)`, an exception that nobody catches, or a `KeyboardInterrupt`
(only in Model/Interrupt.lean). -/
inductive Signal
  | exit (code : Nat)
  | crash (e : PyErr)
  | interrupt
  deriving DecidableEq

/-- shell.py:307-327: the attributes (`interactive` is passed separately). -/
structure State (σ ν ω : Type) where
  heap : List σ
  cur : Nat
  stack : List Nat
  running : Bool
  loopN : Option Nat
  body : List (Command ν)
  prompt : List Char
  out : List Event
  errors : List Err
  world : ω

variable {σ ν ω : Type}

/-- shell.py:315-320 `self.command_prompt`. -/
def commandPrompt (interactive : Bool) : List Char := if interactive then "> ".toList else []

/-- shell.py:290-327 `__init__`. -/
def init (lib : Lib σ ν ω) (interactive : Bool) (world : ω) : State σ ν ω :=
  { heap := [lib.fresh], cur := 0, stack := [], running := true, loopN := none, body := [],
    prompt := commandPrompt interactive, out := [], errors := [], world }

/-- `self.sudoku` (the address always is one of the heap, see `C49_reachable`). -/
def State.sudoku (lib : Lib σ ν ω) (s : State σ ν ω) : σ := s.heap.getD s.cur lib.fresh

/-- shell.py:234-249: the arguments; the dictionary `kwargs` as a list in insertion order. -/
def setKwarg (kwargs : List (List Char × ν)) (name : List Char) (v : ν) : List (List Char × ν) :=
  if kwargs.any (fun p => p.1 == name) then kwargs.map fun p => if p.1 = name then (name, v) else p else kwargs ++ [(name, v)]

/-- shell.py:251-253: the exception `parse` raises when `literal_eval(value)` fails. -/
def literalErr (value : List Char) : LiteralErr → ParseErr
  | .syntaxOrValue => .invalid value
  | .other e => .other e

/-- shell.py:234-253: the loop over the items. -/
def parseItems (lib : Lib σ ν ω) : List (List Char) → List (Arg ν) → List (List Char × ν) →
    Except ParseErr (List (Arg ν) × List (List Char × ν))
  | [], args, kwargs => .ok (args, kwargs)
  | item :: items, args, kwargs =>
    match Py.cut ['='] item with
    | some (name, value) => match lib.literal value with
      | .error e => .error (literalErr value e)
      | .ok v => parseItems lib items args (setKwarg kwargs name v)
    | none =>
      if (command? item).isSome then parseItems lib items (args ++ [.command item]) kwargs
      else if item ∈ keywords then parseItems lib items (args ++ [.keyword item]) kwargs
      else match lib.literal item with
        | .error e => .error (literalErr item e)
        | .ok v => parseItems lib items (args ++ [.value v]) kwargs

/-- shell.py:218-275 `parse`. -/
def parse (lib : Lib σ ν ω) (s : List Char) : Except ParseErr (Command ν) :=
  match Py.splitGo [' '] s 0 [] with
  | [] => .error (.other .IndexError)
  | funcname :: items => match parseItems lib items [] [] with
    | .error e => .error e
    | .ok (args, kwargs) => match command? funcname with
      | none => .error (.unknown funcname)
      | some name => .ok { name, args, kwargs }

/-- shell.py:333-337 `error`. -/
def error (interactive : Bool) (e : Err) (s : State σ ν ω) : State σ ν ω × Option Signal :=
  ({ s with errors := s.errors ++ [e] }, if interactive then none else some (.exit 1))

/-- How the call of a function in `execute` ends. -/
inductive Outcome (σ : Type)
  | returned (r : Result σ)
  | raised (e : ErrorText.Exn)
  | signal (g : Signal)

/-- `return self.error(text)`. -/
def returnError (interactive : Bool) (text : List Char) (s : State σ ν ω) : State σ ν ω × Outcome σ :=
  match error interactive (.message text) s with
  | (s, none) => (s, .returned .none)
  | (s, some g) => (s, .signal g)

/-- The argument of a function with one parameter `p`: `none` if it is not given, `TypeError` if the arguments do not fit. -/
def bindOne (p : List Char) (args : List (Arg ν)) (kwargs : List (List Char × ν)) : Except PyErr (Option (Arg ν)) :=
  match args, kwargs with
  | [], [] => .ok none
  | [x], [] => .ok (some x)
  | [], [(k, v)] => if k = p then .ok (some (.value v)) else .error .TypeError
  | _, _ => .error .TypeError

/-- `x == Keyword("end")`: named tuples are compared as tuples. -/
def argIsEnd (lib : Lib σ ν ω) : Arg ν → Bool
  | .value v => lib.isEnd v
  | .command s => s = "end".toList
  | .keyword s => s = "end".toList

/-- `int(x)`. -/
def argInt (lib : Lib σ ν ω) : Arg ν → Except PyErr Int
  | .value v => lib.toInt v
  | _ => .error .TypeError

/-- shell.py:512 `position is None`. -/
def givenArg (lib : Lib σ ν ω) : Option (Arg ν) → Option (Arg ν)
  | some (.value v) => if lib.isNone v then none else some (.value v)
  | p => p

/-- `"%s" % x`; commands and keywords are tuples of one string. -/
def argStr (lib : Lib σ ν ω) : Arg ν → List Char
  | .value v => lib.str v
  | .command s => s
  | .keyword s => s

/-- shell.py:519-520. -/
def positionMessage (n : Nat) : List Char := "0 <= position < ".toList ++ Py.natStr n

/-- shell.py:506-522 `pop_command`, after the arguments have been bound. -/
def pop (lib : Lib σ ν ω) (interactive : Bool) (position : Option (Arg ν)) (s : State σ ν ω) : State σ ν ω × Outcome σ :=
  if s.stack = [] then returnError interactive "stack is empty".toList s
  else match givenArg lib position with
    | none => ({ s with cur := s.stack.getD (s.stack.length - 1) 0, stack := s.stack.eraseIdx (s.stack.length - 1) }, .returned .none)
    | some x => match argInt lib x with
      | .error .ValueError => returnError interactive (positionMessage s.stack.length) s
      | .error e => (s, .raised ⟨e, .builtin⟩)
      | .ok k =>
        if 0 ≤ k ∧ k < s.stack.length then
          ({ s with cur := s.stack.getD k.toNat 0, stack := s.stack.eraseIdx k.toNat }, .returned .none)
        else returnError interactive (positionMessage s.stack.length) s

/-- A function of the shell without parameters. -/
def noArgs (c : Command ν) (f : State σ ν ω → State σ ν ω × Outcome σ) (s : State σ ν ω) : State σ ν ω × Outcome σ :=
  if c.args.isEmpty && c.kwargs.isEmpty then f s else (s, .raised ⟨.TypeError, .builtin⟩)

/-- shell.py:345 `func(*all_args, **kwargs)`; `onLoop` stands for `loop_command`. -/
def callWith (lib : Lib σ ν ω) (interactive : Bool) (onLoop : Arg ν → State σ ν ω → State σ ν ω × Outcome σ) (c : Command ν)
    (s : State σ ν ω) : State σ ν ω × Outcome σ :=
  match c.name with
  | .loop => match bindOne ['n'] c.args c.kwargs with
    | .error e => (s, .raised ⟨e, .builtin⟩)
    | .ok none => (s, .raised ⟨.TypeError, .builtin⟩)
    | .ok (some n) => onLoop n s
  | .exit => noArgs c (fun s => ({ s with running := false }, .returned .none)) s
  | .stack => noArgs c (fun s => (s, .returned (.text ("stack has ".toList ++ Py.natStr s.stack.length ++ " sudokus".toList)))) s
  | .push => noArgs c (fun s => ({ s with heap := s.heap ++ [lib.copy (s.sudoku lib)], stack := s.stack ++ [s.heap.length] },
      .returned .none)) s
  | .pop => match bindOne "position".toList c.args c.kwargs with
    | .error e => (s, .raised ⟨e, .builtin⟩)
    | .ok p => pop lib interactive p s
  | .help => match lib.help c.args c.kwargs with
    | .error e => (s, .raised ⟨e, .builtin⟩)
    | .ok t => (s, .returned (.text t))
  | name =>
    if name.takesSudoku then
      let (x, w, r) := lib.call name c.args c.kwargs (s.sudoku lib) s.world
      let s := { s with heap := s.heap.set s.cur x, world := w }
      match r with
      | .error e => (s, .raised e)
      | .ok r => (s, .returned r)
    else
      let (w, r) := lib.create name c.args c.kwargs s.world
      let s := { s with world := w }
      match r with
      | .error e => (s, .raised e)
      | .ok r => (s, .returned r)

/-- shell.py:339-355 `execute`. -/
def executeWith (lib : Lib σ ν ω) (interactive : Bool) (onLoop : Arg ν → State σ ν ω → State σ ν ω × Outcome σ) (c : Command ν)
    (s : State σ ν ω) : State σ ν ω × Option Signal :=
  match callWith lib interactive onLoop c s with
  | (s, .returned (.sudoku x)) => ({ s with heap := s.heap ++ [x], cur := s.heap.length }, none)
  | (s, .returned .same) => (s, none)
  | (s, .returned .none) => (s, none)
  | (s, .returned (.text t)) => ({ s with out := s.out ++ [.text (t ++ ['\n'])] }, none)
  | (s, .returned .other) => error interactive (.exn .TypeError) s
  | (s, .raised e) => error interactive (.exn e.cls e.why) s
  | (s, .signal g) => (s, some g)

/-- Several actions one after the other, until one does not end normally. -/
def seq {α : Type} (f : α → State σ ν ω → State σ ν ω × Option Signal) : List α → State σ ν ω → State σ ν ω × Option Signal
  | [], s => (s, none)
  | x :: l, s => match f x s with
    | (s, some g) => (s, some g)
    | (s, none) => seq f l s

/-- `execute` for the commands of a loop body, which never are loop commands themselves (see `C50_body`). -/
def executeBody (lib : Lib σ ν ω) (interactive : Bool) : Command ν → State σ ν ω → State σ ν ω × Option Signal :=
  executeWith lib interactive fun _ s => (s, .raised ⟨.RecursionError, .builtin⟩)

/-- shell.py:485. -/
def countMessage (n : List Char) : List Char := "loop command n must be int > 0, got ".toList ++ n

/-- shell.py:464-492 `loop_command`; `exec` stands for `execute` in line 477. -/
def loopWith (lib : Lib σ ν ω) (interactive : Bool) (exec : Command ν → State σ ν ω → State σ ν ω × Option Signal) (n : Arg ν)
    (s : State σ ν ω) : State σ ν ω × Outcome σ :=
  if argIsEnd lib n then
    match s.loopN with
    | none => returnError interactive "No loop defined.".toList s
    | some k =>
      let s := { s with prompt := commandPrompt interactive }
      match seq (fun _ => seq exec s.body) (List.range k) s with
      | (s, some g) => (s, .signal g)
      | (s, none) => ({ s with loopN := none, body := [] }, .returned .none)
  else match argInt lib n with
    | .error .ValueError => returnError interactive (countMessage (argStr lib n)) s
    | .error e => (s, .raised ⟨e, .builtin⟩)
    | .ok k =>
      if k ≤ 0 then returnError interactive (countMessage (Py.intStr k)) s
      else if s.loopN.isSome then returnError interactive "Run current loop first ('loop end').".toList s
      else
        ({ s with
            prompt := if interactive then "loop ".toList ++ Py.intStr k ++ "> ".toList else s.prompt
            loopN := some k.toNat }, .returned .none)

/-- shell.py:464-492 `loop_command`. -/
def loop (lib : Lib σ ν ω) (interactive : Bool) : Arg ν → State σ ν ω → State σ ν ω × Outcome σ :=
  loopWith lib interactive (executeBody lib interactive)

/-- shell.py:339-355 `execute`. -/
def execute (lib : Lib σ ν ω) (interactive : Bool) : Command ν → State σ ν ω → State σ ν ω × Option Signal :=
  executeWith lib interactive (loop lib interactive)

/-- A hexadecimal digit. -/
def hexDigit (n : Nat) : Char := if n < 10 then Char.ofNat (48 + n) else Char.ofNat (87 + n)

/-- `repr(s)[1:-1]`, with the quotation mark `q`.  Simplification: beyond ASCII, all characters are taken to be printable. -/
def reprChar (q c : Char) : List Char :=
  if c = q ∨ c = '\\' then ['\\', c]
  else if c = '\t' then "\\t".toList
  else if c = '\n' then "\\n".toList
  else if c = '\r' then "\\r".toList
  else if c.toNat < 32 ∨ c.toNat = 127 then "\\x".toList ++ [hexDigit (c.toNat / 16), hexDigit (c.toNat % 16)]
  else [c]

/-- `repr(s)` of a string: double quotation marks only if there are single ones and no double ones. -/
def pyRepr (s : List Char) : List Char :=
  let q := if '\'' ∈ s ∧ '"' ∉ s then '"' else '\''
  q :: s.flatMap (reprChar q) ++ [q]

/-- shell.py:333-335, 353-354: what `error` writes to stderr; `none` if the text is Python's own (and depends on its version).  The text for `int(item)` is the one
of CPython 3, which shows at most 200 characters of the `repr` of the item. -/
def Err.line : Err → Option (List Char)
  | .message t => some ("Error: ".toList ++ t ++ "\n".toList)
  | .exn _ (.text t) => some ("Error: ".toList ++ t ++ "\n".toList)
  | .exn _ (.badInt item) => some ("Error: invalid literal for int() with base 10: ".toList ++ (pyRepr item).take 200 ++ "\n".toList)
  | .exn _ .builtin => none

/-- shell.py:252-253. -/
def invalidMessage (value : List Char) : List Char :=
  "Invalid argument: ".toList ++ value ++ " ".toList ++ "(Did you forget quotation marks?)".toList

/-- shell.py:259-261, 371-372: `"%s" % e` of a `KeyError` is the `repr` of its argument. -/
def unknownMessage (name : List Char) : List Char :=
  pyRepr ("Unknown command: ".toList ++ name ++ ". Type 'help' for a list of commands.".toList)

/-- shell.py:359-374: one round of the loop of `execute_line`; `exec` stands for `execute`. -/
def executePartWith (lib : Lib σ ν ω) (interactive : Bool) (exec : Command ν → State σ ν ω → State σ ν ω × Option Signal)
    (part : List Char) (s : State σ ν ω) : State σ ν ω × Option Signal :=
  match parse lib (Py.strip part) with
  | .error (.unknown name) => error interactive (.message (unknownMessage name)) s
  | .error (.invalid value) => error interactive (.message (invalidMessage value)) s
  | .error (.other .KeyError) => error interactive (.exn .KeyError) s
  | .error (.other .ValueError) => error interactive (.exn .ValueError) s
  | .error (.other e) => (s, some (.crash e))
  | .ok c =>
    if c.name = .exit then exec c s
    else if s.loopN.isSome ∧ c.name ≠ .loop then ({ s with body := s.body ++ [c] }, none)
    else exec c s

/-- shell.py:359-374: one round of the loop of `execute_line`. -/
def executePart (lib : Lib σ ν ω) (interactive : Bool) : List Char → State σ ν ω → State σ ν ω × Option Signal :=
  executePartWith lib interactive (execute lib interactive)

/-- shell.py:357-374 `execute_line`. -/
def executeLine (lib : Lib σ ν ω) (interactive : Bool) (line : List Char) : State σ ν ω → State σ ν ω × Option Signal :=
  seq (executePart lib interactive) (Py.splitGo [';'] line 0 [])

/-- shell.py:400-408: a line without newline, comment and surrounding whitespace. -/
def clean (line : List Char) : List Char := Py.strip ((line.filter fun c => c != '\n').takeWhile fun c => c != '#')

/-- Write to `outfile`. -/
def State.write (s : State σ ν ω) (e : Event) : State σ ν ω := { s with out := s.out ++ [e] }

/-- shell.py:381-424: the loop of `run`; the lines `readline` still will return (none of them empty, as they end in a newline or at the end of the file), then the end of the file. `lines` is the
variable of this name. -/
def runLoop (lib : Lib σ ν ω) (interactive : Bool) : List (List Char) → List Char → State σ ν ω → State σ ν ω × Option Signal
  | input, lines, s =>
    if s.running = false then (s, none)
    else
      let s := s.write (.prompt s.prompt)
      match input with
      | [] => (if interactive then s.write (.prompt ['\n']) else s, none)
      | line :: input =>
        let line := clean line
        if line.getLast? = some '\\' then runLoop lib interactive input (lines ++ line.dropLast) s
        else if lines ++ line = [] then runLoop lib interactive input [] s
        else match executeLine lib interactive (lines ++ line) s with
          | (s, some g) => (s, some g)
          | (s, none) => runLoop lib interactive input [] s

/-- shell.py:376-424 `run`; `greeting` are the two lines with the version. -/
def run (lib : Lib σ ν ω) (interactive : Bool) (greeting : List Char) (input : List (List Char)) (s : State σ ν ω) :
    State σ ν ω × Option Signal :=
  runLoop lib interactive input [] (if interactive then s.write (.prompt greeting) else s)

end Shell
