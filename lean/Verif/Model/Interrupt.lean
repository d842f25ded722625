import Verif.Model.Shell

set_option autoImplicit false

/-!
# `sudokutools/shell.py`: `KeyboardInterrupt` in the class `Shell`

A `KeyboardInterrupt` may be raised while the shell waits for a line, and while it executes a command.  It is no `Exception`,
so `execute` does not catch it.

Simplification: during the execution, an interrupt comes while a function of the library is running (which may leave any
contents in the current sudoku and change the rest of the world), or just before `execute` calls a function.  Interrupts between two
instructions of the methods of the shell itself (e.g. in the middle of `pop_command`) are not modelled, nor are those while the
interrupt is handled.
-/

namespace Shell

variable {σ ν ω : Type}

/-- What happens in front of the terminal: a line is entered, or `readline` is interrupted. -/
inductive Input
  | line (l : List Char)
  | interrupt

/-- Which commands are interrupted: `some (x, w)` if the command is interrupted in this state, where `x` is what is then in the
current sudoku (if the function works on it) and `w` the rest of the world.  (Several interrupts at different times can be told
apart by the world, which may contain a clock.) -/
abbrev Cut (σ ν ω : Type) := Command ν → State σ ν ω → Option (σ × ω)

/-- shell.py:339-355 `execute`, when it may be interrupted. -/
def interruptible (cut : Cut σ ν ω) (exec : Command ν → State σ ν ω → State σ ν ω × Option Signal) (c : Command ν)
    (s : State σ ν ω) : State σ ν ω × Option Signal :=
  match cut c s with
  | none => exec c s
  | some (x, w) => ({ s with heap := if c.name.takesSudoku then s.heap.set s.cur x else s.heap, world := w }, some .interrupt)

/-- shell.py:339-355 `execute`: each command, also those in the body of a loop, may be interrupted. -/
def executeI (lib : Lib σ ν ω) (interactive : Bool) (cut : Cut σ ν ω) : Command ν → State σ ν ω → State σ ν ω × Option Signal :=
  interruptible cut (executeWith lib interactive (loopWith lib interactive (interruptible cut (executeBody lib interactive))))

/-- shell.py:357-374 `execute_line`. -/
def executeLineI (lib : Lib σ ν ω) (interactive : Bool) (cut : Cut σ ν ω) (line : List Char) :
    State σ ν ω → State σ ν ω × Option Signal :=
  seq (executePartWith lib interactive (executeI lib interactive cut)) (Py.splitGo [';'] line 0 [])

/-- shell.py:387 what is printed when `readline` is interrupted. -/
def useExit : List Char := "\nUse 'exit' to leave the shell.\n".toList

/-- shell.py:381-424: the loop of `run`.  Note that line 418 is not reached when line 417 is interrupted, so that `lines` keeps
its value. -/
def runLoopI (lib : Lib σ ν ω) (interactive : Bool) (cut : Cut σ ν ω) : List Input → List Char → State σ ν ω → State σ ν ω × Option Signal
  | input, lines, s =>
    if s.running = false then (s, none)
    else
      let s := s.write (.prompt s.prompt)
      match input with
      | [] => (if interactive then s.write (.prompt ['\n']) else s, none)
      | .interrupt :: input =>
        if interactive then
          let s := s.write (.prompt useExit)
          if lines = [] then runLoopI lib interactive cut input [] s
          else match executeLineI lib interactive cut lines s with
            | (s, some .interrupt) => runLoopI lib interactive cut input lines (s.write (.prompt ['\n']))
            | (s, some g) => (s, some g)
            | (s, none) => runLoopI lib interactive cut input [] s
        else (s, some (.exit 2))
      | .line line :: input =>
        let line := clean line
        if line.getLast? = some '\\' then runLoopI lib interactive cut input (lines ++ line.dropLast) s
        else if lines ++ line = [] then runLoopI lib interactive cut input [] s
        else match executeLineI lib interactive cut (lines ++ line) s with
          | (s, some .interrupt) =>
            let s := s.write (.prompt ['\n'])
            if interactive then runLoopI lib interactive cut input (lines ++ line) s else (s, some (.exit 2))
          | (s, some g) => (s, some g)
          | (s, none) => runLoopI lib interactive cut input [] s

/-- shell.py:376-424 `run`. -/
def runI (lib : Lib σ ν ω) (interactive : Bool) (cut : Cut σ ν ω) (greeting : List Char) (input : List Input) (s : State σ ν ω) :
    State σ ν ω × Option Signal :=
  runLoopI lib interactive cut input [] (if interactive then s.write (.prompt greeting) else s)

end Shell
