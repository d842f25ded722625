import Verif.Model.Shell

set_option autoImplicit false

/-!
# `sudokutools/__main__.py`

The arguments are those that `argparse` has read (lines 12-21); what `argparse` itself does (`-h`, unknown options, status 2) is not
modelled.
-/

namespace Main

open Shell

variable {σ ν ω : Type}

/-- __main__.py:13-21: `arguments.filename` and `arguments.command`. -/
structure Arguments where
  filename : Option (List Char)
  command : Option (List Char)

/-- What the program finds: `open` of a file (its lines, and whether it is a terminal; `none` if `open` raises an `IOError`), the
standard input, the greeting with the version, and the rest of the world. -/
structure System (ω : Type) where
  openFile : List Char → Option (List (List Char) × Bool)
  stdin : List (List Char)
  stdinTty : Bool
  greeting : List Char
  world : ω

/-- How the program ends: the file could not be opened, or the shell has run. -/
inductive Ending (σ ν ω : Type)
  | unreadable
  | ran (s : State σ ν ω) (g : Option Signal)

/-- A string that is given and not empty. -/
def given (x : Option (List Char)) : Option (List Char) := if x = some [] then none else x

/-- shell.py:312-324 and `run`: `Shell(infile=f).run()`. -/
def runShell (lib : Lib σ ν ω) (sys : System ω) (input : List (List Char)) (tty : Bool) : Ending σ ν ω :=
  let r := run lib tty sys.greeting input (init lib tty sys.world)
  .ran r.1 r.2

/-- __main__.py:9-36 `main`.  (Reading the file, and the shell, are assumed to raise no `IOError` once the file is open.) -/
def main (lib : Lib σ ν ω) (sys : System ω) (a : Arguments) : Ending σ ν ω :=
  match given a.filename with
  | some f => match sys.openFile f with
    | none => .unreadable
    | some (input, tty) => runShell lib sys input tty
  | none => match given a.command with
    | some line =>
      let r := executeLine lib false line (init lib false sys.world)
      .ran r.1 r.2
    | none => runShell lib sys sys.stdin sys.stdinTty

/-- The exit status of the process: `sys.exit(1)` in line 30, `sys.exit` in the shell, an exception nobody catches, or 0. -/
def Ending.status : Ending σ ν ω → Nat
  | .unreadable => 1
  | .ran _ none => 0
  | .ran _ (some (.exit code)) => code
  | .ran _ (some (.crash _)) => 1
  | .ran _ (some .interrupt) => 130

/-- What has been written to the standard output. -/
def Ending.out : Ending σ ν ω → List Event
  | .unreadable => []
  | .ran s _ => s.out

/-- The errors that the shell has reported. -/
def Ending.errors : Ending σ ν ω → List Err
  | .unreadable => []
  | .ran s _ => s.errors

end Main
