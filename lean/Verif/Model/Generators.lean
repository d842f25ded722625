import Verif.Model.Store
import Verif.Model.Solve
import Verif.Model.Dlx

set_option autoImplicit false

/-!
# `bruteforce` and `dlx` as generators that are interleaved with the program using them

`Model/Solve.lean` and `Model/Dlx.lean` run the generators to the end.  Here a generator stops at each `yield`; the program that uses it then
does whatever it likes with the `Sudoku` objects it has (the one given to the generator, the ones it got from it, and others), and
continues or abandons the generator.  The objects and their lists live in the heap of `Model/Store.lean`.

`Prog` describes what a generator does with the one object it works on.
-/

open Spec

namespace Generators

/-- A computation that uses the methods of one `Sudoku` object and yields copies of it (solve.py:74-75 and 99-100: `yield solution.copy()`).
Local variables of the generator cannot be seen from outside, so they are variables of Lean. -/
inductive Prog (α : Type) : Type
  | pure (x : α)
  | fail (e : PyErr)
  | get (a : Cell) (k : Int → Prog α)
  | getCandidates (a : Cell) (k : Finset Int → Prog α)
  | set (a : Cell) (v : Int) (k : Prog α)
  | setCandidates (a : Cell) (v : Finset Int) (k : Prog α)
  | removeCandidates (a : Cell) (v : Finset Int) (k : Prog α)
  | yield (k : Prog α)

namespace Prog

variable {α β : Type}

/-- One computation after the other. -/
def bind : Prog α → (α → Prog β) → Prog β
  | .pure x, f => f x
  | .fail e, _ => .fail e
  | .get a k, f => .get a fun v => (k v).bind f
  | .getCandidates a k, f => .getCandidates a fun v => (k v).bind f
  | .set a v k, f => .set a v (k.bind f)
  | .setCandidates a v k, f => .setCandidates a v (k.bind f)
  | .removeCandidates a v k, f => .removeCandidates a v (k.bind f)
  | .yield k, f => .yield (k.bind f)

instance : Monad Prog where
  pure := .pure
  bind := bind

end Prog

variable {α : Type}

/-- `sudoku[row, col]`. -/
def getNum (a : Cell) : Prog Int := .get a Prog.pure

/-- `sudoku.get_candidates(row, col)`. -/
def getCands (a : Cell) : Prog (Finset Int) := .getCandidates a Prog.pure

/-- `sudoku[row, col] = v`. -/
def setNum (a : Cell) (v : Int) : Prog Unit := .set a v (.pure ())

/-- `sudoku.set_candidates(row, col, v)`. -/
def setCands (a : Cell) (v : Finset Int) : Prog Unit := .setCandidates a v (.pure ())

/-- `sudoku.remove_candidates(row, col, v)`. -/
def removeCands (a : Cell) (v : Finset Int) : Prog Unit := .removeCandidates a v (.pure ())

/-- `yield sudoku.copy()`. -/
def give : Prog Unit := .yield (.pure ())

/-- `raise e`. -/
def raise (e : PyErr) : Prog α := .fail e


/-! ## solve.py -/

/-- solve.py:88-95: does one of the fields of the list have the number `value`? -/
def anyEqual (value : Int) : List Cell → Prog Bool
  | [] => return false
  | b :: l => do
    let x ← getNum b
    if x = value then return true else anyEqual value l

/-- solve.py:88-95: the check for conflicts (`return` leaves both loops). -/
def hasConflict (w h : Nat) : List Cell → Prog Bool
  | [] => return false
  | a :: l => do
    let value ← getNum a
    if value ≠ 0 then
      let found ← anyEqual value ((Sudoku.new w h).surroundingOf a false)
      if found then return true else hasConflict w h l
    else hasConflict w h l

/-- solve.py:39-40: the loop in `calc_candidates`. -/
def discardNumbers : List Cell → Finset Int → Prog (Finset Int)
  | [], cs => return cs
  | b :: l, cs => do
    let x ← getNum b
    discardNumbers l (cs.erase x)

/-- solve.py:23-42 `calc_candidates`. -/
def calcCandidates (w h : Nat) (a : Cell) : Prog (Finset Int) := do
  let v ← getNum a
  if v ≠ 0 then return {v}
  else discardNumbers ((Sudoku.new w h).surroundingOf a false) (Sudoku.new w h).numbers.toFinset

/-- solve.py:45-61 `init_candidates(sudoku)`. -/
def initCandidates (w h : Nat) : List Cell → Prog Unit
  | [] => return
  | a :: l => do
    let c ← calcCandidates w h a
    setCands a c
    initCandidates w h l

/-- sudoku.py:77-85: `list(sudoku.empty())`. -/
def emptyFields : List Cell → Prog (List Cell)
  | [] => return []
  | a :: l => do
    let v ← getNum a
    let es ← emptyFields l
    return if v = 0 then a :: es else es

/-- solve.py:110-111: the keys for `sorted`. -/
def withKeys : List Cell → Prog (List (Cell × Nat))
  | [] => return []
  | a :: l => do
    let c ← getCands a
    let ks ← withKeys l
    return (a, c.card) :: ks

/-- solve.py:123-126: the loop saving the candidates of the surrounding fields and removing `candidate` there. -/
def saveAndRemove (candidate : Int) : List Cell → List (Cell × Finset Int) → Prog (List (Cell × Finset Int))
  | [], saved => return saved
  | b :: l, saved => do
    let c ← getCands b
    removeCands b {candidate}
    saveAndRemove candidate l (Solve.dictSet saved b c)

/-- solve.py:131-133: restoring the candidates. -/
def restore : List (Cell × Finset Int) → Prog Unit
  | [] => return
  | p :: l => do
    setCands p.1 p.2
    restore l

/-- solve.py:119-134: the loop over the candidates; `rec` is the recursive call. -/
def bfLoop (w h : Nat) (rec : List (Cell × Int) → Prog Unit) (path : List (Cell × Int)) (a : Cell) : List Int → Prog Unit
  | [] => return
  | c :: cs => do
    setNum a c
    let own ← getCands a
    let saved ← saveAndRemove c ((Sudoku.new w h).surroundingOf a false) [(a, own)]
    rec ((a, c) :: path)
    restore saved
    setNum a 0
    bfLoop w h rec path a cs

/-- solve.py:103-134 `_do_bruteforce`, with the `yield solution.copy()` of line 100. `π`: see `Solve.SetOrder`. -/
def doBruteforce (w h : Nat) (π : Solve.SetOrder) : Nat → List (Cell × Int) → Prog Unit
  | 0, _ => raise .RecursionError
  | fuel + 1, path => do
    let es ← emptyFields (Sudoku.new w h).cells
    let ks ← withKeys es
    match (ks.insertionSort fun p q => p.2 ≤ q.2).head? with
    | none => give
    | some (a, _) =>
      let cs ← getCands a
      bfLoop w h (doBruteforce w h π fuel) path a (π path cs)

/-! ## dlx.py -/

/-- dlx.py:53: writing a solution. -/
def writeAll : List Dlx.Row → Prog Unit
  | [] => return
  | i :: l => do
    setNum (i.1, i.2.1) i.2.2
    writeAll l

/-- The value of a computation that may raise an exception. -/
def ofExcept {α : Type} : Except PyErr α → Prog α
  | .ok x => return x
  | .error e => raise e

/-- dlx.py:70-76: the loop over `list(X[c])`; `rec` is the recursive call. -/
def searchLoop (rec : Dlx.Dict Dlx.Col (List Dlx.Row) → List Dlx.Row → Prog (Dlx.Dict Dlx.Col (List Dlx.Row)))
    (Y : Dlx.Dict Dlx.Row (List Dlx.Col)) : List Dlx.Row → Dlx.Dict Dlx.Col (List Dlx.Row) → List Dlx.Row →
    Prog (Dlx.Dict Dlx.Col (List Dlx.Row))
  | [], X, _ => return X
  | r :: rs, X, solution => do
    let (X, cols) ← ofExcept (Dlx.select X Y r)
    let X ← rec X (solution ++ [r])
    let X ← ofExcept (Dlx.deselect X Y r cols)
    searchLoop rec Y rs X solution

/-- dlx.py:65-76 `solve`, with what `do_dlx` (lines 52-54) and `dlx` (solve.py:74-75) do with each solution. -/
def search (π : Dlx.Orders) (Y : Dlx.Dict Dlx.Row (List Dlx.Col)) : Nat → Dlx.Dict Dlx.Col (List Dlx.Row) → List Dlx.Row →
    Prog (Dlx.Dict Dlx.Col (List Dlx.Row))
  | 0, _, _ => raise .RecursionError
  | fuel + 1, X, solution =>
    match Dlx.minKey X (π.keys solution (X.map Prod.fst)) with
    | none => do
      writeAll solution
      give
      return X
    | some c => do
      let rs ← ofExcept (Dlx.Dict.get X c)
      searchLoop (search π Y fuel) Y (π.rows solution rs) X solution

/-- dlx.py:42-49: selecting the given numbers; `none`: `do_dlx` returned. -/
def selectGiven (Y : Dlx.Dict Dlx.Row (List Dlx.Col)) : List Cell → Dlx.Dict Dlx.Col (List Dlx.Row) →
    Prog (Option (Dlx.Dict Dlx.Col (List Dlx.Row)))
  | [], X => return some X
  | a :: l, X => do
    let n ← getNum a
    if n ≠ 0 then
      match Dlx.select X Y (a.1, a.2, n) with
      | .error .KeyError => return none
      | .error e => raise e
      | .ok (X, _) => selectGiven Y l X
    else selectGiven Y l X

/-- dlx.py:23-54 `do_dlx`. -/
def doDlx (w h : Nat) (π : Dlx.Orders) (fuel : Nat) : Prog Unit := do
  let Y := Dlx.matrix h w
  let X ← ofExcept (Dlx.exactCover (Dlx.columns (h * w)) Y)
  let X ← selectGiven Y (Sudoku.new w h).cells X
  match X with
  | none => return
  | some X =>
    let _ ← search π Y fuel X []
    return

/-! ## The program that uses the generator -/

/-- How an iteration ended before the generator was exhausted: it was abandoned, or an exception was raised in the generator. -/
inductive Stop
  | abandoned
  | raised (e : PyErr)

/-- The contents of an object, read through its methods (0 and no candidates outside of the grid). -/
def contents (H : Store.Heap) (o : Store.Obj) : Sudoku where
  bw := o.bw
  bh := o.bh
  num a := match Store.getNumber H o a.1 a.2 with | .ok v => v | .error _ => 0
  cand a := match Store.getCandidates H o a.1 a.2 with | .ok v => v | .error _ => ∅

/-- The objects, and what has been yielded: the name of the object and its contents when it was yielded. -/
structure World where
  state : Store.State
  yielded : List (Nat × Sudoku)

/-- What the program does after a `yield`, depending on what it got so far and on all objects: `none` if it abandons the generator. -/
abbrev Consumer := World → Option (List Store.Cmd)

/-- A write of the generator to its object `i`. -/
def writing {α : Type} (i : Nat) (W : World) (f : Store.Obj → Except PyErr Store.Heap) (next : World → World × Except Stop α) :
    World × Except Stop α :=
  match W.state.objs[i]? with
  | none => (W, .error (.raised .RuntimeError))
  | some o => match f o with
    | .error e => (W, .error (.raised e))
    | .ok H => next { W with state := { W.state with heap := H } }

/-- A read of the generator from its object `i`. -/
def reading {α β : Type} (i : Nat) (W : World) (f : Store.Obj → Except PyErr β) (next : β → World × Except Stop α) :
    World × Except Stop α :=
  match W.state.objs[i]? with
  | none => (W, .error (.raised .RuntimeError))
  | some o => match f o with
    | .error e => (W, .error (.raised e))
    | .ok v => next v

/-- Running a computation on object `i`, interleaved with the program.  (`RuntimeError` stands for an object that does not exist, which cannot
happen.) -/
def runOn {α : Type} (user : Consumer) (i : Nat) : Prog α → World → World × Except Stop α
  | .pure x, W => (W, .ok x)
  | .fail e, W => (W, .error (.raised e))
  | .get a k, W => reading i W (fun o => Store.getNumber W.state.heap o a.1 a.2) fun v => runOn user i (k v) W
  | .getCandidates a k, W => reading i W (fun o => Store.getCandidates W.state.heap o a.1 a.2) fun v => runOn user i (k v) W
  | .set a v k, W => writing i W (fun o => Store.setNumber W.state.heap o a.1 a.2 v) fun W => runOn user i k W
  | .setCandidates a v k, W => writing i W (fun o => Store.setCandidates W.state.heap o a.1 a.2 v) fun W => runOn user i k W
  | .removeCandidates a v k, W => writing i W (fun o => Store.removeCandidates W.state.heap o a.1 a.2 v) fun W => runOn user i k W
  | .yield k, W => reading i W (fun o => Store.copy W.state.heap o false) fun p =>
      let W : World := ⟨⟨p.1, W.state.objs ++ [p.2]⟩, W.yielded ++ [(W.state.objs.length, contents p.1 p.2)]⟩
      match user W with
      | none => (W, .error .abandoned)
      | some cmds => runOn user i k { W with state := (Store.run W.state cmds).1 }

/-- `solution = sudoku.copy()` of object `k`, and `p` on the copy (its name is the number of the objects so far). -/
def onCopy {α : Type} (user : Consumer) (k : Nat) (p : Prog α) (W : World) : World × Except Stop α :=
  reading k W (fun o => Store.copy W.state.heap o false) fun q =>
    runOn user W.state.objs.length p { W with state := ⟨q.1, W.state.objs ++ [q.2]⟩ }

/-- solve.py:78-100 `for x in bruteforce(sudoku): ...`, for the object `k` of box size `w`, `h`, from the first `next` on. -/
def bruteforce (w h : Nat) (π : Solve.SetOrder) (fuel : Nat) (user : Consumer) (k : Nat) (W : World) : World × Except Stop Unit :=
  match runOn user k (hasConflict w h (Sudoku.new w h).cells) W with
  | (W, .error e) => (W, .error e)
  | (W, .ok true) => (W, .ok ())
  | (W, .ok false) => onCopy user k (do initCandidates w h (Sudoku.new w h).cells; doBruteforce w h π fuel []) W

/-- solve.py:64-75 `for x in dlx(sudoku): ...`, for the object `k` of box size `w`, `h`, from the first `next` on. -/
def dlx (w h : Nat) (π : Dlx.Orders) (fuel : Nat) (user : Consumer) (k : Nat) (W : World) : World × Except Stop Unit :=
  onCopy user k (doDlx w h π fuel) W

end Generators
