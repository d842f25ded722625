import Verif.Model.Dlx
import Mathlib.Data.List.Dedup

set_option autoImplicit false

/-!
# `sudokutools/generate.py`

The outcomes of `choice` and `shuffle` are arguments (`Choices`), the order in which a set is visited is given by an
oracle, as are the orders inside `dlx`.
-/

open Spec

namespace Generate

/-- generate.py:26-33: the keys of `SYMMETRY`. -/
inductive Sym
  | none | rotate90 | rotate180 | mirrorX | mirrorY | mirrorXY
  deriving DecidableEq

/-- generate.py:88-89: `SYMMETRY[symmetry]`, `None` or a string; Lean's `none`: `KeyError`. -/
def Sym.lookup : Option String → Option Sym
  | .none => some .none
  | some "rotate-90" => some .rotate90
  | some "rotate-180" => some .rotate180
  | some "mirror-x" => some .mirrorX
  | some "mirror-y" => some .mirrorY
  | some "mirror-xy" => some .mirrorXY
  | some _ => Option.none

/-- generate.py:27-32: the functions.  `w*h-1-r` is never negative for a field of the grid. -/
def Sym.fields (w h : Nat) (a : Cell) : Sym → List Cell
  | .none => [(a.1, a.2)]
  | .rotate90 => [(a.1, a.2), (w*h-1-a.2, a.1), (w*h-1-a.1, w*h-1-a.2), (a.2, w*h-1-a.1)]
  | .rotate180 => [(a.1, a.2), (w*h-1-a.1, w*h-1-a.2)]
  | .mirrorX => [(a.1, a.2), (w*h-1-a.1, a.2)]
  | .mirrorY => [(a.1, a.2), (a.1, w*h-1-a.2)]
  | .mirrorXY => [(a.1, a.2), (w*h-1-a.1, a.2), (a.1, w*h-1-a.2), (w*h-1-a.1, w*h-1-a.2)]

/-- The outcomes of the calls of `random` in one call of `create_solution`: generate.py:49-52. -/
structure Choices where
  row : Nat
  col : Nat
  numbers : List Int

/-- `choice` returns an element of the range, `shuffle` permutes. -/
structure Choices.Ok (c : Choices) (w h : Nat) : Prop where
  row : c.row < h
  col : c.col < w
  numbers : c.numbers.Perm (Sudoku.new w h).numbers

/-- generate.py:54-55: `numbers.pop()` takes the last number, `IndexError` if there is none. -/
def fillBox : List Cell → List Int → Sudoku → Except PyErr Sudoku
  | [], _, s => .ok s
  | a :: l, ns, s => match ns.getLast? with
    | none => .error .IndexError
    | some v => fillBox l ns.dropLast (s.setNumber a v)

/-- generate.py:36-57 `create_solution`.  `choice` of an empty range raises `IndexError`; `next` raises `StopIteration` if
`dlx` yields nothing. -/
def createSolution (π : Dlx.Orders) (fuel : Nat) (c : Choices) (w h : Nat) : Except PyErr Sudoku :=
  let sudoku := Sudoku.new w h
  if sudoku.bh = 0 ∨ sudoku.bw = 0 then .error .IndexError
  else match fillBox (sudoku.boxOf (c.row, c.col) true) c.numbers sudoku with
    | .error e => .error e
    | .ok sudoku => match Dlx.dlx π fuel sudoku with
      | .error e => .error e
      | .ok [] => .error .StopIteration
      | .ok (t :: _) => .ok t

/-- generate.py:104-105: `coords.remove` raises `ValueError` if the item is missing. -/
def removeFields : List Cell → List Cell → Except PyErr (List Cell)
  | [], coords => .ok coords
  | a :: l, coords => if a ∈ coords then removeFields l (coords.erase a) else .error .ValueError

/-- The orders used in one round of the loop of `generate`: of the set `step_coords` (visited up to three times), and
inside `is_unique`. -/
structure RoundOrders where
  remove : List Cell → List Cell
  clear : List Cell → List Cell
  revert : List Cell → List Cell
  dlx : Dlx.Orders

/-- Each element is visited once. -/
structure RoundOrders.Ok (ρ : RoundOrders) : Prop where
  remove : ∀ l, (ρ.remove l).Perm l
  clear : ∀ l, (ρ.clear l).Perm l
  revert : ∀ l, (ρ.revert l).Perm l
  dlx : ρ.dlx.Ok

/-- generate.py:100-122: the `while` loop, at most `rounds` rounds; `none`: not finished by then.
`count` is an `Int`, as it might become negative. -/
def reduce (ρ : List Cell → RoundOrders) (fuel : Nat) (sym : Sym) (minCount : Int) (solution : Sudoku) :
    Nat → List Cell → Int → Sudoku → Except PyErr (Option Sudoku)
  | 0, _, _, _ => .ok none
  | _ + 1, [], _, sudoku => .ok (some sudoku)
  | rounds + 1, a :: l, count, sudoku =>
    let o := ρ (a :: l)
    let stepCoords := (sym.fields sudoku.bw sudoku.bh a).dedup
    match removeFields (o.remove stepCoords) (a :: l) with
    | .error e => .error e
    | .ok coords =>
      if count - stepCoords.length < minCount then .ok (some sudoku)
      else
        let (sudoku, count) := (o.clear stepCoords).foldl
          (fun (p : Sudoku × Int) b => (p.1.setNumber b 0, p.2 - 1)) (sudoku, count)
        match Dlx.isUnique o.dlx fuel sudoku with
        | .error e => .error e
        | .ok true => reduce ρ fuel sym minCount solution rounds coords count sudoku
        | .ok false =>
          let (sudoku, count) := (o.revert stepCoords).foldl
            (fun (p : Sudoku × Int) b => (p.1.setNumber b (solution.get b), p.2 + 1)) (sudoku, count)
          reduce ρ fuel sym minCount solution rounds coords count sudoku

/-- generate.py:60-122 `generate`; `coords` is the result of `shuffle`. -/
def generate (π : Dlx.Orders) (ρ : List Cell → RoundOrders) (fuel rounds : Nat) (c : Choices) (coords : List Cell)
    (minCount : Int) (symmetry : Option String) (w h : Nat) : Except PyErr (Option Sudoku) :=
  let countLimit : Int := (w ^ 2 * h ^ 2 : Nat)
  if minCount > countLimit then .error .ValueError
  else match Sym.lookup symmetry with
    | none => .error .ValueError
    | some sym => match createSolution π fuel c w h with
      | .error e => .error e
      | .ok solution => reduce ρ fuel sym minCount solution rounds coords (solution.copy).len solution.copy

/-- The arguments of `generate` (generate.py:60-122) other than the ones a caller gives: random outcomes and orders. -/
structure Env (w h : Nat) where
  π : Dlx.Orders
  ρ : List Cell → RoundOrders
  c : Choices
  coords : List Cell
  fuel : Nat
  rounds : Nat
  hπ : π.Ok
  hρ : ∀ l, (ρ l).Ok
  hc : c.Ok w h
  hcoords : coords.Perm (Sudoku.new w h).cells
  hf : (w * h) ^ 2 < fuel
  hr : (w * h) ^ 2 < rounds

/-- generate.py:60-122 `generate(min_count, symmetry, (w, h))`. -/
def Env.generate {w h : Nat} (e : Env w h) (minCount : Int) (symmetry : Option String) : Except PyErr (Option Sudoku) :=
  Generate.generate e.π e.ρ e.fuel e.rounds e.c e.coords minCount symmetry w h

/-- generate.py:185-187: clearing the fields that are empty in the template. -/
def mask (template sudoku : Sudoku) : Sudoku :=
  template.cells.foldl (fun s a => if template.get a = 0 then s.setNumber a 0 else s) sudoku

/-- The random outcomes and orders of one try. -/
structure Try where
  choices : Choices
  create : Dlx.Orders
  unique : Dlx.Orders

/-- generate.py:181-195: the `while` loop from try number `t` on, at most `rounds` rounds; `none`: not finished by then. -/
def templateLoop (fuel : Nat) (f : Nat → Try) (template : Sudoku) (tries : Int) :
    Nat → Nat → Except PyErr (Option Sudoku)
  | 0, _ => .ok none
  | rounds + 1, t =>
    if (t : Int) < tries ∨ tries < 0 then
      match createSolution (f t).create fuel (f t).choices template.bw template.bh with
      | .error e => .error e
      | .ok solution =>
        let sudoku := mask template solution.copy
        match Dlx.isUnique (f t).unique fuel sudoku with
        | .error e => .error e
        | .ok true => .ok (some sudoku)
        | .ok false => templateLoop fuel f template tries rounds (t + 1)
    else .error .RuntimeError

/-- generate.py:125-195 `generate_from_template`. -/
def generateFromTemplate (fuel rounds : Nat) (f : Nat → Try) (template : Sudoku) (tries : Int) :
    Except PyErr (Option Sudoku) :=
  templateLoop fuel f template tries rounds 0

/-- Random outcomes and orders of all tries: generate.py:181-195. -/
structure TryEnv (template : Sudoku) where
  f : Nat → Try
  fuel : Nat
  hchoices : ∀ k, (f k).choices.Ok template.bw template.bh
  hcreate : ∀ k, (f k).create.Ok
  hunique : ∀ k, (f k).unique.Ok
  hf : (template.bw * template.bh) ^ 2 < fuel

end Generate
