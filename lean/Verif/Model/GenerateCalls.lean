import Verif.Model.Generate

set_option autoImplicit false

/-!
# `sudokutools/generate.py`: the calls of `is_unique`

`generate` once more, with the sudokus handed to `is_unique` and its answers, in order (`C120_same`: the result is the same).
-/

open Spec

namespace Generate

/-- A call of `is_unique` (generate.py:117) before the remaining ones. -/
def push (u : Sudoku) (b : Bool) : Except PyErr (Option (Sudoku × List (Sudoku × Bool))) →
    Except PyErr (Option (Sudoku × List (Sudoku × Bool)))
  | .ok (some (t, calls)) => .ok (some (t, (u, b) :: calls))
  | r => r

/-- generate.py:100-122: as `reduce`, with the calls of `is_unique`. -/
def reduceT (ρ : List Cell → RoundOrders) (fuel : Nat) (sym : Sym) (minCount : Int) (solution : Sudoku) :
    Nat → List Cell → Int → Sudoku → Except PyErr (Option (Sudoku × List (Sudoku × Bool)))
  | 0, _, _, _ => .ok none
  | _ + 1, [], _, sudoku => .ok (some (sudoku, []))
  | rounds + 1, a :: l, count, sudoku =>
    let o := ρ (a :: l)
    let stepCoords := (sym.fields sudoku.bw sudoku.bh a).dedup
    match removeFields (o.remove stepCoords) (a :: l) with
    | .error e => .error e
    | .ok coords =>
      if count - stepCoords.length < minCount then .ok (some (sudoku, []))
      else
        let (sudoku, count) := (o.clear stepCoords).foldl
          (fun (p : Sudoku × Int) b => (p.1.setNumber b 0, p.2 - 1)) (sudoku, count)
        match Dlx.isUnique o.dlx fuel sudoku with
        | .error e => .error e
        | .ok true => push sudoku true (reduceT ρ fuel sym minCount solution rounds coords count sudoku)
        | .ok false =>
          let tested := sudoku
          let (sudoku, count) := (o.revert stepCoords).foldl
            (fun (p : Sudoku × Int) b => (p.1.setNumber b (solution.get b), p.2 + 1)) (sudoku, count)
          push tested false (reduceT ρ fuel sym minCount solution rounds coords count sudoku)

/-- generate.py:60-122 `generate`: as `generate`, with the calls of `is_unique`. -/
def generateT (π : Dlx.Orders) (ρ : List Cell → RoundOrders) (fuel rounds : Nat) (c : Choices) (coords : List Cell)
    (minCount : Int) (symmetry : Option String) (w h : Nat) : Except PyErr (Option (Sudoku × List (Sudoku × Bool))) :=
  let countLimit : Int := (w ^ 2 * h ^ 2 : Nat)
  if minCount > countLimit then .error .ValueError
  else match Sym.lookup symmetry with
    | none => .error .ValueError
    | some sym => match createSolution π fuel c w h with
      | .error e => .error e
      | .ok solution => reduceT ρ fuel sym minCount solution rounds coords (solution.copy).len solution.copy

/-- generate.py:60-122 `generate(min_count, symmetry, (w, h))` with the calls of `is_unique`. -/
def Env.generateT {w h : Nat} (e : Env w h) (minCount : Int) (symmetry : Option String) :
    Except PyErr (Option (Sudoku × List (Sudoku × Bool))) :=
  Generate.generateT e.π e.ρ e.fuel e.rounds e.c e.coords minCount symmetry w h

end Generate
