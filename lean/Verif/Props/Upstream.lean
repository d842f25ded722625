import Verif.Model.Notation
import Verif.Model.Generate
import Verif.Model.StepText
import Verif.Model.Codec
import Verif.Props.ShellLib

set_option autoImplicit false

/-!
# The tests of the project, run against the model

The expected values are those of /repo/sudokutools/tests and of the outputs shown in /repo/README.md.  `#guard` evaluates the model; these are tests of the
model, not proofs.  Tests of the project that use random numbers have no counterpart here.
-/

open Spec Solvers

namespace Upstream

deriving instance DecidableEq for Shell.Arg

private def dec (t : String) (p : Codec.Args := {}) : Sudoku := match Codec.decode p t.toList with | .ok s => s | .error _ => Sudoku.new 0 0
private def text (x : Except PyErr (List Char)) : String := match x with | .ok t => String.ofList t | .error _ => "error"
private def sorted : Solve.SetOrder := fun _ S => sortSet S
private def dlxOrder : Dlx.Orders := { keys := fun _ l => l, rows := fun _ l => l }
private def order {W : Type} : Orders W := { hidden := fun _ _ _ S => sortSet S, fish := fun _ _ _ l => l, dlx := fun _ => dlxOrder }
/-- A sudoku that is computed only once. -/
private def fix (s : Sudoku) : Sudoku :=
  let a := (s.cells.map fun c => (s.get c, s.getCandidates c)).toArray
  { s with num := fun c => (a.getD (c.1 * s.n + c.2) (0, ∅)).1, cand := fun c => (a.getD (c.1 * s.n + c.2) (0, ∅)).2 }
/-- `list(cls.find(sudoku))`. -/
private def steps (k : Kind) (s : Sudoku) : List Step :=
  match find (W := Sudoku × List Step) Prod.fst (fun w st => (w.1, w.2 ++ [st])) order 100 k (s, []) with | .ok w => w.2 | .error _ => []
/-- `sorted(steps)[:1]`. -/
private def least : List Step → Option Step
  | [] => none
  | st :: l => some (l.foldl (fun a b => if Step.lt b a then b else a) st)

/-! ## test_coordinates.py -/

-- test_the_box
#guard (List.range 9).map (fun (i : Nat) => Coordinates.theBox i 3 3) = [.ok [(0, 0), (0, 1), (0, 2), (1, 0), (1, 1), (1, 2), (2, 0), (2, 1), (2, 2)],
  .ok [(0, 3), (0, 4), (0, 5), (1, 3), (1, 4), (1, 5), (2, 3), (2, 4), (2, 5)],
  .ok [(0, 6), (0, 7), (0, 8), (1, 6), (1, 7), (1, 8), (2, 6), (2, 7), (2, 8)],
  .ok [(3, 0), (3, 1), (3, 2), (4, 0), (4, 1), (4, 2), (5, 0), (5, 1), (5, 2)],
  .ok [(3, 3), (3, 4), (3, 5), (4, 3), (4, 4), (4, 5), (5, 3), (5, 4), (5, 5)],
  .ok [(3, 6), (3, 7), (3, 8), (4, 6), (4, 7), (4, 8), (5, 6), (5, 7), (5, 8)],
  .ok [(6, 0), (6, 1), (6, 2), (7, 0), (7, 1), (7, 2), (8, 0), (8, 1), (8, 2)],
  .ok [(6, 3), (6, 4), (6, 5), (7, 3), (7, 4), (7, 5), (8, 3), (8, 4), (8, 5)],
  .ok [(6, 6), (6, 7), (6, 8), (7, 6), (7, 7), (7, 8), (8, 6), (8, 7), (8, 8)]]
-- test_the_box
#guard (List.range 10).map (fun (i : Nat) => Coordinates.theBox i 5 2) = [.ok [(0, 0), (0, 1), (0, 2), (0, 3), (0, 4), (1, 0), (1, 1), (1, 2), (1, 3), (1, 4)],
  .ok [(0, 5), (0, 6), (0, 7), (0, 8), (0, 9), (1, 5), (1, 6), (1, 7), (1, 8), (1, 9)],
  .ok [(2, 0), (2, 1), (2, 2), (2, 3), (2, 4), (3, 0), (3, 1), (3, 2), (3, 3), (3, 4)],
  .ok [(2, 5), (2, 6), (2, 7), (2, 8), (2, 9), (3, 5), (3, 6), (3, 7), (3, 8), (3, 9)],
  .ok [(4, 0), (4, 1), (4, 2), (4, 3), (4, 4), (5, 0), (5, 1), (5, 2), (5, 3), (5, 4)],
  .ok [(4, 5), (4, 6), (4, 7), (4, 8), (4, 9), (5, 5), (5, 6), (5, 7), (5, 8), (5, 9)],
  .ok [(6, 0), (6, 1), (6, 2), (6, 3), (6, 4), (7, 0), (7, 1), (7, 2), (7, 3), (7, 4)],
  .ok [(6, 5), (6, 6), (6, 7), (6, 8), (6, 9), (7, 5), (7, 6), (7, 7), (7, 8), (7, 9)],
  .ok [(8, 0), (8, 1), (8, 2), (8, 3), (8, 4), (9, 0), (9, 1), (9, 2), (9, 3), (9, 4)],
  .ok [(8, 5), (8, 6), (8, 7), (8, 8), (8, 9), (9, 5), (9, 6), (9, 7), (9, 8), (9, 9)]]
-- test_the_part
#guard (List.range 9).map (fun (i : Nat) => Coordinates.thePart i 3 3) = [.ok [(0, 0), (0, 3), (0, 6), (3, 0), (3, 3), (3, 6), (6, 0), (6, 3), (6, 6)],
  .ok [(0, 1), (0, 4), (0, 7), (3, 1), (3, 4), (3, 7), (6, 1), (6, 4), (6, 7)],
  .ok [(0, 2), (0, 5), (0, 8), (3, 2), (3, 5), (3, 8), (6, 2), (6, 5), (6, 8)],
  .ok [(1, 0), (1, 3), (1, 6), (4, 0), (4, 3), (4, 6), (7, 0), (7, 3), (7, 6)],
  .ok [(1, 1), (1, 4), (1, 7), (4, 1), (4, 4), (4, 7), (7, 1), (7, 4), (7, 7)],
  .ok [(1, 2), (1, 5), (1, 8), (4, 2), (4, 5), (4, 8), (7, 2), (7, 5), (7, 8)],
  .ok [(2, 0), (2, 3), (2, 6), (5, 0), (5, 3), (5, 6), (8, 0), (8, 3), (8, 6)],
  .ok [(2, 1), (2, 4), (2, 7), (5, 1), (5, 4), (5, 7), (8, 1), (8, 4), (8, 7)],
  .ok [(2, 2), (2, 5), (2, 8), (5, 2), (5, 5), (5, 8), (8, 2), (8, 5), (8, 8)]]
-- test_the_part
#guard (List.range 10).map (fun (i : Nat) => Coordinates.thePart i 5 2) = [.ok [(0, 0), (0, 5), (2, 0), (2, 5), (4, 0), (4, 5), (6, 0), (6, 5), (8, 0), (8, 5)],
  .ok [(0, 1), (0, 6), (2, 1), (2, 6), (4, 1), (4, 6), (6, 1), (6, 6), (8, 1), (8, 6)],
  .ok [(0, 2), (0, 7), (2, 2), (2, 7), (4, 2), (4, 7), (6, 2), (6, 7), (8, 2), (8, 7)],
  .ok [(0, 3), (0, 8), (2, 3), (2, 8), (4, 3), (4, 8), (6, 3), (6, 8), (8, 3), (8, 8)],
  .ok [(0, 4), (0, 9), (2, 4), (2, 9), (4, 4), (4, 9), (6, 4), (6, 9), (8, 4), (8, 9)],
  .ok [(1, 0), (1, 5), (3, 0), (3, 5), (5, 0), (5, 5), (7, 0), (7, 5), (9, 0), (9, 5)],
  .ok [(1, 1), (1, 6), (3, 1), (3, 6), (5, 1), (5, 6), (7, 1), (7, 6), (9, 1), (9, 6)],
  .ok [(1, 2), (1, 7), (3, 2), (3, 7), (5, 2), (5, 7), (7, 2), (7, 7), (9, 2), (9, 7)],
  .ok [(1, 3), (1, 8), (3, 3), (3, 8), (5, 3), (5, 8), (7, 3), (7, 8), (9, 3), (9, 8)],
  .ok [(1, 4), (1, 9), (3, 4), (3, 9), (5, 4), (5, 9), (7, 4), (7, 9), (9, 4), (9, 9)]]

/-! ## test_notation.py -/

private def enc (l : List (Int × Int)) (w h : Int := 3) (b : Option Bool := none) (sep nsep : String := "") : String :=
  match Notation.encode l w h b (if sep = "" then [','] else sep.toList) nsep.toList with
  | .ok t => String.ofList t
  | .error .ValueError => "ValueError"
  | .error _ => "error"
private def ndec (s : String) (w h : Int) : Except PyErr (List Cell) := Notation.decode s.toList w h [','] []

#guard enc [(0, 0), (0, 1)] = "r1c12"
#guard enc [(0, 1), (0, 0)] = "r1c12"
#guard enc [(0, 0), (1, 0)] = "r12c1"
#guard enc [(1, 0), (0, 0)] = "r12c1"
#guard enc [(0, 0), (9, 9)] (w := 2) (h := 5) (b := some false) = "r1c1,r10c10"
#guard enc [(9, 9), (0, 0)] (w := 2) (h := 5) (b := some false) = "r1c1,r10c10"
#guard enc [(0, 0), (9, 9)] (w := 2) (h := 5) (b := some true) = "b1p1,b10p10"
#guard enc [(9, 9), (0, 0)] (w := 2) (h := 5) (b := some true) = "b1p1,b10p10"
#guard enc [(0, 0), (0, 11)] (w := 4) (h := 4) = "r1c1,12"
#guard enc [(0, 0), (0, 1), (8, 8)] (nsep := ".") = "r1c1.2,r9c9"
#guard enc [(0, 0), (8, 8)] = "r1c1,r9c9"
#guard enc [(0, 0), (0, 1), (8, 8)] (sep := ", ") = "r1c12, r9c9"
#guard enc [(0, 9)] = "ValueError"
#guard enc [(9, 0)] = "ValueError"
#guard enc [(-1, 0)] = "ValueError"
#guard enc [(0, -1)] = "ValueError"
#guard enc [(0, 0)] (w := 0) = "ValueError"
#guard enc [(0, 0)] (h := 0) = "ValueError"
#guard enc [(0, 0)] (w := 1) = "r1c1"
#guard enc [(0, 0), (1, 1)] (b := some false) = "r1c1,r2c2"
#guard enc [(0, 0), (1, 1)] (b := some true) = "b1p15"
#guard enc [(0, 0), (1, 1)] (b := none) = "b1p15"
#guard enc [(0, 2), (0, 3)] (b := some false) = "r1c34"
#guard enc [(0, 2), (0, 3)] (b := some true) = "b1p3,b2p1"
#guard enc [(0, 2), (0, 3)] (b := none) = "r1c34"
#guard enc [(0, 2)] (w := 3) (b := some true) = "b1p3"
#guard enc [(0, 2)] (w := 2) (b := some true) = "b2p1"
#guard enc [(2, 0)] (h := 3) (b := some true) = "b1p7"
#guard enc [(2, 0)] (h := 2) (b := some true) = "b3p1"
private def rncn_2x4 : List (List String) :=
  [["r1c1", "r1c2", "r1c3", "r1c4", "r1c5", "r1c6", "r1c7", "r1c8"],
  ["r2c1", "r2c2", "r2c3", "r2c4", "r2c5", "r2c6", "r2c7", "r2c8"],
  ["r3c1", "r3c2", "r3c3", "r3c4", "r3c5", "r3c6", "r3c7", "r3c8"],
  ["r4c1", "r4c2", "r4c3", "r4c4", "r4c5", "r4c6", "r4c7", "r4c8"],
  ["r5c1", "r5c2", "r5c3", "r5c4", "r5c5", "r5c6", "r5c7", "r5c8"],
  ["r6c1", "r6c2", "r6c3", "r6c4", "r6c5", "r6c6", "r6c7", "r6c8"],
  ["r7c1", "r7c2", "r7c3", "r7c4", "r7c5", "r7c6", "r7c7", "r7c8"],
  ["r8c1", "r8c2", "r8c3", "r8c4", "r8c5", "r8c6", "r8c7", "r8c8"]]
#guard (List.range 8).map (fun (r : Nat) => (List.range 8).map fun (c : Nat) => enc [(r, c)] 2 4 (some false)) = rncn_2x4
#guard rncn_2x4.map (·.map (ndec · 2 4)) = (List.range 8).map (fun (r : Nat) => (List.range 8).map fun (c : Nat) => .ok [(r, c)])
private def rncn_3x3 : List (List String) :=
  [["r1c1", "r1c2", "r1c3", "r1c4", "r1c5", "r1c6", "r1c7", "r1c8", "r1c9"],
  ["r2c1", "r2c2", "r2c3", "r2c4", "r2c5", "r2c6", "r2c7", "r2c8", "r2c9"],
  ["r3c1", "r3c2", "r3c3", "r3c4", "r3c5", "r3c6", "r3c7", "r3c8", "r3c9"],
  ["r4c1", "r4c2", "r4c3", "r4c4", "r4c5", "r4c6", "r4c7", "r4c8", "r4c9"],
  ["r5c1", "r5c2", "r5c3", "r5c4", "r5c5", "r5c6", "r5c7", "r5c8", "r5c9"],
  ["r6c1", "r6c2", "r6c3", "r6c4", "r6c5", "r6c6", "r6c7", "r6c8", "r6c9"],
  ["r7c1", "r7c2", "r7c3", "r7c4", "r7c5", "r7c6", "r7c7", "r7c8", "r7c9"],
  ["r8c1", "r8c2", "r8c3", "r8c4", "r8c5", "r8c6", "r8c7", "r8c8", "r8c9"],
  ["r9c1", "r9c2", "r9c3", "r9c4", "r9c5", "r9c6", "r9c7", "r9c8", "r9c9"]]
#guard (List.range 9).map (fun (r : Nat) => (List.range 9).map fun (c : Nat) => enc [(r, c)] 3 3 (some false)) = rncn_3x3
#guard rncn_3x3.map (·.map (ndec · 3 3)) = (List.range 9).map (fun (r : Nat) => (List.range 9).map fun (c : Nat) => .ok [(r, c)])
private def rncn_4x2 : List (List String) :=
  [["r1c1", "r1c2", "r1c3", "r1c4", "r1c5", "r1c6", "r1c7", "r1c8"],
  ["r2c1", "r2c2", "r2c3", "r2c4", "r2c5", "r2c6", "r2c7", "r2c8"],
  ["r3c1", "r3c2", "r3c3", "r3c4", "r3c5", "r3c6", "r3c7", "r3c8"],
  ["r4c1", "r4c2", "r4c3", "r4c4", "r4c5", "r4c6", "r4c7", "r4c8"],
  ["r5c1", "r5c2", "r5c3", "r5c4", "r5c5", "r5c6", "r5c7", "r5c8"],
  ["r6c1", "r6c2", "r6c3", "r6c4", "r6c5", "r6c6", "r6c7", "r6c8"],
  ["r7c1", "r7c2", "r7c3", "r7c4", "r7c5", "r7c6", "r7c7", "r7c8"],
  ["r8c1", "r8c2", "r8c3", "r8c4", "r8c5", "r8c6", "r8c7", "r8c8"]]
#guard (List.range 8).map (fun (r : Nat) => (List.range 8).map fun (c : Nat) => enc [(r, c)] 4 2 (some false)) = rncn_4x2
#guard rncn_4x2.map (·.map (ndec · 4 2)) = (List.range 8).map (fun (r : Nat) => (List.range 8).map fun (c : Nat) => .ok [(r, c)])
private def bnpn_2x4 : List (List String) :=
  [["b1p1", "b1p2", "b2p1", "b2p2", "b3p1", "b3p2", "b4p1", "b4p2"],
  ["b1p3", "b1p4", "b2p3", "b2p4", "b3p3", "b3p4", "b4p3", "b4p4"],
  ["b1p5", "b1p6", "b2p5", "b2p6", "b3p5", "b3p6", "b4p5", "b4p6"],
  ["b1p7", "b1p8", "b2p7", "b2p8", "b3p7", "b3p8", "b4p7", "b4p8"],
  ["b5p1", "b5p2", "b6p1", "b6p2", "b7p1", "b7p2", "b8p1", "b8p2"],
  ["b5p3", "b5p4", "b6p3", "b6p4", "b7p3", "b7p4", "b8p3", "b8p4"],
  ["b5p5", "b5p6", "b6p5", "b6p6", "b7p5", "b7p6", "b8p5", "b8p6"],
  ["b5p7", "b5p8", "b6p7", "b6p8", "b7p7", "b7p8", "b8p7", "b8p8"]]
#guard (List.range 8).map (fun (r : Nat) => (List.range 8).map fun (c : Nat) => enc [(r, c)] 2 4 (some true)) = bnpn_2x4
#guard bnpn_2x4.map (·.map (ndec · 2 4)) = (List.range 8).map (fun (r : Nat) => (List.range 8).map fun (c : Nat) => .ok [(r, c)])
private def bnpn_3x3 : List (List String) :=
  [["b1p1", "b1p2", "b1p3", "b2p1", "b2p2", "b2p3", "b3p1", "b3p2", "b3p3"],
  ["b1p4", "b1p5", "b1p6", "b2p4", "b2p5", "b2p6", "b3p4", "b3p5", "b3p6"],
  ["b1p7", "b1p8", "b1p9", "b2p7", "b2p8", "b2p9", "b3p7", "b3p8", "b3p9"],
  ["b4p1", "b4p2", "b4p3", "b5p1", "b5p2", "b5p3", "b6p1", "b6p2", "b6p3"],
  ["b4p4", "b4p5", "b4p6", "b5p4", "b5p5", "b5p6", "b6p4", "b6p5", "b6p6"],
  ["b4p7", "b4p8", "b4p9", "b5p7", "b5p8", "b5p9", "b6p7", "b6p8", "b6p9"],
  ["b7p1", "b7p2", "b7p3", "b8p1", "b8p2", "b8p3", "b9p1", "b9p2", "b9p3"],
  ["b7p4", "b7p5", "b7p6", "b8p4", "b8p5", "b8p6", "b9p4", "b9p5", "b9p6"],
  ["b7p7", "b7p8", "b7p9", "b8p7", "b8p8", "b8p9", "b9p7", "b9p8", "b9p9"]]
#guard (List.range 9).map (fun (r : Nat) => (List.range 9).map fun (c : Nat) => enc [(r, c)] 3 3 (some true)) = bnpn_3x3
#guard bnpn_3x3.map (·.map (ndec · 3 3)) = (List.range 9).map (fun (r : Nat) => (List.range 9).map fun (c : Nat) => .ok [(r, c)])
private def bnpn_4x2 : List (List String) :=
  [["b1p1", "b1p2", "b1p3", "b1p4", "b2p1", "b2p2", "b2p3", "b2p4"],
  ["b1p5", "b1p6", "b1p7", "b1p8", "b2p5", "b2p6", "b2p7", "b2p8"],
  ["b3p1", "b3p2", "b3p3", "b3p4", "b4p1", "b4p2", "b4p3", "b4p4"],
  ["b3p5", "b3p6", "b3p7", "b3p8", "b4p5", "b4p6", "b4p7", "b4p8"],
  ["b5p1", "b5p2", "b5p3", "b5p4", "b6p1", "b6p2", "b6p3", "b6p4"],
  ["b5p5", "b5p6", "b5p7", "b5p8", "b6p5", "b6p6", "b6p7", "b6p8"],
  ["b7p1", "b7p2", "b7p3", "b7p4", "b8p1", "b8p2", "b8p3", "b8p4"],
  ["b7p5", "b7p6", "b7p7", "b7p8", "b8p5", "b8p6", "b8p7", "b8p8"]]
#guard (List.range 8).map (fun (r : Nat) => (List.range 8).map fun (c : Nat) => enc [(r, c)] 4 2 (some true)) = bnpn_4x2
#guard bnpn_4x2.map (·.map (ndec · 4 2)) = (List.range 8).map (fun (r : Nat) => (List.range 8).map fun (c : Nat) => .ok [(r, c)])
#guard ndec "r1c12,r9c9" 3 3 = .ok [(0, 0), (0, 1), (8, 8)]
#guard ndec "r1c1,2,r10c10" 2 5 = .ok [(0, 0), (0, 1), (9, 9)]
private def testSizes : List (Nat × Nat) := [(2, 2), (2, 3), (2, 4), (3, 3), (4, 4)]
#guard testSizes.all fun (w, h) => (List.range (w * h)).all fun (i : Nat) =>
  ndec (s!"b{i + 1}") w h = Coordinates.theBox i w h && ndec (s!"c{i + 1}") w h = Coordinates.theColumn i w h &&
  ndec (s!"p{i + 1}") w h = Coordinates.thePart i w h && ndec (s!"r{i + 1}") w h = Coordinates.theRow i w h

/-! ## test_sudoku.py -/

private def ex9 : Sudoku := fix (dec "\n003020600\n900305001\n001806400\n008102900\n700000008\n006708200\n002609500\n800203009\n005010300")
#guard text (Codec.str ex9) = "    3 |   2   | 6    \n9     | 3   5 |     1\n    1 | 8   6 | 4    \n------+-------+------\n    8 | 1   2 | 9    \n7     |       |     8\n    6 | 7   8 | 2    \n------+-------+------\n    2 | 6   9 | 5    \n8     | 2   3 |     9\n    5 |   1   | 3    "
#guard String.ofList (Codec.encode ex9 [] [] false) = "003020600900305001001806400008102900700000008006708200002609500800203009005010300"
#guard ex9.empty = [(0, 0), (0, 1), (0, 3), (0, 5), (0, 7), (0, 8), (1, 1), (1, 2), (1, 4), (1, 6), (1, 7), (2, 0), (2, 1), (2, 4), (2, 7), (2, 8), (3, 0), (3, 1), (3, 4), (3, 7), (3, 8), (4, 1), (4, 2), (4, 3), (4, 4), (4, 5), (4, 6), (4, 7), (5, 0), (5, 1), (5, 4), (5, 7), (5, 8), (6, 0), (6, 1), (6, 4), (6, 7), (6, 8), (7, 1), (7, 2), (7, 4), (7, 6), (7, 7), (8, 0), (8, 1), (8, 3), (8, 5), (8, 7), (8, 8)]
#guard text (Codec.str (dec "\n0102\n2000\n3004\n0013\n")) = "  1 |   2\n2   |    \n----+----\n3   |   4\n    | 1 3"
#guard ((dec "\n0102\n2000\n3004\n0013\n").bw, (dec "\n0102\n2000\n3004\n0013\n").bh) = (2, 2)
private def ex16 : Sudoku := fix (dec "\n0 4 9 6 1 0 12 0 8 0 14 0 0 0 2 3\n0 5 0 7 3 2 8 16 9 0 15 11 12 10 4 13\n0 8 0 15 0 0 10 11 2 5 1 0 16 6 9 7\n10 11 2 3 7 9 6 15 13 16 0 0 0 0 8 0\n7 0 5 14 8 6 0 12 15 2 3 0 1 11 0 9\n8 16 1 4 0 7 15 14 0 13 11 0 3 12 6 2\n15 3 11 13 2 1 5 10 6 9 0 7 4 16 14 0\n9 12 6 2 13 11 0 4 14 1 8 16 0 5 10 15\n0 14 7 9 15 12 0 0 11 0 10 2 8 0 16 6\n0 2 15 8 10 16 1 0 12 4 0 13 9 3 11 0\n11 1 10 12 6 0 13 9 16 8 7 14 2 4 0 5\n0 6 3 16 14 8 11 2 0 15 9 1 13 0 0 10\n2 7 16 0 11 4 14 0 1 10 13 9 15 8 3 12\n0 15 4 1 0 13 7 8 3 0 2 6 10 9 5 0\n3 13 12 10 16 15 9 1 4 14 5 8 6 2 7 11\n6 9 8 0 0 10 2 0 7 12 16 0 14 13 1 4\n" { numberSep := [' '] })
#guard text (Codec.str ex16) = "    4  9  6 |  1    12    |  8    14    |        2  3\n    5     7 |  3  2  8 16 |  9    15 11 | 12 10  4 13\n    8    15 |       10 11 |  2  5  1    | 16  6  9  7\n10 11  2  3 |  7  9  6 15 | 13 16       |        8   \n------------+-------------+-------------+------------\n 7     5 14 |  8  6    12 | 15  2  3    |  1 11     9\n 8 16  1  4 |     7 15 14 |    13 11    |  3 12  6  2\n15  3 11 13 |  2  1  5 10 |  6  9     7 |  4 16 14   \n 9 12  6  2 | 13 11     4 | 14  1  8 16 |     5 10 15\n------------+-------------+-------------+------------\n   14  7  9 | 15 12       | 11    10  2 |  8    16  6\n    2 15  8 | 10 16  1    | 12  4    13 |  9  3 11   \n11  1 10 12 |  6    13  9 | 16  8  7 14 |  2  4     5\n    6  3 16 | 14  8 11  2 |    15  9  1 | 13       10\n------------+-------------+-------------+------------\n 2  7 16    | 11  4 14    |  1 10 13  9 | 15  8  3 12\n   15  4  1 |    13  7  8 |  3     2  6 | 10  9  5   \n 3 13 12 10 | 16 15  9  1 |  4 14  5  8 |  6  2  7 11\n 6  9  8    |    10  2    |  7 12 16    | 14 13  1  4"
#guard (ex16.bw, ex16.bh) = (4, 4)
#guard (dec "\n003020600\n900305001\n001806400\n008102900\n700000008\n006708200\n002609500\n800203009\n005010300|\n45,4578,347,49,2479,147,678,5789,57,\n2469,24678,47,34,47,457,78,278,127,\n25,257,17,89,79,67,47,23579,2357,\n345,345,48,145,3456,24,79,34567,34567,\n123457,123459,49,459,34569,4,1,13456,34568,\n1345,13459,469,4579,3459,48,12,1345,345,\n134,1347,247,46,478,479,1578,1478,47,\n1468,1467,47,245,457,347,17,1467,4679,\n46,4679,4579,4,1478,47,378,24678,2467\n").getCandidates (0, 1) = {4, 5, 7, 8}
#guard (Sudoku.new 3 3).empty.length = 81 && ((Sudoku.new 3 3).setNumber (0, 0) 4).empty.length = 80
#guard ((ex9.setNumber (2, 3) (ex9.get (2, 3) - 1)).setNumber (4, 2) (ex9.get (4, 2) - 1)).diff ex9 = [(2, 3), (4, 2)]
#guard ex9.eq (ex9.setCandidates (0, 0) {3, 4}) && !ex9.eq (ex9.setNumber (2, 3) (ex9.get (2, 3) - 1))
#guard (((Sudoku.new 3 3).setCandidates (0, 0) {1, 2, 3, 4}).removeCandidates (0, 0) {2, 4}).getCandidates (0, 0) = {1, 3}
#guard sortCells ((Sudoku.new 3 2).surroundingOf (1, 1)) = [(0, 0), (0, 1), (0, 2), (1, 0), (1, 1), (1, 2), (1, 3), (1, 4), (1, 5), (2, 1), (3, 1), (4, 1), (5, 1)]
#guard testSizes.all fun (w, h) => ((Sudoku.new w h).cells.map fun a => (Sudoku.new w h).boxAt a.1 a.2) =
  (List.range w).flatMap fun i => (List.range h).flatMap fun _ => (List.range h).flatMap fun x => List.replicate w (x + i * h)
#guard testSizes.all fun (w, h) => (Sudoku.new w h).len = w ^ 2 * h ^ 2 && (Sudoku.new w h).cells.length = w ^ 2 * h ^ 2
#guard text (Codec.view (fix (Solve.initCandidates (fix (dec "\n003020600\n900305001\n001806400\n008102900\n700000008\n006708200\n002609500\n800203009\n005010300\n")))) true [] false) = "45     4578   3      | 49     2      147    | 6      5789   57    \n9      24678  47     | 3      47     5      | 78     278    1     \n25     257    1      | 8      79     6      | 4      23579  2357  \n---------------------+----------------------+---------------------\n345    345    8      | 1      3456   2      | 9      34567  34567 \n7      123459 49     | 459    34569  4      | 1      13456  8     \n1345   13459  6      | 7      3459   8      | 2      1345   345   \n---------------------+----------------------+---------------------\n134    1347   2      | 6      478    9      | 5      1478   47    \n8      1467   47     | 2      457    3      | 17     1467   9     \n46     4679   5      | 4      1      47     | 3      24678  2467  "
#guard text (Codec.view (fix (Solve.initCandidates (fix (dec "\n000530\n204000\n150000\n000205\n500006\n000010\n" { boxSize := some (2, 3) })))) true ['*'] true) = "  *46   *46 |  *126     5 |     3  *124\n    2   *36 |     4  *136 |   *56    *1\n    1     5 |  *236   *36 |  *246   *24\n------------+-------------+------------\n *346 *1346 |  *136     2 |    *4     5\n    5 *1234 |   *13  *134 |   *24     6\n *346 *2346 |  *356  *346 |     1  *234"
#guard text (Codec.view (fix (Solve.initCandidates (fix (dec "\n0 4 9 6 1 0 12 0 8 0 14 0 0 0 2 3\n0 5 0 7 3 2 8 16 9 0 15 11 12 10 4 13\n0 8 0 15 0 0 10 11 2 5 1 0 16 6 9 7\n10 11 2 3 7 9 6 15 13 16 0 0 0 0 8 0\n7 0 5 14 8 6 0 12 15 2 3 0 1 11 0 9\n8 16 1 4 0 7 15 14 0 13 11 0 3 12 6 2\n15 3 11 13 2 1 5 10 6 9 0 7 4 16 14 0\n9 12 6 2 13 11 0 4 14 1 8 16 0 5 10 15\n0 14 7 9 15 12 0 0 11 0 10 2 8 0 16 6\n0 2 15 8 10 16 1 0 12 4 0 13 9 3 11 0\n11 1 10 12 6 0 13 9 16 8 7 14 2 4 0 5\n0 6 3 16 14 8 11 2 0 15 9 1 13 0 0 10\n2 7 16 0 11 4 14 0 1 10 13 9 15 8 3 12\n0 15 4 1 0 13 7 8 3 0 2 6 10 9 5 0\n3 13 12 10 16 15 9 1 4 14 5 8 6 2 7 11\n6 9 8 0 0 10 2 0 7 12 16 0 14 13 1 4\n" { numberSep := [' '] })))) true ['*'] true) = "   *13,16         4         9         6 |         1        *5        12     *5,13 |         8        *7        14       *10 |     *5,11       *15         2         3\n    *1,14         5       *14         7 |         3         2         8        16 |         9        *6        15        11 |        12        10         4        13\n*12,13,14         8    *13,14        15 |        *4       *14        10        11 |         2         5         1   *3,4,12 |        16         6         9         7\n       10        11         2         3 |         7         9         6        15 |        13        16     *4,12     *4,12 |        *5     *1,14         8     *1,14\n----------------------------------------+-----------------------------------------+-----------------------------------------+----------------------------------------\n        7       *10         5        14 |         8         6       *16        12 |        15         2         3     *4,10 |         1        11       *13         9\n        8        16         1         4 |        *9         7        15        14 |     *5,10        13        11     *5,10 |         3        12         6         2\n       15         3        11        13 |         2         1         5        10 |         6         9       *12         7 |         4        16        14        *8\n        9        12         6         2 |        13        11        *3         4 |        14         1         8        16 |        *7         5        10        15\n----------------------------------------+-----------------------------------------+-----------------------------------------+----------------------------------------\n  *4,5,13        14         7         9 |        15        12      *3,4      *3,5 |        11        *3        10         2 |         8        *1        16         6\n       *5         2        15         8 |        10        16         1      *5,7 |        12         4        *6        13 |         9         3        11       *14\n       11         1        10        12 |         6        *3        13         9 |        16         8         7        14 |         2         4       *15         5\n     *4,5         6         3        16 |        14         8        11         2 |        *5        15         9         1 |        13        *7       *12        10\n----------------------------------------+-----------------------------------------+-----------------------------------------+----------------------------------------\n        2         7        16        *5 |        11         4        14      *5,6 |         1        10        13         9 |        15         8         3        12\n      *14        15         4         1 |       *12        13         7         8 |         3       *11         2         6 |        10         9         5       *16\n        3        13        12        10 |        16        15         9         1 |         4        14         5         8 |         6         2         7        11\n        6         9         8     *5,11 |        *5        10         2      *3,5 |         7        12        16       *15 |        14        13         1         4"

/-! ## test_analyze.py and test_solve.py -/

#guard Solve.findConflicts ex9 [(1, 2)] = [] && Solve.findConflicts ex9 = []
#guard Solve.findConflicts (fix (ex9.setNumber (1, 2) 1)) [(1, 2)] = [((1, 2), (1, 8), 1), ((1, 2), (2, 2), 1)]
private def solveExamples : List (Sudoku × Sudoku) := [(fix (dec "\n    003020600\n    900305001\n    001806400\n    008102900\n    700000008\n    006708200\n    002609500\n    800203009\n    005010300\n    "), fix (dec "\n    483921657\n    967345821\n    251876493\n    548132976\n    729564138\n    136798245\n    372689514\n    814253769\n    695417382\n    ")),
  (fix (dec "\n    009003008\n    010040020\n    200700400\n    800600700\n    090070010\n    003004002\n    005001007\n    030090050\n    700400200\n    "), fix (dec "\n    469523178\n    317948526\n    258716439\n    821659743\n    694372815\n    573184962\n    945261387\n    132897654\n    786435291\n    ")),
  (fix (dec "\n    000000000\n    000008435\n    000030860\n    000000218\n    060000000\n    900154000\n    001000040\n    008700021\n    020900500\n    "), fix (dec "\n    835476192\n    716298435\n    249531867\n    574369218\n    163827954\n    982154673\n    351682749\n    698745321\n    427913586\n    ")),
  (fix (dec "\n    123456\n    630001\n    500002\n    462513\n    314625\n    251364\n    "), fix (dec "\n    123456\n    635241\n    546132\n    462513\n    314625\n    251364\n    "))]
#guard solveExamples.all fun (a, _) => Solve.findConflicts a = []
#guard testSizes.all fun (w, h) => Solve.findConflicts (Sudoku.new w h) = []
private def unsolvables : List Sudoku := [fix (dec "\n000000000\n000008435\n000030860\n000000218\n060000000\n900154000\n001000040\n008700025\n020900500\n"),
  fix (dec "\n0014  \n1010\n3241\n0000\n")]
#guard unsolvables.all fun a => Solve.findConflicts a ≠ [] && (Solve.bruteforce sorted 100 a).map List.length = some 0
private def exCand : Sudoku := fix (dec "\n003020600\n900305001\n001806400\n008102900\n700000008\n006708200\n002609500\n800203009\n005010300|\n45,4578,3,49,2,147,6,5789,57,\n9,24678,47,3,47,5,78,278,1,\n25,257,1,8,79,6,4,23579,2357,\n345,345,8,1,3456,2,9,34567,34567,\n7,123459,49,459,34569,4,1,13456,8,\n1345,13459,6,7,3459,8,2,1345,345,\n134,1347,2,6,478,9,5,1478,47,\n8,1467,47,2,457,3,17,1467,9,\n46,4679,5,4,1,47,3,24678,2467\n")
#guard exCand.cells.all fun a => Solve.calcCandidates (exCand.copy false) a = exCand.getCandidates a
#guard exCand.cells.all fun a => (Solve.initCandidates (exCand.copy false)).getCandidates a = exCand.getCandidates a
#guard exCand.cells.all fun a => (Solve.initCandidates (exCand.copy false) true).getCandidates a = if exCand.get a = 0 then ∅ else {exCand.get a}
#guard (solveExamples.take 1 ++ solveExamples.drop 3).all fun (a, b) => ((Solve.bruteforce sorted 100 a).map fun l => l.map fun x => x.eq b) = some [true]
#guard solveExamples.all fun (a, b) => (match Dlx.dlx dlxOrder 1000 a with | .ok l => l.map fun x => x.eq b | .error _ => []) = [true]
#guard solveExamples.all fun (a, _) => Dlx.isUnique dlxOrder 1000 a = .ok true
#guard unsolvables.all fun a => (match Dlx.dlx dlxOrder 1000 a with | .ok l => l.length | .error _ => 1) = 0
#guard (solveExamples.take 1).all fun (a, _) => ((Solve.bruteforce sorted 100 (fix (a.setNumber (0, 0) 5))).map List.length) = some 0 &&
  (match Dlx.dlx dlxOrder 1000 (fix (a.setNumber (0, 0) 5)) with | .ok l => l.length | .error _ => 1) = 0

/-! ## test_solvers.py -/

private def exSteps : Sudoku := fix (Solve.initCandidates (fix (dec "\n000070005\n600051807\n000800040\n002000301\n010002000\n030000090\n509000012\n800000406\n004006000\n")))
#guard least (steps .nakedSingle exSteps) = some (Step.single .nakedSingle (1, 2) 3)
#guard least (steps (.nakedTuple 2) exSteps) = some (Step.mk' (.nakedTuple 2) [(2, 5), (2, 8)] [(2, 0), (2, 1), (2, 2), (2, 4), (2, 6)] [3, 9])
#guard least (steps (.nakedTuple 3) exSteps) = some (Step.mk' (.nakedTuple 3) [(3, 0), (4, 0), (5, 0)] [(0, 0), (2, 0), (8, 0)] [4, 7, 9])
#guard least (steps (.nakedTuple 4) exSteps) = some (Step.mk' (.nakedTuple 4) [(7, 1), (7, 2), (8, 0), (8, 1)] [(6, 1)] [1, 2, 3, 7])
#guard least (steps (.nakedTuple 5) exSteps) = some (Step.mk' (.nakedTuple 5) [(3, 7), (4, 6), (4, 7), (4, 8), (5, 8)] [(5, 6)] [4, 5, 6, 7, 8])
#guard least (steps .hiddenSingle exSteps) = some (Step.single .hiddenSingle (5, 6) 2)
#guard least (steps (.hiddenTuple 2) exSteps) = some (Step.mk' (.hiddenTuple 2) [(0, 8), (1, 8), (2, 8), (3, 8), (4, 8), (5, 8), (6, 8), (7, 8), (8, 8)] [(8, 8)] [3, 9])
#guard least (steps (.hiddenTuple 3) exSteps) = some (Step.mk' (.hiddenTuple 3) [(0, 0), (1, 0), (2, 0), (3, 0), (4, 0), (5, 0), (6, 0), (7, 0), (8, 0)] [(0, 0), (2, 0), (8, 0)] [1, 2, 3])
#guard least (steps (.hiddenTuple 4) exSteps) = some (Step.mk' (.hiddenTuple 4) [(0, 1), (1, 1), (2, 1), (3, 1), (4, 1), (5, 1), (6, 1), (7, 1), (8, 1)] [(0, 1), (1, 1), (2, 1), (3, 1)] [4, 5, 8, 9])
#guard least (steps (.hiddenTuple 5) exSteps) = some (Step.mk' (.hiddenTuple 5) [(0, 1), (1, 1), (2, 1), (3, 1), (4, 1), (5, 1), (6, 1), (7, 1), (8, 1)] [(0, 1), (1, 1), (2, 1), (3, 1), (6, 1)] [4, 5, 6, 8, 9])
#guard least (steps (.pointingTuple 2) exSteps) = some (Step.mk' (.pointingTuple 2) [(0, 7), (1, 7)] [(0, 6), (2, 6)] [2])
#guard least (steps (.pointingTuple 3) exSteps) = some (Step.mk' (.pointingTuple 3) [(6, 3), (6, 4), (6, 5)] [(7, 3), (7, 4), (7, 5), (8, 3), (8, 4)] [3])
#guard least (steps .bruteforce exSteps) = some (Step.single .bruteforce (0, 0) 1)
#guard steps (.basicFish 2) (fix (Solve.initCandidates (fix (dec "\n500010070\n840000000\n603500000\n000030005\n000107000\n030040210\n070950400\n000004502\n000000900\n")))) = [Step.mk' (.basicFish 2) [(4, 1), (4, 2), (8, 1), (8, 2)] [(5, 2)] [5]]
#guard steps (.basicFish 3) (fix (Solve.initCandidates (fix (dec " \n000900000\n040058006\n509004000\n000000040\n650000203\n020600008\n900740000\n007000800\n003009005\n")))) = [Step.mk' (.basicFish 3) [(0, 6), (0, 8), (7, 0), (7, 8), (8, 0), (8, 6)] [(5, 0)] [4],
  Step.mk' (.basicFish 3) [(1, 6), (1, 7), (4, 4), (4, 7), (5, 4), (5, 6), (5, 7)] [(3, 4), (3, 6), (7, 7)] [9]]
#guard steps (.basicFish 4) (fix (Solve.initCandidates (fix (dec "\n900080000\n000014580\n007090200\n108940020\n009030000\n050000030\n300000670\n021050300\n000000100\n")))) = [Step.mk' (.basicFish 4) [(0, 2), (0, 3), (0, 5), (0, 8), (1, 2), (1, 3), (1, 8), (2, 3), (2, 5), (2, 8), (8, 3), (8, 5)] [(0, 1), (1, 1), (2, 1)] [3]]

/-! ## README.md -/

private def readme1 : Sudoku := fix (dec "\n000030000\n005009602\n008004013\n020060000\n703040106\n000080090\n210300800\n306800700\n000020000\n")
#guard String.ofList (Codec.encode readme1 [] [] false) = "000030000005009602008004013020060000703040106000080090210300800306800700000020000"
#guard text (Codec.str readme1) = "      |   3   |      \n    5 |     9 | 6   2\n    8 |     4 |   1 3\n------+-------+------\n  2   |   6   |      \n7   3 |   4   | 1   6\n      |   8   |   9  \n------+-------+------\n2 1   | 3     | 8    \n3   6 | 8     | 7    \n      |   2   |      "
#guard text (Codec.view (fix (Solve.initCandidates readme1)) true ['*'] true) = "  *1469   *4679  *12479 |  *12567       3 *125678 |    *459   *4578  *45789\n    *14    *347       5 |     *17     *17       9 |       6    *478       2\n    *69    *679       8 |   *2567     *57       4 |     *59       1       3\n------------------------+-------------------------+------------------------\n *14589       2    *149 |   *1579       6   *1357 |    *345  *34578   *4578\n      7    *589       3 |    *259       4     *25 |       1    *258       6\n  *1456    *456     *14 |   *1257       8  *12357 |   *2345       9    *457\n------------------------+-------------------------+------------------------\n      2       1    *479 |       3    *579    *567 |       8    *456    *459\n      3    *459       6 |       8    *159     *15 |       7    *245   *1459\n  *4589  *45789    *479 | *145679       2   *1567 |   *3459   *3456   *1459"
#guard sortSet (Solve.calcCandidates readme1 (0, 8)) = [4, 5, 7, 8, 9]
private def readme3 : Sudoku := fix (dec "\n020000006\n002040007\n090100008\n700200000\n000070900\n189006000\n050000030\n000000800\n300032140\n")
#guard Solve.findConflicts readme3 = [((0, 1), (1, 2), 2), ((1, 2), (0, 1), 2), ((8, 0), (8, 4), 3), ((8, 4), (8, 0), 3)]
-- the solution shown is that of the first sudoku; "the instance from the code above" has none
#guard (Solve.bruteforce sorted 100 readme1).map (fun l => l.map fun x => text (Codec.str x)) = some ["1 9 2 | 6 3 8 | 5 7 4\n4 3 5 | 7 1 9 | 6 8 2\n6 7 8 | 2 5 4 | 9 1 3\n------+-------+------\n9 2 1 | 5 6 7 | 4 3 8\n7 8 3 | 9 4 2 | 1 5 6\n5 6 4 | 1 8 3 | 2 9 7\n------+-------+------\n2 1 9 | 3 7 6 | 8 4 5\n3 4 6 | 8 9 5 | 7 2 1\n8 5 7 | 4 2 1 | 3 6 9"]
#guard (Solve.bruteforce sorted 100 readme3).map List.length = some 0
private def readme4 : Sudoku := fix (match applyAll order 100 .calculateCandidates (fix (dec "\n400305020\n908010000\n000000000\n003000062\n500020000\n080700000\n700000500\n005003004\n000408103\n")) with | .ok s => s | .error _ => Sudoku.new 0 0)
#guard (match find (W := Sudoku × List Step) Prod.fst (fun w st => (fix (st.apply w.1), w.2 ++ [st])) order 100 .hiddenSingle (readme4, []) with
    | .ok w => (w.2.map fun st => text st.str, text (Codec.str w.1))
    | .error _ => ([], "")) =
  (["HiddenSingle at (2, 0): 3", "HiddenSingle at (3, 3): 5", "HiddenSingle at (5, 4): 3", "HiddenSingle at (6, 1): 3", "HiddenSingle at (6, 2): 4", "HiddenSingle at (7, 0): 8", "HiddenSingle at (7, 1): 1", "HiddenSingle at (7, 6): 2", "HiddenSingle at (8, 4): 5", "HiddenSingle at (8, 7): 7"],
    "4     | 3   5 |   2  \n9   8 |   1   |      \n3     |       |      \n------+-------+------\n    3 | 5     |   6 2\n5     |   2   |      \n  8   | 7 3   |      \n------+-------+------\n7 3 4 |       | 5    \n8 1 5 |     3 | 2   4\n      | 4 5 8 | 1 7 3")
private def readme5 : Sudoku := fix (dec "\n0 4 9 6 1 0 12 0 8 0 14 0 0 0 2 3\n0 5 0 7 3 2 8 16 9 0 15 11 12 10 4 13\n0 8 0 15 0 0 10 11 2 5 1 0 16 6 9 7\n10 11 2 3 7 9 6 15 13 16 0 0 0 0 8 0\n7 0 5 14 8 6 0 12 15 2 3 0 1 11 0 9\n8 16 1 4 0 7 15 14 0 13 11 0 3 12 6 2\n15 3 11 13 2 1 5 10 6 9 0 7 4 16 14 0\n9 12 6 2 13 11 0 4 14 1 8 16 0 5 10 15\n0 14 7 9 15 12 0 0 11 0 10 2 8 0 16 6\n0 2 15 8 10 16 1 0 12 4 0 13 9 3 11 0\n11 1 10 12 6 0 13 9 16 8 7 14 2 4 0 5\n0 6 3 16 14 8 11 2 0 15 9 1 13 0 0 10\n2 7 16 0 11 4 14 0 1 10 13 9 15 8 3 12\n0 15 4 1 0 13 7 8 3 0 2 6 10 9 5 0\n3 13 12 10 16 15 9 1 4 14 5 8 6 2 7 11\n6 9 8 0 0 10 2 0 7 12 16 0 14 13 1 4\n" { numberSep := [' '] })
#guard s!"({readme5.bw}, {readme5.bh})\n" ++ text (Codec.str readme5) = "(4, 4)\n    4  9  6 |  1    12    |  8    14    |        2  3\n    5     7 |  3  2  8 16 |  9    15 11 | 12 10  4 13\n    8    15 |       10 11 |  2  5  1    | 16  6  9  7\n10 11  2  3 |  7  9  6 15 | 13 16       |        8   \n------------+-------------+-------------+------------\n 7     5 14 |  8  6    12 | 15  2  3    |  1 11     9\n 8 16  1  4 |     7 15 14 |    13 11    |  3 12  6  2\n15  3 11 13 |  2  1  5 10 |  6  9     7 |  4 16 14   \n 9 12  6  2 | 13 11     4 | 14  1  8 16 |     5 10 15\n------------+-------------+-------------+------------\n   14  7  9 | 15 12       | 11    10  2 |  8    16  6\n    2 15  8 | 10 16  1    | 12  4    13 |  9  3 11   \n11  1 10 12 |  6    13  9 | 16  8  7 14 |  2  4     5\n    6  3 16 | 14  8 11  2 |    15  9  1 | 13       10\n------------+-------------+-------------+------------\n 2  7 16    | 11  4 14    |  1 10 13  9 | 15  8  3 12\n   15  4  1 |    13  7  8 |  3     2  6 | 10  9  5   \n 3 13 12 10 | 16 15  9  1 |  4 14  5  8 |  6  2  7 11\n 6  9  8    |    10  2    |  7 12 16    | 14 13  1  4"

/-! ## test_shell.py -/

private def lib : Shell.Lib Sudoku Shell.Val Unit := Props.demo sorted 100
#guard (match Shell.parse lib "exit 1 2 5 None 2,3,4".toList with
  | .ok c => decide (c.name = .exit) && decide (c.args = [.value (.int 1), .value (.int 2), .value (.int 5), .value .none, .value (.ints .tuple [2, 3, 4])]) && decide (c.kwargs = [])
  | .error _ => false)
#guard (match Shell.parse lib "exit 2 1 4 2 max_size=32 include=False".toList with
  | .ok c => decide (c.name = .exit) && decide (c.args = [.value (.int 2), .value (.int 1), .value (.int 4), .value (.int 2)]) &&
    decide (c.kwargs = [("max_size".toList, .int 32), ("include".toList, .bool false)])
  | .error _ => false)
private def errors (line : String) : Nat := (Shell.executeLine lib true line.toList (Shell.init lib true ())).1.errors.length
-- (`get` and `get_candidates` succeed in test_shell.py only because `_print` is replaced there, see C68; commands with `generate` are left out)
#guard ["new",
  "decode '008000000000000001200140050000200060070001503400060017093028070840000000002010000'",
  "set 0 0 8",
  "set_candidates 0 0 5,6",
  "remove_candidates 0 0 1,2",
  "new; encode",
  "new; print",
  "loop 3; new; loop end",
  "push",
  "push; pop",
  "push; pop 0",
  "help",
  "exit"].all fun l => errors l = 0
#guard ["new sudoku",
  "decode '008000000000000001200140050000200060070001503400060017093028070840000000002010000 please'",
  "get 0 0 3",
  "set 20 20 8",
  "get_candidates 20 20",
  "set_candidates 20 20 5,6",
  "remove_candidates 20 20 1,2",
  "new; encode 1",
  "new; print 2",
  "loop 3; loop 3; loop end",
  "push 20",
  "pop",
  "push; pop 1",
  "exit 'now'",
  "unknown_command"].all fun l => errors l > 0

end Upstream
