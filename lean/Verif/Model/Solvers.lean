import Verif.Model.Solve
import Verif.Model.Dlx
import Mathlib.Data.Finset.Defs
import Mathlib.Data.List.Sort

set_option autoImplicit false

/-!
# `sudokutools/solvers.py`, and `rate`, `score` of `analyze.py`

The `find` methods are generators; the consumer may change the sudoku whenever a step is yielded, and `solve` and
`apply_all` do.  The model runs a generator against an arbitrary consumer: `W` is the type of states of the rest of the
program, `view w` the sudoku in state `w`, and `κ w step` the state when the generator is resumed after it yielded `step`.
The generator reads the sudoku exactly when the Python code does; data kept in local variables is not read again.
-/

open Spec

namespace Solvers

/-- The classes of solve steps: solvers.py:122-532. -/
inductive Kind
  | calculateCandidates | nakedSingle | hiddenSingle | bruteforce
  | nakedTuple (n : Nat) | hiddenTuple (n : Nat) | pointingTuple (n : Nat) | basicFish (n : Nat)
  deriving DecidableEq, Repr

/-- solvers.py:56-72: the class and the attributes of a `SolveStep` (`self.actions` is treated below). -/
structure Step where
  kind : Kind
  clues : List Cell
  affected : List Cell
  values : List Int
  deriving DecidableEq

/-- The order of Python on pairs. -/
def cellLe (a b : Cell) : Prop := a.1 < b.1 ∨ (a.1 = b.1 ∧ a.2 ≤ b.2)

instance (a b : Cell) : Decidable (cellLe a b) := inferInstanceAs (Decidable (_ ∨ _))
instance : DecidableRel cellLe := fun a b => inferInstanceAs (Decidable (cellLe a b))

/-- `tuple(sorted(cells))`. -/
def sortCells (l : List Cell) : List Cell := l.insertionSort cellLe

/-- `tuple(sorted(l))` for a list of numbers. -/
def sortInts (l : List Int) : List Int := l.insertionSort (· ≤ ·)

/-- `tuple(sorted(S))` for a set of numbers. -/
def sortSet (S : Finset Int) : List Int :=
  Quot.liftOn S.1 sortInts fun l l' (h : l.Perm l') =>
    List.Perm.eq_of_pairwise' (r := (· ≤ ·)) (List.pairwise_insertionSort (· ≤ ·) l) (List.pairwise_insertionSort (· ≤ ·) l')
      ((List.perm_insertionSort _ l).trans (h.trans (List.perm_insertionSort _ l').symm))

/-- solvers.py:57-72 `SolveStep.__init__`. -/
def Step.mk' (kind : Kind) (clues affected : List Cell) (values : List Int) : Step :=
  { kind, clues := sortCells clues, affected := sortCells affected, values := sortInts values }

/-- The same with a set of values. -/
def Step.mkSet (kind : Kind) (clues affected : List Cell) (values : Finset Int) : Step :=
  { kind, clues := sortCells clues, affected := sortCells affected, values := sortSet values }

/-- solvers.py:144-146 `_SingleFieldStep.__init__`. -/
def Step.single (kind : Kind) (a : Cell) (v : Int) : Step := Step.mk' kind [a] [a] [v]

/-- solvers.py:74-76 `__eq__`: the class is not compared. -/
def Step.eq (a b : Step) : Bool := a.clues == b.clues && a.affected == b.affected && a.values == b.values

/-- `a < b` for Python tuples, `lt` being `<` of the elements: the first different position decides; a proper prefix is
smaller. -/
def tupleLt {α : Type} [DecidableEq α] (lt : α → α → Bool) : List α → List α → Bool
  | _, [] => false
  | [], _ :: _ => true
  | x :: xs, y :: ys => if x = y then tupleLt lt xs ys else lt x y

/-- `<` for pairs of numbers. -/
def cellLt (a b : Cell) : Bool := if a.1 = b.1 then decide (a.2 < b.2) else decide (a.1 < b.1)

/-- solvers.py:78-80 `__lt__`: comparing the tuple of the three tuples. -/
def Step.lt (a b : Step) : Bool :=
  if a.clues = b.clues then
    if a.affected = b.affected then
      tupleLt (fun x y : Int => decide (x < y)) a.values b.values
    else tupleLt cellLt a.affected b.affected
  else tupleLt cellLt a.clues b.clues

/-- solvers.py:41-52 `Action`. -/
inductive Action
  | setNumber (a : Cell) (v : Int)
  | setCandidates (a : Cell) (vs : Finset Int)
  | removeCandidates (a : Cell) (vs : Finset Int)
  deriving DecidableEq

/-- solvers.py:113 `action.func(sudoku, action.row, action.col, action.value)`. -/
def Action.exec (s : Sudoku) : Action → Sudoku
  | .setNumber a v => s.setNumber a v
  | .setCandidates a vs => s.setCandidates a vs
  | .removeCandidates a vs => s.removeCandidates a vs

/-- solvers.py:161-173 `_SingleFieldStep.build_actions`, for the field `a` and the value `v`. -/
def buildSingle (a : Cell) (v : Int) (s : Sudoku) : List Action :=
  .setNumber a v :: .setCandidates a {v} ::
    ((s.surroundingOf a false).filter fun b => decide (v ∈ s.getCandidates b)).map fun b => .removeCandidates b {v}

/-- The `build_actions` methods: solvers.py:134-138, 161-173, 253-258, 320-324, 455-460, 524-527.
`self.clues[0]`, `self.affected[0]`, `self.values[0]` raise `IndexError` on empty tuples (never for found steps). -/
def Step.build (st : Step) (s : Sudoku) : Except PyErr (List Action) :=
  match st.kind with
  | .calculateCandidates => match st.clues with
    | [] => .error .IndexError
    | a :: _ => .ok [.setCandidates a st.values.toFinset]
  | .nakedSingle | .hiddenSingle | .bruteforce => match st.affected, st.values with
    | a :: _, v :: _ => .ok (buildSingle a v s)
    | _, _ => .error .IndexError
  | .nakedTuple _ => .ok (st.affected.map fun a => .removeCandidates a (st.values.toFinset ∩ s.getCandidates a))
  | .hiddenTuple _ => .ok (st.affected.map fun a => .removeCandidates a (s.getCandidates a \ st.values.toFinset))
  | .pointingTuple _ => match st.values with
    | [] => .error .IndexError
    | _ :: _ => .ok (st.affected.map fun a => .removeCandidates a st.values.toFinset)
  | .basicFish _ => .ok (st.affected.map fun a => .removeCandidates a st.values.toFinset)

/-- A step as Python object: with the actions built so far (solvers.py:72). -/
structure StepObj where
  step : Step
  actions : List Action := []

/-- solvers.py:107-113 `apply`: the actions are built only if there are none yet. -/
def StepObj.apply (o : StepObj) (s : Sudoku) : Except PyErr (StepObj × Sudoku) :=
  if o.actions.isEmpty then
    match o.step.build s with
    | .error e => .error e
    | .ok acts => .ok ({ o with actions := acts }, acts.foldl Action.exec s)
  else .ok (o, o.actions.foldl Action.exec s)

/-- `apply` of a fresh step; a step that cannot build its actions changes nothing here (Python raises, see
`StepObj.apply`). -/
def Step.apply (s : Sudoku) (st : Step) : Sudoku :=
  match st.build s with
  | .error _ => s
  | .ok acts => acts.foldl Action.exec s

/-! ## The generators -/

/-- `itertools.combinations(l, n)`. -/
def combos {α : Type} : Nat → List α → List (List α)
  | 0, _ => [[]]
  | _ + 1, [] => []
  | n + 1, x :: xs => (combos n xs).map (x :: ·) ++ combos (n + 1) xs

/-- The orders in which Python visits sets and dicts; they may depend on everything. -/
structure Orders (W : Type) where
  /-- the set `candidates` in `HiddenSingle.find`, for a field and one of the three units -/
  hidden : W → Cell → Nat → Finset Int → List Int
  /-- the dict `fields` in `BasicFish` -/
  fish : W → Int → Bool → List Nat → List Nat
  dlx : W → Dlx.Orders

/-- Each element is visited once. -/
structure Orders.Ok {W : Type} (π : Orders W) : Prop where
  hidden : ∀ w a k S, (π.hidden w a k S).Nodup ∧ ∀ x, x ∈ π.hidden w a k S ↔ x ∈ S
  fish : ∀ w v b l, (π.fish w v b l).Perm l
  dlx : ∀ w, (π.dlx w).Ok

section
variable {W : Type} (view : W → Sudoku) (κ : W → Step → W)

/-- solvers.py:124-132 `CalculateCandidates.find`. -/
def findCalc (w : W) : W :=
  (view w).cells.foldl (fun w a =>
    if (view w).getCandidates a ≠ ∅ then w
    else κ w (Step.mkSet .calculateCandidates [a] [a] (Solve.calcCandidates (view w) a))) w

/-- solvers.py:184-191 `NakedSingle.find`.  `sudoku.empty()` looks at each field when it gets there. -/
def findNakedSingle (w : W) : W :=
  (view w).cells.foldl (fun w a =>
    if (view w).get a = 0 then
      match sortSet ((view w).getCandidates a) with
      | [v] => κ w (Step.single .nakedSingle a v)
      | _ => w
    else w) w

/-- solvers.py:210-212: the numbers that no other field of the unit has as candidate. -/
def hiddenCands (s : Sudoku) (unit : List Cell) : Finset Int :=
  unit.foldl (fun S b => S \ s.getCandidates b) s.numbers.toFinset

/-- solvers.py:208: `sudoku.column_of, sudoku.row_of, sudoku.box_of`. -/
def unitOf (s : Sudoku) : Nat → Cell → Bool → List Cell
  | 0, a, incl => s.columnOf a incl
  | 1, a, incl => s.rowOf a incl
  | _, a, incl => s.boxOf a incl

/-- solvers.py:208-222: the loop over the three functions; the state is the state of the program and `yielded_coords`. -/
def hiddenUnits (π : Orders W) (a : Cell) : List Nat → W × List Cell → W × List Cell
  | [], p => p
  | k :: ks, p =>
    let candidates := hiddenCands (view p.1) (unitOf (view p.1) k a false)
    let r := (π.hidden p.1 a k candidates).foldl (fun (q : W × List Cell × Bool) v =>
      if a ∉ q.2.1 then (κ q.1 (Step.single .hiddenSingle a v), q.2.1 ++ [a], true) else q) (p.1, p.2, false)
    if r.2.2 then (r.1, r.2.1) else hiddenUnits π a ks (r.1, r.2.1)

/-- solvers.py:203-222 `HiddenSingle.find`. -/
def findHiddenSingle (π : Orders W) (w : W) : W :=
  ((view w).cells.foldl (fun (p : W × List Cell) a =>
    if (view p.1).get a = 0 then hiddenUnits view κ π a [0, 1, 2] p else p) (w, [])).1

/-- solvers.py:232-239 `Bruteforce.find`.  `sudoku.diff` looks at each field when it gets there.  `next` stops after the
first solution; a `RecursionError` later in the search cannot occur, since all branches ending in a solution are
equally deep (`C57_depth`). -/
def findBruteforce (π : Orders W) (fuel : Nat) (w : W) : Except PyErr W :=
  match Dlx.dlx (π.dlx w) fuel (view w) with
  | .error e => .error e
  | .ok [] => .ok w
  | .ok (solution :: _) => .ok ((view w).cells.foldl (fun w a =>
      if (view w).get a ≠ solution.get a then κ w (Step.single .bruteforce a (solution.get a)) else w) w)

/-- solvers.py:268-272, 334-338: the different units (rows, columns or boxes) of the empty fields. -/
def unitList (s : Sudoku) (k : Nat) : List (List Cell) :=
  s.empty.foldl (fun clist a => if unitOf s k a true ∈ clist then clist else clist ++ [unitOf s k a true]) []

/-- solvers.py:279-300 `NakedTuple.__find_at` with the consumer solvers.py:274-277; the state includes `yielded_coords`. -/
def nakedAt (n : Nat) (coords : List Cell) (p : W × List (List Cell)) : W × List (List Cell) :=
  let nCandidates := coords.filter fun a =>
    decide (1 < ((view p.1).getCandidates a).card ∧ ((view p.1).getCandidates a).card ≤ n)
  (combos n nCandidates).foldl (fun (p : W × List (List Cell)) fields =>
    let all := fields.foldl (fun S a => S ∪ (view p.1).getCandidates a) ∅
    if all.card ≤ n then
      let affected := coords.filter fun a => decide (a ∉ fields ∧ all ∩ (view p.1).getCandidates a ≠ ∅)
      if affected ≠ [] then
        let step := Step.mkSet (.nakedTuple n) fields affected all
        if step.clues ∉ p.2 then (κ p.1 step, p.2 ++ [step.clues]) else p
      else p
    else p) p

/-- solvers.py:260-277 `NakedTuple.find`: rows, columns, boxes. -/
def findNakedTuple (n : Nat) (w : W) : W :=
  ([1, 0, 2].foldl (fun (p : W × List (List Cell)) k =>
    (unitList (view p.1) k).foldl (fun p coords => nakedAt view κ n coords p) p) (w, [])).1

/-- solvers.py:343-369 `HiddenTuple.__find_at`.  The positions of the candidates are collected once, at the beginning. -/
def hiddenAt (n : Nat) (coords : List Cell) (w : W) : W :=
  let s := view w
  let candCoords : Int → Finset Cell := fun c => (coords.filter fun a => decide (c ∈ s.getCandidates a)).toFinset
  let nTimes := s.numbers.filter fun c => decide (1 < (candCoords c).card ∧ (candCoords c).card ≤ n)
  (combos n nTimes).foldl (fun w numbers =>
    let maxSet := numbers.foldl (fun S c => S ∪ candCoords c) ∅
    if maxSet.card ≤ n then
      -- `for (row, col) in max_set`: the loop variable is not used
      (List.range maxSet.card).foldl (fun w _ =>
        let affected := coords.filter fun a => decide (a ∈ maxSet ∧ (view w).getCandidates a \ numbers.toFinset ≠ ∅)
        if affected ≠ [] then κ w (Step.mk' (.hiddenTuple n) coords affected numbers) else w) w
    else w) w

/-- solvers.py:326-341 `HiddenTuple.find`: rows, columns, boxes. -/
def findHiddenTuple (n : Nat) (w : W) : W :=
  [1, 0, 2].foldl (fun w k => (unitList (view w) k).foldl (fun w coords => hiddenAt view κ n coords w) w) w

/-- The fields of `coords` with a candidate. -/
def having (s : Sudoku) (coords : List Cell) (v : Int) : List Cell :=
  coords.filter fun a => decide (v ∈ s.getCandidates a)

/-- solvers.py:438-440, 444-446, 410-412: the other fields of the unit with the candidate. -/
def others (s : Sudoku) (unit clues : List Cell) (v : Int) : List Cell :=
  unit.filter fun a => decide (a ∉ clues ∧ v ∈ s.getCandidates a)

/-- solvers.py:419-453 `PointingTuple.__find_in_box`. -/
def pointingInBox (n : Nat) (box : Nat) (w : W) : W :=
  let row := box / (view w).bh * (view w).bh
  let col := box % (view w).bh * (view w).bw
  let boxCoords := (view w).boxOf (row, col)
  (view w).numbers.foldl (fun w candidate =>
    let s := view w
    let clues := having s boxCoords candidate
    if clues.length ≠ n then w
    else
      let affected :=
        if (clues.map Prod.fst).toFinset.card = 1 then others s (s.rowOf (clues.headD (0, 0))) clues candidate
        else if (clues.map Prod.snd).toFinset.card = 1 then others s (s.columnOf (clues.headD (0, 0))) clues candidate
        else []
      if affected ≠ [] then κ w (Step.mk' (.pointingTuple n) clues affected [candidate]) else w) w

/-- solvers.py:392-416 `PointingTuple.__find_in_row_and_column`. -/
def pointingInLine (n : Nat) (x : Nat) (w : W) : W :=
  [1, 0].foldl (fun w k =>
    let coords := unitOf (view w) k (x, x) true
    (view w).numbers.foldl (fun w candidate =>
      let s := view w
      let clues := having s coords candidate
      if clues.length ≠ n then w
      else if (clues.map fun a => s.boxAt a.1 a.2).toFinset.card = 1 then
        let affected := others s (s.boxOf (clues.headD (0, 0))) clues candidate
        if affected ≠ [] then κ w (Step.mk' (.pointingTuple n) clues affected [candidate]) else w
      else w) w) w

/-- solvers.py:380-390 `PointingTuple.find`. -/
def findPointing (n : Nat) (w : W) : W :=
  let indices := (view w).indices
  let w := indices.foldl (fun w box => pointingInBox view κ n box w) w
  indices.foldl (fun w x => pointingInLine view κ n x w) w

/-- solvers.py:478-522 `BasicFish.__find_for_candidate`; `byRow` is `offset == 0`.  For `n = 0` Python's `min` of nothing
would raise a `ValueError`; all classes have `n >= 2`. -/
def fishFor (π : Orders W) (n : Nat) (candidate : Int) (byRow : Bool) (w : W) : W :=
  let s := view w
  let fields : Nat → List Cell := fun i => having s (if byRow then s.rowOf (i, i) else s.columnOf (i, i)) candidate
  let valid := (π.fish w candidate byRow s.indices).filter fun i => decide (2 ≤ (fields i).length ∧ (fields i).length ≤ n)
  (combos n valid).foldl (fun w indices =>
    let s := view w
    let baseFields := indices.flatMap fields
    let other := baseFields.map fun a => if byRow then a.2 else a.1
    if other.any fun x => decide (other.count x < 2) then w
    else if other.dedup.length > n then w
    else
      let covered := other.dedup.flatMap fun x => if byRow then s.columnOf (x, x) else s.rowOf (x, x)
      let affected := others s covered baseFields candidate
      if affected ≠ [] then κ w (Step.mk' (.basicFish n) baseFields affected [candidate]) else w) w

/-- solvers.py:469-476 `BasicFish.find`. -/
def findFish (π : Orders W) (n : Nat) (w : W) : W :=
  (Coordinates.product [true, false] (view w).numbers).foldl (fun w p => fishFor view κ π n p.2 p.1 w) w

/-- `cls.find(sudoku)` run to the end against the consumer. -/
def find (π : Orders W) (fuel : Nat) : Kind → W → Except PyErr W
  | .calculateCandidates, w => .ok (findCalc view κ w)
  | .nakedSingle, w => .ok (findNakedSingle view κ w)
  | .hiddenSingle, w => .ok (findHiddenSingle view κ π w)
  | .bruteforce, w => findBruteforce view κ π fuel w
  | .nakedTuple n, w => .ok (findNakedTuple view κ n w)
  | .hiddenTuple n, w => .ok (findHiddenTuple view κ n w)
  | .pointingTuple n, w => .ok (findPointing view κ n w)
  | .basicFish n, w => .ok (findFish view κ π n w)

end

/-! ## `apply_all` -/

/-- solvers.py:115-119 `apply_all`: each step is applied as soon as it is found, and the search goes on in the changed sudoku.
The step objects are new, so nothing is cached in them. -/
def applyAll (π : Orders Sudoku) (fuel : Nat) (k : Kind) (s : Sudoku) : Except PyErr Sudoku := find id Step.apply π fuel k s

/-- test_solvers.py:107-117: `for step_class in l: step_class.apply_all(sudoku)`. -/
def applyPass (π : Orders Sudoku) (fuel : Nat) : List Kind → Sudoku → Except PyErr Sudoku
  | [], s => .ok s
  | k :: ks, s => match applyAll π fuel k s with
    | .error e => .error e
    | .ok s => applyPass π fuel ks s

/-! ## `solve`, `hints`, `rate`, `score` -/

/-- solvers.py:536-554 `SOLVERS`. -/
def solvers : List Kind :=
  [.calculateCandidates, .nakedSingle, .hiddenSingle, .nakedTuple 2, .hiddenTuple 2, .nakedTuple 3, .hiddenTuple 3,
   .nakedTuple 4, .hiddenTuple 4, .nakedTuple 5, .hiddenTuple 5, .pointingTuple 2, .pointingTuple 3,
   .basicFish 2, .basicFish 3, .basicFish 4, .bruteforce]

/-- solvers.py:589-602 `hints` run to the end against a consumer. -/
def hints {W : Type} (view : W → Sudoku) (κ : W → Step → W) (π : Orders W) (w : W) : W :=
  solvers.foldl (fun w k => if k = .bruteforce then w else
    match find view κ π 0 k w with
    | .ok w => w
    | .error _ => w) w

/-- The state of `solve`: the sudoku and the reported steps. -/
abbrev Run := Sudoku × List Step

/-- solvers.py:576-579: what `solve` does with a step.  `report` is assumed to leave the sudoku alone. -/
def consume (w : Run) (st : Step) : Run := (Step.apply w.1 st, w.2 ++ [st])

/-- solvers.py:573-584: the `for` loop over the classes; `some` state after a class found steps, `none` when none did. -/
def round (π : Orders Run) (fuel : Nat) : List Kind → Run → Except PyErr (Option Run)
  | [], _ => .ok none
  | k :: ks, w => match find Prod.fst consume π fuel k w with
    | .error e => .error e
    | .ok w' => if w'.2.length > w.2.length then .ok (some w') else round π fuel ks w

/-- solvers.py:572-584: the `while` loop, at most `rounds` rounds; `none`: not finished by then. -/
def loop (π : Orders Run) (fuel : Nat) : Nat → Run → Except PyErr (Option Run)
  | 0, _ => .ok none
  | rounds + 1, w => match round π fuel solvers w with
    | .error e => .error e
    | .ok none => .ok (some w)
    | .ok (some w') => loop π fuel rounds w'

/-- solvers.py:557-586 `solve`: the solution and the reported steps; `none`: not finished after `rounds` rounds. -/
def solve (π : Orders Run) (fuel rounds : Nat) (s : Sudoku) : Except PyErr (Option Run) :=
  loop π fuel rounds (Solve.initCandidates s.copy true, [])

/-- analyze.py:22-40 `RATINGS`. -/
def rating : Kind → Option Nat
  | .calculateCandidates => some 0
  | .nakedSingle => some 1
  | .hiddenSingle => some 1
  | .nakedTuple 2 => some 2
  | .hiddenTuple 2 => some 2
  | .nakedTuple 3 => some 2
  | .hiddenTuple 3 => some 2
  | .nakedTuple 4 => some 3
  | .hiddenTuple 4 => some 3
  | .nakedTuple 5 => some 3
  | .hiddenTuple 5 => some 3
  | .pointingTuple 2 => some 4
  | .pointingTuple 3 => some 4
  | .basicFish 2 => some 5
  | .basicFish 3 => some 6
  | .basicFish 4 => some 7
  | .bruteforce => some 10
  | _ => none

/-- `[RATINGS[step.__class__] for step in steps]`: `KeyError` for a class not listed. -/
def ratings : List Step → Except PyErr (List Nat)
  | [] => .ok []
  | st :: l => match rating st.kind with
    | none => .error .KeyError
    | some r => match ratings l with
      | .error e => .error e
      | .ok rs => .ok (r :: rs)

/-- `max(l)`, the first argument being the smallest possible value. -/
def maxList (l : List Nat) : Nat := l.foldl max 0

/-- analyze.py:43-61 `rate`; `none`: `solve` did not finish. -/
def rate (π : Orders Run) (fuel rounds : Nat) (s : Sudoku) : Except PyErr (Option Nat) :=
  match solve π fuel rounds s with
  | .error e => .error e
  | .ok none => .ok none
  | .ok (some w) => match ratings w.2 with
    | .error e => .error e
    | .ok rs => .ok (some (if rs = [] then 0 else maxList rs))

/-- analyze.py:64-79 `score`; `none`: `solve` did not finish. -/
def score (π : Orders Run) (fuel rounds : Nat) (s : Sudoku) : Except PyErr (Option Nat) :=
  match solve π fuel rounds s with
  | .error e => .error e
  | .ok none => .ok none
  | .ok (some w) => match ratings w.2 with
    | .error e => .error e
    | .ok rs => .ok (some rs.sum)

end Solvers
