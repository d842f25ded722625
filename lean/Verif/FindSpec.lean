import Verif.StepSpec
import Mathlib.Data.Finset.Prod
import Mathlib.Data.Finset.Union
import Mathlib.Data.Finset.Range
import Mathlib.Data.Finset.Card

set_option autoImplicit false

/-!
# The patterns the solve steps are about

Which steps should be found for a sudoku that is not changed meanwhile; in terms of sets of fields and numbers, without
any order of search.
-/

open Solvers

namespace Spec

/-- The three kinds of units. -/
inductive Line
  | row | column | box
  deriving DecidableEq, Repr

/-- The order in which `NakedTuple` goes through the units. -/
def Line.rank : Line → Nat
  | .row => 0
  | .column => 1
  | .box => 2

/-- The order in which `HiddenSingle` goes through the units. -/
def Line.rank' : Line → Nat
  | .column => 0
  | .row => 1
  | .box => 2

/-- The fields lie in the same row (column, box). -/
def Share (w h : Nat) : Line → Cell → Cell → Prop
  | .row, a, b => SameRow a b
  | .column, a, b => SameCol a b
  | .box, a, b => SameBox w h a b

instance (w h : Nat) (k : Line) (a b : Cell) : Decidable (Share w h k a b) := by
  cases k <;> (unfold Share; infer_instance)

/-- All fields. -/
def fields (w h : Nat) : Finset Cell := Finset.range (w * h) ×ˢ Finset.range (w * h)

/-- The row (column, box) of a field. -/
def unitFields (s : Sudoku) (k : Line) (e : Cell) : Finset Cell := (fields s.bw s.bh).filter (Share s.bw s.bh k e)

/-- The fields of the unit that have the candidate `v`. -/
def places (s : Sudoku) (k : Line) (e : Cell) (v : Int) : Finset Cell := (unitFields s k e).filter fun a => v ∈ s.getCandidates a

/-- The order of fields: row by row. -/
def Before (a b : Cell) : Prop := a.1 < b.1 ∨ a.1 = b.1 ∧ a.2 < b.2

/-- The step is of this class and has exactly these clues, affected fields and values; each tuple is sorted and has no
repetitions. -/
structure Describes (st : Step) (k : Kind) (clues affected : Finset Cell) (values : Finset Int) : Prop where
  kind : st.kind = k
  cluesSorted : st.clues.Pairwise Before
  clues : st.clues.toFinset = clues
  affectedSorted : st.affected.Pairwise Before
  affected : st.affected.toFinset = affected
  valuesSorted : st.values.Pairwise (· < ·)
  values : st.values.toFinset = values

/-- `list(cls.find(s))` is `L`, and the sudoku is not changed by looking at it. -/
def Lists (π : Orders Watch) (k : Kind) (s : Sudoku) (L : List Step) : Prop :=
  find Prod.fst (watch leave) π 0 k (s, []) = .ok (s, L.map fun st => (s, st))

/-- `v` can only be at `a` in the unit: no other field has the candidate. -/
def OnlyPlace (s : Sudoku) (k : Line) (a : Cell) (v : Int) : Prop :=
  IsNumber s.bw s.bh v ∧ ∀ b ∈ unitFields s k a, b ≠ a → v ∉ s.getCandidates b

/-- The numbers a field without candidates gets. -/
def Admissible (s : Sudoku) (a : Cell) (v : Int) : Prop :=
  if s.get a = 0 then IsNumber s.bw s.bh v ∧ ∀ b, InGrid s.bw s.bh b → Peer s.bw s.bh a b → s.get b ≠ v else v = s.get a

/-- The fields of the unit outside `F` that have a candidate in common with one of `F`. -/
def nakedTargets (s : Sudoku) (k : Line) (e : Cell) (F : Finset Cell) : Finset Cell :=
  (unitFields s k e).filter fun a => a ∉ F ∧ (F.biUnion s.getCandidates ∩ s.getCandidates a).Nonempty

/-- `n` fields of the unit of `e`, each with 2 to `n` candidates and with at most `n` candidates together, some of which
occur elsewhere in the unit. -/
structure NakedPattern (s : Sudoku) (n : Nat) (k : Line) (e : Cell) (F : Finset Cell) : Prop where
  sub : F ⊆ unitFields s k e
  card : F.card = n
  each : ∀ a ∈ F, 1 < (s.getCandidates a).card ∧ (s.getCandidates a).card ≤ n
  all : (F.biUnion s.getCandidates).card ≤ n
  useful : (nakedTargets s k e F).Nonempty

/-- The places for the numbers `V` that have other candidates, too. -/
def hiddenTargets (s : Sudoku) (k : Line) (e : Cell) (V : Finset Int) : Finset Cell :=
  (V.biUnion (places s k e)).filter fun a => (s.getCandidates a \ V).Nonempty

/-- `n` numbers, each of which has 2 to `n` places in the unit of `e`, with at most `n` places together, some of which have
other candidates, too. -/
structure HiddenPattern (s : Sudoku) (n : Nat) (k : Line) (e : Cell) (V : Finset Int) : Prop where
  card : V.card = n
  each : ∀ v ∈ V, IsNumber s.bw s.bh v ∧ 1 < (places s k e v).card ∧ (places s k e v).card ≤ n
  all : (V.biUnion (places s k e)).card ≤ n
  useful : (hiddenTargets s k e V).Nonempty

/-- The other places for `v` in the unit. -/
def pointingTargets (s : Sudoku) (k : Line) (e : Cell) (F : Finset Cell) (v : Int) : Finset Cell := places s k e v \ F

/-- All `n > 0` places for `v` in the unit of `e` (kind `k`) lie in the unit of `f` (kind `k'`), where there are other places
for `v`. -/
structure PointingPattern (s : Sudoku) (n : Nat) (k k' : Line) (e f : Cell) (v : Int) : Prop where
  number : IsNumber s.bw s.bh v
  card : (places s k e v).card = n
  mem : f ∈ places s k e v
  sub : places s k e v ⊆ unitFields s k' f
  useful : (pointingTargets s k' f (places s k e v) v).Nonempty

/-- The coordinate along a row (column). -/
def across : Bool → Cell → Nat
  | true, a => a.2
  | false, a => a.1

/-- Row (column) number `i`. -/
def along (byRow : Bool) : Line := if byRow then .row else .column

/-- The places for `v` in the rows (columns) `I`. -/
def fishBase (s : Sudoku) (byRow : Bool) (v : Int) (I : Finset Nat) : Finset Cell :=
  I.biUnion fun i => places s (along byRow) (i, i) v

/-- The other places for `v` in the columns (rows) of the base. -/
def fishTargets (s : Sudoku) (byRow : Bool) (v : Int) (I : Finset Nat) : Finset Cell :=
  (fields s.bw s.bh).filter fun a =>
    across byRow a ∈ (fishBase s byRow v I).image (across byRow) ∧ a ∉ fishBase s byRow v I ∧ v ∈ s.getCandidates a

/-- `n` rows with 2 to `n` places for `v` each, which lie in at most `n` columns, at least 2 in each of these columns; some of
the columns have other places for `v`.  (Or with rows and columns exchanged.) -/
structure FishPattern (s : Sudoku) (n : Nat) (byRow : Bool) (v : Int) (I : Finset Nat) : Prop where
  number : IsNumber s.bw s.bh v
  sub : ∀ i ∈ I, i < s.bw * s.bh
  card : I.card = n
  each : ∀ i ∈ I, 2 ≤ (places s (along byRow) (i, i) v).card ∧ (places s (along byRow) (i, i) v).card ≤ n
  cover : ((fishBase s byRow v I).image (across byRow)).card ≤ n
  twice : ∀ x ∈ (fishBase s byRow v I).image (across byRow), 2 ≤ ((fishBase s byRow v I).filter fun a => across byRow a = x).card
  useful : (fishTargets s byRow v I).Nonempty

/-! ## The steps -/

/-- A field without candidates gets the admissible numbers. -/
def CalcStep (s : Sudoku) (st : Step) : Prop :=
  ∃ a V, InGrid s.bw s.bh a ∧ s.getCandidates a = ∅ ∧ (∀ v, v ∈ V ↔ Admissible s a v) ∧
    Describes st .calculateCandidates {a} {a} V

/-- An empty field with one candidate gets it. -/
def NakedSingleStep (s : Sudoku) (st : Step) : Prop :=
  ∃ a v, InGrid s.bw s.bh a ∧ s.get a = 0 ∧ s.getCandidates a = {v} ∧ Describes st .nakedSingle {a} {a} {v}

/-- An empty field gets a number that cannot be elsewhere in its column; if there is none, in its row; if there is none, in
its box. -/
def HiddenSingleStep (s : Sudoku) (st : Step) : Prop :=
  ∃ a k v, InGrid s.bw s.bh a ∧ s.get a = 0 ∧ OnlyPlace s k a v ∧ (∀ k', k'.rank' < k.rank' → ∀ u, ¬ OnlyPlace s k' a u) ∧
    Describes st .hiddenSingle {a} {a} {v}

/-- A naked tuple in a unit with an empty field; only in the first kind of unit (rows, columns, boxes) where these fields are
a naked tuple. -/
def NakedTupleStep (s : Sudoku) (n : Nat) (st : Step) : Prop :=
  ∃ k e F, InGrid s.bw s.bh e ∧ s.get e = 0 ∧ NakedPattern s n k e F ∧
    (∀ k', k'.rank < k.rank → ∀ e', InGrid s.bw s.bh e' → s.get e' = 0 → ¬ NakedPattern s n k' e' F) ∧
    Describes st (.nakedTuple n) F (nakedTargets s k e F) (F.biUnion s.getCandidates)

/-- A hidden tuple in a unit with an empty field.  The clues are all fields of the unit. -/
def HiddenTupleStep (s : Sudoku) (n : Nat) (st : Step) : Prop :=
  ∃ k e V, InGrid s.bw s.bh e ∧ s.get e = 0 ∧ HiddenPattern s n k e V ∧
    Describes st (.hiddenTuple n) (unitFields s k e) (hiddenTargets s k e V) V

/-- The number of clues with one of the values as candidate. -/
def hiddenTimes (s : Sudoku) (st : Step) : Nat :=
  (st.clues.filter fun a => decide (∃ v ∈ st.values, v ∈ s.getCandidates a)).length

/-- The clues are a unit of this kind. -/
def IsUnit (s : Sudoku) (clues : List Cell) (k : Line) : Prop := ∀ a ∈ clues, unitFields s k a = clues.toFinset

instance (s : Sudoku) (clues : List Cell) (k : Line) : Decidable (IsUnit s clues k) := by unfold IsUnit; infer_instance

/-- A pointing tuple: from a box into a row or column or from a row or column into a box. -/
def PointingTupleStep (s : Sudoku) (n : Nat) (st : Step) : Prop :=
  ∃ k k' e f v, (k = .box ∧ k' ≠ .box ∨ k ≠ .box ∧ k' = .box) ∧ PointingPattern s n k k' e f v ∧
    Describes st (.pointingTuple n) (places s k e v) (pointingTargets s k' f (places s k e v) v) {v}

/-- A fish, by rows or by columns. -/
def FishStep (s : Sudoku) (n : Nat) (st : Step) : Prop :=
  ∃ byRow v I, FishPattern s n byRow v I ∧ Describes st (.basicFish n) (fishBase s byRow v I) (fishTargets s byRow v I) {v}

/-- Steps for one field each, field by field. -/
def FieldByField (L : List Step) : Prop := L.Pairwise fun x y => ∃ a b, x.clues = [a] ∧ y.clues = [b] ∧ Before a b

/-- What the list of all steps of a class should be. -/
def Complete (s : Sudoku) : Kind → List Step → Prop
  | .calculateCandidates, L => FieldByField L ∧ ∀ st, st ∈ L ↔ CalcStep s st
  | .nakedSingle, L => FieldByField L ∧ ∀ st, st ∈ L ↔ NakedSingleStep s st
  | .hiddenSingle, L => FieldByField L ∧ (∀ st ∈ L, HiddenSingleStep s st) ∧
      ∀ a k v, InGrid s.bw s.bh a → s.get a = 0 → OnlyPlace s k a v → ∃ st ∈ L, st.clues = [a]
  | .nakedTuple n, L => (L.map Step.clues).Nodup ∧ ∀ st, st ∈ L ↔ NakedTupleStep s n st
  | .hiddenTuple n, L => (∀ st, st ∈ L ↔ HiddenTupleStep s n st) ∧
      ∀ st ∈ L, L.count st = ([Line.row, .column, .box].countP fun k => decide (IsUnit s st.clues k)) * hiddenTimes s st
  | .pointingTuple n, L => L.Nodup ∧ ∀ st, st ∈ L ↔ PointingTupleStep s n st
  | .basicFish n, L => L.Nodup ∧ ∀ st, st ∈ L ↔ FishStep s n st
  | .bruteforce, _ => False

end Spec
