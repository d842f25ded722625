import Verif.Model.Solvers

set_option autoImplicit false

/-!
# What it means that a solve step is true and useful

Independent of how the steps are found and applied.
-/

open Solvers

namespace Spec

/-- `g` solves the numbers of `s` and is contained in the candidates. -/
def Contains (s : Sudoku) (g : Grid) : Prop :=
  IsSolution s.bw s.bh s.num g ∧ ∀ a, InGrid s.bw s.bh a → g a ∈ s.cand a

/-- The same, but fields without any candidate are regarded as not calculated yet. -/
def MayContain (s : Sudoku) (g : Grid) : Prop :=
  IsSolution s.bw s.bh s.num g ∧ ∀ a, InGrid s.bw s.bh a → s.cand a = ∅ ∨ g a ∈ s.cand a

/-- What the step claims holds for `g`. -/
def TrueOf (g : Grid) (st : Step) : Prop :=
  match st.kind with
  | .calculateCandidates => ∀ a ∈ st.affected, g a ∈ st.values
  | .nakedSingle | .hiddenSingle | .bruteforce => ∀ a ∈ st.affected, ∀ v ∈ st.values, g a = v
  | .nakedTuple _ | .pointingTuple _ | .basicFish _ => ∀ a ∈ st.affected, g a ∉ st.values
  | .hiddenTuple _ => ∀ a ∈ st.affected, g a ∈ st.values

/-- All affected fields lie in the grid, and the step changes something in `s`. -/
def Useful (s : Sudoku) (st : Step) : Prop :=
  (∀ a ∈ st.affected, InGrid s.bw s.bh a) ∧
  match st.kind with
  | .calculateCandidates => ∃ a, st.clues = [a] ∧ st.affected = [a] ∧ s.cand a = ∅ ∧
      st.values.length ≤ s.bw * s.bh
  | .nakedSingle | .hiddenSingle | .bruteforce =>
      ∃ a v, st.clues = [a] ∧ st.affected = [a] ∧ st.values = [v] ∧ s.num a = 0 ∧
        (v ∈ s.cand a ∨ IsNumber s.bw s.bh v)
  | .nakedTuple _ => ∃ a ∈ st.affected, ∃ v ∈ st.values, v ∈ s.cand a
  | .pointingTuple _ | .basicFish _ => ∃ v, st.values = [v] ∧ ∃ a ∈ st.affected, v ∈ s.cand a
  | .hiddenTuple _ => ∃ a ∈ st.affected, ∃ v ∈ s.cand a, v ∉ st.values

/-- The state of someone who looks at the found steps: the sudoku, and a log of all steps found so far, each with the sudoku
as it was at that time. -/
abbrev Watch := Sudoku × List (Sudoku × Step)

/-- Log the step, then change the sudoku to `next` before the search goes on. -/
def watch (next : Watch → Step → Sudoku) (w : Watch) (st : Step) : Watch := (next w st, w.2 ++ [(w.1, st)])

/-- Whatever is done with a step before the search goes on: if applying the step would keep `g`, then `g` is kept. -/
def KeepsSolution (g : Grid) (next : Watch → Step → Sudoku) : Prop :=
  ∀ w st, Contains w.1 g → Contains (Step.apply w.1 st) g →
    (next w st).bw = w.1.bw ∧ (next w st).bh = w.1.bh ∧ Contains (next w st) g

/-- Only looking. -/
def leave : Watch → Step → Sudoku := fun w _ => w.1

/-- Applying each step at once, as `apply_all` and `solve` do. -/
def applyNow : Watch → Step → Sudoku := fun w st => Step.apply w.1 st

end Spec
