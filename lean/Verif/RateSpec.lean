import Verif.FindSpec

set_option autoImplicit false

/-!
# Solving by hand with some of the classes

Which sudokus can be reached from `s` with the classes `K`, whatever the order in which their steps are found and applied.
-/

open Solvers

namespace Spec

/-- All sudokus someone can get from `s` who uses only the classes `K`: by applying a step from `list(cls.find(u))` to `t`
(`u` may be `t` itself or any other sudoku reached, e.g. an earlier one), or by `cls.apply_all(t)`. -/
inductive Reached (K : Kind → Prop) (s : Sudoku) : Sudoku → Prop
  | start : Reached K s s
  | apply {t u : Sudoku} {k : Kind} {π : Orders Watch} {L : List Step} {st : Step} : Reached K s t → Reached K s u → K k → π.Ok →
      Lists π k u L → st ∈ L → Reached K s (Step.apply t st)
  | applyAll {t u : Sudoku} {k : Kind} {π : Orders Sudoku} {fuel : Nat} : Reached K s t → K k → π.Ok →
      Solvers.applyAll π fuel k t = .ok u → Reached K s u

/-- The class is in `SOLVERS` and its rating is below `r`. -/
def Easier (r : Nat) (k : Kind) : Prop := k ∈ solvers ∧ ∃ q, rating k = some q ∧ q < r

/-- The class comes before `k` in `SOLVERS`. -/
def Earlier (k j : Kind) : Prop := j ∈ solvers ∧ solvers.idxOf j < solvers.idxOf k

end Spec
