import Verif.Props.Solvers

set_option autoImplicit false

/-! # C33: the documented upper bound of `score` is wrong (a longer computation, hence in a file of its own) -/

open Spec Solvers

namespace Props

/-- A 4x4 sudoku with two clues. -/
def pz : Sudoku := ((Sudoku.new 2 2).setNumber (0, 2) 3).setNumber (0, 3) 4

/-- It meets the hypotheses of `C33_score`. -/
example : Solvable pz.bw pz.bh pz.get := ⟨solved4.get, by decide +kernel⟩

/-- **C33** analyze.py:73-75 documents `score(s) <= 10 * (number of empty fields)`.  Here 14 fields are empty and the
score is 142: a naked pair is found (2 points) before `Bruteforce` fills all 14 fields (10 points each). -/
theorem C33_bound_false :
    pz.empty.length = 14 ∧ (score (plainWatch Run) 30 6 pz).toOption = some (some 142) := by decide +kernel

end Props
