import Verif.Proofs.Trace
import Verif.Props.Solvers

set_option autoImplicit false

/-!
Helper lemmas: two runs of `solve`, round by round.  `fewer0` is a 6x6 sudoku (boxes 2 wide, 3 high), `more0` the same with a 1 in row 1,
column 1.  The other tables are what the rounds of the `while` loop of `solve` make of them.
-/

open Spec Solvers

namespace Props

theorem plainWatch_logFree : LogFree (plainWatch Run) := ⟨fun _ _ _ => rfl, fun _ _ _ => rfl, fun _ _ _ => rfl⟩

def fewer0 : Sudoku := ofTable 2 3
  [0, 0, 3, 0, 0, 2, 3, 0, 2, 0, 0, 0, 0, 2, 0, 6, 3, 0, 1, 0, 0, 2, 0, 3, 2, 3, 6, 0, 0, 4, 0, 5, 0, 3, 2, 0]
  [[], [], [3], [], [], [2],
  [3], [], [2], [], [], [],
  [], [2], [], [6], [3], [],
  [1], [], [], [2], [], [3],
  [2], [3], [6], [], [], [4],
  [], [5], [], [3], [2], []]
def fewer1 : Sudoku := ofTable 2 3
  [0, 0, 3, 0, 0, 2, 3, 0, 2, 0, 0, 0, 0, 2, 0, 6, 3, 0, 1, 0, 0, 2, 0, 3, 2, 3, 6, 0, 0, 4, 0, 5, 0, 3, 2, 0]
  [[4, 5, 6], [1, 4, 6], [3], [1, 4, 5], [1, 4, 5, 6], [2],
  [3], [1, 4, 6], [2], [1, 4, 5], [1, 4, 5, 6], [1, 5, 6],
  [4, 5], [2], [1, 4, 5], [6], [3], [1, 5],
  [1], [4, 6], [4, 5], [2], [5, 6], [3],
  [2], [3], [6], [1, 5], [1, 5], [4],
  [4, 6], [5], [1, 4], [3], [2], [1, 6]]
def fewer2 : Sudoku := ofTable 2 3
  [0, 0, 3, 0, 0, 2, 3, 0, 2, 0, 0, 0, 0, 2, 0, 6, 3, 0, 1, 0, 0, 2, 0, 3, 2, 3, 6, 0, 0, 4, 0, 5, 0, 3, 2, 0]
  [[4, 5, 6], [1, 4, 6], [3], [1, 4, 5], [1, 4, 6], [2],
  [3], [1, 4, 6], [2], [1, 4, 5], [1, 4, 6], [1, 5, 6],
  [4, 5], [2], [1, 5], [6], [3], [1, 5],
  [1], [4, 6], [4, 5], [2], [5, 6], [3],
  [2], [3], [6], [1, 5], [1, 5], [4],
  [4, 6], [5], [1, 4], [3], [2], [1, 6]]
def fewer3 : Sudoku := ofTable 2 3
  [0, 0, 3, 0, 0, 2, 3, 0, 2, 0, 0, 0, 4, 2, 0, 6, 3, 0, 1, 4, 0, 2, 6, 3, 2, 3, 6, 0, 5, 4, 6, 5, 4, 3, 2, 1]
  [[5], [1, 6], [3], [1, 4, 5], [1, 4], [2],
  [3], [1, 6], [2], [1, 4, 5], [1, 4], [5, 6],
  [4], [2], [1, 5], [6], [3], [5],
  [1], [4], [5], [2], [6], [3],
  [2], [3], [6], [1], [5], [4],
  [6], [5], [4], [3], [2], [1]]
def fewer4 : Sudoku := ofTable 2 3
  [5, 0, 3, 0, 0, 2, 3, 0, 2, 0, 0, 0, 4, 2, 0, 6, 3, 5, 1, 4, 5, 2, 6, 3, 2, 3, 6, 1, 5, 4, 6, 5, 4, 3, 2, 1]
  [[5], [1, 6], [3], [4], [1, 4], [2],
  [3], [1, 6], [2], [4, 5], [1, 4], [6],
  [4], [2], [1], [6], [3], [5],
  [1], [4], [5], [2], [6], [3],
  [2], [3], [6], [1], [5], [4],
  [6], [5], [4], [3], [2], [1]]
def fewer5 : Sudoku := ofTable 2 3
  [5, 0, 3, 4, 1, 2, 3, 0, 2, 5, 4, 6, 4, 2, 1, 6, 3, 5, 1, 4, 5, 2, 6, 3, 2, 3, 6, 1, 5, 4, 6, 5, 4, 3, 2, 1]
  [[5], [6], [3], [4], [1], [2],
  [3], [1], [2], [5], [4], [6],
  [4], [2], [1], [6], [3], [5],
  [1], [4], [5], [2], [6], [3],
  [2], [3], [6], [1], [5], [4],
  [6], [5], [4], [3], [2], [1]]
def fewer6 : Sudoku := ofTable 2 3
  [5, 6, 3, 4, 1, 2, 3, 1, 2, 5, 4, 6, 4, 2, 1, 6, 3, 5, 1, 4, 5, 2, 6, 3, 2, 3, 6, 1, 5, 4, 6, 5, 4, 3, 2, 1]
  [[5], [6], [3], [4], [1], [2],
  [3], [1], [2], [5], [4], [6],
  [4], [2], [1], [6], [3], [5],
  [1], [4], [5], [2], [6], [3],
  [2], [3], [6], [1], [5], [4],
  [6], [5], [4], [3], [2], [1]]
def more0 : Sudoku := ofTable 2 3
  [0, 0, 3, 0, 0, 2, 3, 1, 2, 0, 0, 0, 0, 2, 0, 6, 3, 0, 1, 0, 0, 2, 0, 3, 2, 3, 6, 0, 0, 4, 0, 5, 0, 3, 2, 0]
  [[], [], [3], [], [], [2],
  [3], [1], [2], [], [], [],
  [], [2], [], [6], [3], [],
  [1], [], [], [2], [], [3],
  [2], [3], [6], [], [], [4],
  [], [5], [], [3], [2], []]
def more1 : Sudoku := ofTable 2 3
  [0, 0, 3, 0, 0, 2, 3, 1, 2, 0, 0, 0, 0, 2, 0, 6, 3, 0, 1, 0, 0, 2, 0, 3, 2, 3, 6, 0, 0, 4, 0, 5, 0, 3, 2, 0]
  [[4, 5, 6], [4, 6], [3], [1, 4, 5], [1, 4, 5, 6], [2],
  [3], [1], [2], [4, 5], [4, 5, 6], [5, 6],
  [4, 5], [2], [1, 4, 5], [6], [3], [1, 5],
  [1], [4, 6], [4, 5], [2], [5, 6], [3],
  [2], [3], [6], [1, 5], [1, 5], [4],
  [4, 6], [5], [1, 4], [3], [2], [1, 6]]
def more2 : Sudoku := ofTable 2 3
  [0, 0, 3, 0, 0, 2, 3, 1, 2, 0, 0, 0, 0, 2, 0, 6, 3, 0, 1, 0, 0, 2, 0, 3, 2, 3, 6, 0, 0, 4, 0, 5, 0, 3, 2, 0]
  [[4, 5, 6], [4, 6], [3], [1, 4, 5], [1, 4], [2],
  [3], [1], [2], [4, 5], [4, 6], [5, 6],
  [4, 5], [2], [1, 5], [6], [3], [1, 5],
  [1], [4, 6], [4, 5], [2], [5, 6], [3],
  [2], [3], [6], [1, 5], [1, 5], [4],
  [4, 6], [5], [1, 4], [3], [2], [1, 6]]
def more3 : Sudoku := ofTable 2 3
  [0, 0, 3, 0, 0, 2, 3, 1, 2, 0, 0, 0, 4, 2, 0, 6, 3, 0, 1, 4, 0, 2, 6, 3, 2, 3, 6, 0, 5, 4, 6, 5, 4, 3, 2, 1]
  [[5], [6], [3], [1, 4, 5], [1, 4], [2],
  [3], [1], [2], [4, 5], [4], [5, 6],
  [4], [2], [1, 5], [6], [3], [5],
  [1], [4], [5], [2], [6], [3],
  [2], [3], [6], [1], [5], [4],
  [6], [5], [4], [3], [2], [1]]
def more4 : Sudoku := ofTable 2 3
  [5, 6, 3, 0, 0, 2, 3, 1, 2, 0, 4, 0, 4, 2, 0, 6, 3, 5, 1, 4, 5, 2, 6, 3, 2, 3, 6, 1, 5, 4, 6, 5, 4, 3, 2, 1]
  [[5], [6], [3], [4], [1], [2],
  [3], [1], [2], [5], [4], [6],
  [4], [2], [1], [6], [3], [5],
  [1], [4], [5], [2], [6], [3],
  [2], [3], [6], [1], [5], [4],
  [6], [5], [4], [3], [2], [1]]
def more5 : Sudoku := ofTable 2 3
  [5, 6, 3, 4, 1, 2, 3, 1, 2, 5, 4, 6, 4, 2, 1, 6, 3, 5, 1, 4, 5, 2, 6, 3, 2, 3, 6, 1, 5, 4, 6, 5, 4, 3, 2, 1]
  [[5], [6], [3], [4], [1], [2],
  [3], [1], [2], [5], [4], [6],
  [4], [2], [1], [6], [3], [5],
  [1], [4], [5], [2], [6], [3],
  [2], [3], [6], [1], [5], [4],
  [6], [5], [4], [3], [2], [1]]

theorem fewer_round0 : roundTo (plainWatch Run) 20 fewer0 fewer1 0 = true := by decide +kernel
theorem fewer_round1 : roundTo (plainWatch Run) 20 fewer1 fewer2 8 = true := by decide +kernel
theorem fewer_round2 : roundTo (plainWatch Run) 20 fewer2 fewer3 7 = true := by decide +kernel
theorem fewer_round3 : roundTo (plainWatch Run) 20 fewer3 fewer4 4 = true := by decide +kernel
theorem fewer_round4 : roundTo (plainWatch Run) 20 fewer4 fewer5 6 = true := by decide +kernel
theorem fewer_round5 : roundTo (plainWatch Run) 20 fewer5 fewer6 2 = true := by decide +kernel

/-- 6 rounds; 0 + 8 + 7 + 4 + 6 + 2 points. -/
theorem fewer_runs : Runs (plainWatch Run) 20 6 fewer0 fewer6 27 :=
  (.cons (ofTable_tidy _ _ _ _) (ofTable_tidy _ _ _ _) fewer_round0 (.cons (ofTable_tidy _ _ _ _) (ofTable_tidy _ _ _ _) fewer_round1 (.cons (ofTable_tidy _ _ _ _) (ofTable_tidy _ _ _ _) fewer_round2 (.cons (ofTable_tidy _ _ _ _) (ofTable_tidy _ _ _ _) fewer_round3 (.cons (ofTable_tidy _ _ _ _) (ofTable_tidy _ _ _ _) fewer_round4 (.cons (ofTable_tidy _ _ _ _) (ofTable_tidy _ _ _ _) fewer_round5 (.nil fewer6)))))))

theorem more_round0 : roundTo (plainWatch Run) 20 more0 more1 0 = true := by decide +kernel
theorem more_round1 : roundTo (plainWatch Run) 20 more1 more2 12 = true := by decide +kernel
theorem more_round2 : roundTo (plainWatch Run) 20 more2 more3 7 = true := by decide +kernel
theorem more_round3 : roundTo (plainWatch Run) 20 more3 more4 6 = true := by decide +kernel
theorem more_round4 : roundTo (plainWatch Run) 20 more4 more5 5 = true := by decide +kernel

/-- 5 rounds; 0 + 12 + 7 + 6 + 5 points. -/
theorem more_runs : Runs (plainWatch Run) 20 5 more0 more5 30 :=
  (.cons (ofTable_tidy _ _ _ _) (ofTable_tidy _ _ _ _) more_round0 (.cons (ofTable_tidy _ _ _ _) (ofTable_tidy _ _ _ _) more_round1 (.cons (ofTable_tidy _ _ _ _) (ofTable_tidy _ _ _ _) more_round2 (.cons (ofTable_tidy _ _ _ _) (ofTable_tidy _ _ _ _) more_round3 (.cons (ofTable_tidy _ _ _ _) (ofTable_tidy _ _ _ _) more_round4 (.nil more5))))))

end Props
