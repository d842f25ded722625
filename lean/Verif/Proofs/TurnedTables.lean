import Verif.Proofs.TraceTables

set_option autoImplicit false

/-!
Helper lemmas: two more runs of `solve`, round by round.  `upright0` is a 6x6 sudoku (boxes 2 wide, 3 high), `turned0` the same with rows and
columns exchanged.  The other tables are what the rounds of the `while` loop of `solve` make of them.
-/

open Spec Solvers

namespace Props

def upright0 : Sudoku := ofTable 2 3
  [0, 4, 0, 0, 5, 0, 3, 5, 1, 2, 0, 0, 0, 6, 0, 0, 0, 0, 6, 2, 0, 1, 3, 0, 4, 1, 0, 0, 0, 0, 5, 3, 2, 0, 1, 0]
  [[], [4], [], [], [5], [],
  [3], [5], [1], [2], [], [],
  [], [6], [], [], [], [],
  [6], [2], [], [1], [3], [],
  [4], [1], [], [], [], [],
  [5], [3], [2], [], [1], []]
def upright1 : Sudoku := ofTable 2 3
  [0, 4, 0, 0, 5, 0, 3, 5, 1, 2, 0, 0, 0, 6, 0, 0, 0, 0, 6, 2, 0, 1, 3, 0, 4, 1, 0, 0, 0, 0, 5, 3, 2, 0, 1, 0]
  [[1, 2], [4], [3, 6], [3, 6], [5], [1, 2, 3, 6],
  [3], [5], [1], [2], [4, 6], [4, 6],
  [1, 2], [6], [3, 4, 5], [3, 4, 5], [2, 4], [1, 2, 3, 4],
  [6], [2], [4, 5], [1], [3], [4, 5],
  [4], [1], [3, 5, 6], [3, 5, 6], [2, 6], [2, 5, 6],
  [5], [3], [2], [4, 6], [1], [4, 6]]
def upright2 : Sudoku := ofTable 2 3
  [0, 4, 0, 0, 5, 0, 3, 5, 1, 2, 0, 0, 0, 6, 0, 0, 0, 0, 6, 2, 0, 1, 3, 0, 4, 1, 0, 0, 0, 0, 5, 3, 2, 0, 1, 0]
  [[1, 2], [4], [3, 6], [3, 6], [5], [1, 2],
  [3], [5], [1], [2], [4, 6], [4, 6],
  [1, 2], [6], [3, 4, 5], [3, 4, 5], [2], [1, 2, 3],
  [6], [2], [4, 5], [1], [3], [5],
  [4], [1], [3, 5, 6], [3, 5, 6], [2, 6], [2, 5],
  [5], [3], [2], [4, 6], [1], [4, 6]]
def upright3 : Sudoku := ofTable 2 3
  [0, 4, 0, 0, 5, 0, 3, 5, 1, 2, 0, 0, 0, 6, 0, 0, 2, 0, 6, 2, 0, 1, 3, 5, 4, 1, 0, 0, 6, 2, 5, 3, 2, 0, 1, 4]
  [[1, 2], [4], [3, 6], [3, 6], [5], [1],
  [3], [5], [1], [2], [4], [6],
  [1], [6], [3, 4, 5], [3, 4, 5], [2], [1, 3],
  [6], [2], [4], [1], [3], [5],
  [4], [1], [3, 5], [3, 5], [6], [2],
  [5], [3], [2], [6], [1], [4]]
def upright4 : Sudoku := ofTable 2 3
  [0, 4, 0, 0, 5, 1, 3, 5, 1, 2, 4, 6, 1, 6, 0, 0, 2, 3, 6, 2, 4, 1, 3, 5, 4, 1, 0, 0, 6, 2, 5, 3, 2, 6, 1, 4]
  [[2], [4], [3, 6], [3], [5], [1],
  [3], [5], [1], [2], [4], [6],
  [1], [6], [5], [4, 5], [2], [3],
  [6], [2], [4], [1], [3], [5],
  [4], [1], [3, 5], [3, 5], [6], [2],
  [5], [3], [2], [6], [1], [4]]
def upright5 : Sudoku := ofTable 2 3
  [2, 4, 0, 3, 5, 1, 3, 5, 1, 2, 4, 6, 1, 6, 5, 4, 2, 3, 6, 2, 4, 1, 3, 5, 4, 1, 3, 5, 6, 2, 5, 3, 2, 6, 1, 4]
  [[2], [4], [6], [3], [5], [1],
  [3], [5], [1], [2], [4], [6],
  [1], [6], [5], [4], [2], [3],
  [6], [2], [4], [1], [3], [5],
  [4], [1], [3], [5], [6], [2],
  [5], [3], [2], [6], [1], [4]]
def upright6 : Sudoku := ofTable 2 3
  [2, 4, 6, 3, 5, 1, 3, 5, 1, 2, 4, 6, 1, 6, 5, 4, 2, 3, 6, 2, 4, 1, 3, 5, 4, 1, 3, 5, 6, 2, 5, 3, 2, 6, 1, 4]
  [[2], [4], [6], [3], [5], [1],
  [3], [5], [1], [2], [4], [6],
  [1], [6], [5], [4], [2], [3],
  [6], [2], [4], [1], [3], [5],
  [4], [1], [3], [5], [6], [2],
  [5], [3], [2], [6], [1], [4]]
def turned0 : Sudoku := ofTable 3 2
  [0, 3, 0, 6, 4, 5, 4, 5, 6, 2, 1, 3, 0, 1, 0, 0, 0, 2, 0, 2, 0, 1, 0, 0, 5, 0, 0, 3, 0, 1, 0, 0, 0, 0, 0, 0]
  [[], [3], [], [6], [4], [5],
  [4], [5], [6], [2], [1], [3],
  [], [1], [], [], [], [2],
  [], [2], [], [1], [], [],
  [5], [], [], [3], [], [1],
  [], [], [], [], [], []]
def turned1 : Sudoku := ofTable 3 2
  [0, 3, 0, 6, 4, 5, 4, 5, 6, 2, 1, 3, 0, 1, 0, 0, 0, 2, 0, 2, 0, 1, 0, 0, 5, 0, 0, 3, 0, 1, 0, 0, 0, 0, 0, 0]
  [[1, 2], [3], [1, 2], [6], [4], [5],
  [4], [5], [6], [2], [1], [3],
  [3, 6], [1], [3, 4, 5], [4, 5], [3, 5, 6], [2],
  [3, 6], [2], [3, 4, 5], [1], [3, 5, 6], [4, 6],
  [5], [4, 6], [2, 4], [3], [2, 6], [1],
  [1, 2, 3, 6], [4, 6], [1, 2, 3, 4], [4, 5], [2, 5, 6], [4, 6]]
def turned2 : Sudoku := ofTable 3 2
  [0, 3, 0, 6, 4, 5, 4, 5, 6, 2, 1, 3, 0, 1, 0, 0, 0, 2, 0, 2, 0, 1, 0, 0, 5, 0, 0, 3, 0, 1, 0, 0, 0, 0, 0, 0]
  [[1, 2], [3], [1, 2], [6], [4], [5],
  [4], [5], [6], [2], [1], [3],
  [3, 6], [1], [3, 4, 5], [4, 5], [3, 5, 6], [2],
  [3, 6], [2], [3, 4, 5], [1], [3, 5, 6], [4, 6],
  [5], [4, 6], [2], [3], [2, 6], [1],
  [1, 2], [4, 6], [3], [5], [2, 5], [4, 6]]
def turned3 : Sudoku := ofTable 3 2
  [0, 3, 0, 6, 4, 5, 4, 5, 6, 2, 1, 3, 0, 1, 0, 0, 0, 2, 0, 2, 0, 1, 0, 0, 5, 0, 2, 3, 6, 1, 1, 0, 3, 5, 2, 4]
  [[2], [3], [1], [6], [4], [5],
  [4], [5], [6], [2], [1], [3],
  [3, 6], [1], [4, 5], [4], [3, 5], [2],
  [3, 6], [2], [4, 5], [1], [3, 5], [6],
  [5], [4], [2], [3], [6], [1],
  [1], [6], [3], [5], [2], [4]]
def turned4 : Sudoku := ofTable 3 2
  [2, 3, 1, 6, 4, 5, 4, 5, 6, 2, 1, 3, 0, 1, 0, 4, 0, 2, 0, 2, 0, 1, 0, 6, 5, 4, 2, 3, 6, 1, 1, 6, 3, 5, 2, 4]
  [[2], [3], [1], [6], [4], [5],
  [4], [5], [6], [2], [1], [3],
  [3, 6], [1], [5], [4], [3, 5], [2],
  [3], [2], [4, 5], [1], [3, 5], [6],
  [5], [4], [2], [3], [6], [1],
  [1], [6], [3], [5], [2], [4]]
def turned5 : Sudoku := ofTable 3 2
  [2, 3, 1, 6, 4, 5, 4, 5, 6, 2, 1, 3, 0, 1, 5, 4, 3, 2, 3, 2, 4, 1, 5, 6, 5, 4, 2, 3, 6, 1, 1, 6, 3, 5, 2, 4]
  [[2], [3], [1], [6], [4], [5],
  [4], [5], [6], [2], [1], [3],
  [6], [1], [5], [4], [3], [2],
  [3], [2], [4], [1], [5], [6],
  [5], [4], [2], [3], [6], [1],
  [1], [6], [3], [5], [2], [4]]
def turned6 : Sudoku := ofTable 3 2
  [2, 3, 1, 6, 4, 5, 4, 5, 6, 2, 1, 3, 6, 1, 5, 4, 3, 2, 3, 2, 4, 1, 5, 6, 5, 4, 2, 3, 6, 1, 1, 6, 3, 5, 2, 4]
  [[2], [3], [1], [6], [4], [5],
  [4], [5], [6], [2], [1], [3],
  [6], [1], [5], [4], [3], [2],
  [3], [2], [4], [1], [5], [6],
  [5], [4], [2], [3], [6], [1],
  [1], [6], [3], [5], [2], [4]]

theorem upright_round0 : roundTo (plainWatch Run) 20 upright0 upright1 0 = true := by decide +kernel
theorem upright_round1 : roundTo (plainWatch Run) 20 upright1 upright2 6 = true := by decide +kernel
theorem upright_round2 : roundTo (plainWatch Run) 20 upright2 upright3 5 = true := by decide +kernel
theorem upright_round3 : roundTo (plainWatch Run) 20 upright3 upright4 7 = true := by decide +kernel
theorem upright_round4 : roundTo (plainWatch Run) 20 upright4 upright5 6 = true := by decide +kernel
theorem upright_round5 : roundTo (plainWatch Run) 20 upright5 upright6 1 = true := by decide +kernel

/-- 6 rounds; 0 + 6 + 5 + 7 + 6 + 1 points. -/
theorem upright_runs : Runs (plainWatch Run) 20 6 upright0 upright6 25 :=
  (.cons (ofTable_tidy _ _ _ _) (ofTable_tidy _ _ _ _) upright_round0
  (.cons (ofTable_tidy _ _ _ _) (ofTable_tidy _ _ _ _) upright_round1
  (.cons (ofTable_tidy _ _ _ _) (ofTable_tidy _ _ _ _) upright_round2
  (.cons (ofTable_tidy _ _ _ _) (ofTable_tidy _ _ _ _) upright_round3
  (.cons (ofTable_tidy _ _ _ _) (ofTable_tidy _ _ _ _) upright_round4
  (.cons (ofTable_tidy _ _ _ _) (ofTable_tidy _ _ _ _) upright_round5 (.nil upright6)))))))

theorem turned_round0 : roundTo (plainWatch Run) 20 turned0 turned1 0 = true := by decide +kernel
theorem turned_round1 : roundTo (plainWatch Run) 20 turned1 turned2 8 = true := by decide +kernel
theorem turned_round2 : roundTo (plainWatch Run) 20 turned2 turned3 7 = true := by decide +kernel
theorem turned_round3 : roundTo (plainWatch Run) 20 turned3 turned4 6 = true := by decide +kernel
theorem turned_round4 : roundTo (plainWatch Run) 20 turned4 turned5 5 = true := by decide +kernel
theorem turned_round5 : roundTo (plainWatch Run) 20 turned5 turned6 1 = true := by decide +kernel

/-- 6 rounds; 0 + 8 + 7 + 6 + 5 + 1 points. -/
theorem turned_runs : Runs (plainWatch Run) 20 6 turned0 turned6 27 :=
  (.cons (ofTable_tidy _ _ _ _) (ofTable_tidy _ _ _ _) turned_round0
  (.cons (ofTable_tidy _ _ _ _) (ofTable_tidy _ _ _ _) turned_round1
  (.cons (ofTable_tidy _ _ _ _) (ofTable_tidy _ _ _ _) turned_round2
  (.cons (ofTable_tidy _ _ _ _) (ofTable_tidy _ _ _ _) turned_round3
  (.cons (ofTable_tidy _ _ _ _) (ofTable_tidy _ _ _ _) turned_round4
  (.cons (ofTable_tidy _ _ _ _) (ofTable_tidy _ _ _ _) turned_round5 (.nil turned6)))))))

end Props
