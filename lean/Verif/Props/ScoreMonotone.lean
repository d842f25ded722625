import Verif.Proofs.TurnedTables
import Verif.Props.Deterministic
import Verif.Props.MoreClues
import Verif.Props.Redraw

set_option autoImplicit false

/-! # `score` may grow when a right number is entered, and may change when the sudoku is turned (C115) -/

open Spec Solvers

namespace Props

/-- A 6x6 sudoku with 19 empty fields (boxes 2 wide, 3 high). -/
def beforeHint : Sudoku := ofTable 2 3
  [0, 0, 3, 0, 0, 2,
   3, 0, 2, 0, 0, 0,
   0, 2, 0, 6, 3, 0,
   1, 0, 0, 2, 0, 3,
   2, 3, 6, 0, 0, 4,
   0, 5, 0, 3, 2, 0] []

/-- The same with the number of the solution entered in row 1, column 1. -/
def afterHint : Sudoku := beforeHint.setNumber (1, 1) 1

theorem hint_solution : IsSolution 2 3 beforeHint.num fewer6.num ∧ IsSolution 2 3 afterHint.num fewer6.num := by decide +kernel

theorem score_all {s T T' : Sudoku} {k n : Nat} (hs : Solvable s.bw s.bh s.num) (hf : s.empty.length < 20) (hT : Tidy T)
    (h0 : sameTable (Solve.initCandidates s.copy true) T = true) (h : Runs (plainWatch Run) 20 k T T' n)
    (hend : IsSolution T'.bw T'.bh T'.num T'.num) (hc : ∀ a ∈ T'.cells, T'.cand a = {T'.num a}) {π : Orders Run} (hπ : π.Ok) (hi : Insertion π)
    {fuel rounds : Nat} (hf' : s.empty.length < fuel) (hr : s.empty.length * (s.bw * s.bh + 1) < rounds) :
    score π fuel rounds s = .ok (some n) := by
  have h1 := score_of_runs (plainWatch_ok Run) plainWatch_logFree hs hf hT h0 h hend hc rounds hr
  obtain ⟨r, h2, -⟩ := C33_score π hπ s hs fuel rounds hf' hr
  rw [h2, C92_score π (plainWatch Run) hπ (plainWatch_ok Run) hi (fun _ _ _ _ => rfl) s hs fuel 20 rounds rounds hf' hf r n h2 h1]

/-- **C115** Entering a right number may make the score larger, in whatever order the program visits its sets: the sudoku `beforeHint`
has 19 empty fields and the score 27; with the number of its solution entered in row 1, column 1 its score is 30. -/
theorem C115_score_grows : More beforeHint afterHint ∧ Solvable afterHint.bw afterHint.bh afterHint.get ∧
    beforeHint.empty.length = 19 ∧ afterHint.empty.length = 18 ∧
    ∀ (π : Orders Run), π.Ok → Insertion π → ∀ fuel rounds, 19 < fuel → 133 < rounds →
      score π fuel rounds beforeHint = .ok (some 27) ∧ score π fuel rounds afterHint = .ok (some 30) := by
  have e1 : beforeHint.empty.length = 19 := by decide +kernel
  have e2 : afterHint.empty.length = 18 := by decide +kernel
  refine ⟨⟨rfl, rfl, ?_⟩, ⟨_, hint_solution.2⟩, e1, e2, fun π hπ hi fuel rounds hf hr => ⟨?_, ?_⟩⟩
  · exact (by decide +kernel : Extends 2 3 beforeHint.num afterHint.num)
  · exact score_all ⟨_, hint_solution.1⟩ (by omega) (ofTable_tidy _ _ _ _) (by decide +kernel : _ = true) fewer_runs
      (by decide +kernel : IsSolution 2 3 fewer6.num fewer6.num) (by decide +kernel) hπ hi (by omega) (by rw [e1]; exact hr)
  · exact score_all ⟨_, hint_solution.2⟩ (by omega) (ofTable_tidy _ _ _ _) (by decide +kernel : _ = true) more_runs
      (by decide +kernel : IsSolution 2 3 more5.num more5.num) (by decide +kernel) hπ hi (by omega)
      (by rw [e2]; exact lt_trans (by decide) hr)

/-- A 6x6 sudoku with 19 empty fields (boxes 2 wide, 3 high). -/
def upright : Sudoku := ofTable 2 3
  [0, 4, 0, 0, 5, 0,
   3, 5, 1, 2, 0, 0,
   0, 6, 0, 0, 0, 0,
   6, 2, 0, 1, 3, 0,
   4, 1, 0, 0, 0, 0,
   5, 3, 2, 0, 1, 0] []

/-- The same with rows and columns exchanged (boxes 3 wide, 2 high). -/
def turned : Sudoku := ofTable 3 2
  [0, 3, 0, 6, 4, 5,
   4, 5, 6, 2, 1, 3,
   0, 1, 0, 0, 0, 2,
   0, 2, 0, 1, 0, 0,
   5, 0, 0, 3, 0, 1,
   0, 0, 0, 0, 0, 0] []

theorem upright_solution : IsSolution 2 3 upright.num upright6.num := by decide +kernel
theorem turned_solution : IsSolution 3 2 turned.num turned6.num := by decide +kernel

/-- **C115** Exchanging rows and columns may change the score, in whatever order the program visits its sets: 25 for `upright`, 27 for
`turned` (their rate is the same, C89). -/
theorem C115_score_turned : (transposition 2 3).Shows upright turned ∧ Solvable upright.bw upright.bh upright.get ∧
    upright.empty.length = 19 ∧
    ∀ (π : Orders Run), π.Ok → Insertion π → ∀ fuel rounds, 19 < fuel → 133 < rounds →
      score π fuel rounds upright = .ok (some 25) ∧ score π fuel rounds turned = .ok (some 27) := by
  have e1 : upright.empty.length = 19 := by decide +kernel
  have e2 : turned.empty.length = 19 := by decide +kernel
  refine ⟨⟨rfl, rfl, rfl, rfl, fun a ha => ?_⟩, ⟨_, upright_solution⟩, e1, fun π hπ hi fuel rounds hf hr => ⟨?_, ?_⟩⟩
  · exact (show ∀ a, InGrid 2 3 a → turned.get (a.2, a.1) = upright.get a by decide +kernel) a ha
  · exact score_all ⟨_, upright_solution⟩ (by omega) (ofTable_tidy _ _ _ _) (by decide +kernel : _ = true) upright_runs
      (by decide +kernel : IsSolution 2 3 upright6.num upright6.num) (by decide +kernel) hπ hi (by omega) (by rw [e1]; exact hr)
  · exact score_all ⟨_, turned_solution⟩ (by omega) (ofTable_tidy _ _ _ _) (by decide +kernel : _ = true) turned_runs
      (by decide +kernel : IsSolution 3 2 turned6.num turned6.num) (by decide +kernel) hπ hi (by omega) (by rw [e2]; exact hr)

end Props
