import Verif.Proofs.TraceTables

set_option autoImplicit false

/-! Helper lemmas: sudokus for which `solve` uses a naked triple, a hidden pair, a fish. -/

open Spec

namespace Solvers

theorem loop_grows {π : Orders Run} (hπ : π.Ok) {fuel : Nat} : ∀ {rounds : Nat} {w w' : Run}, loop π fuel rounds w = .ok (some w') → ∃ L, w'.2 = w.2 ++ L := by
  intro rounds
  induction rounds with
  | zero => intro w w' h; simp [loop] at h
  | succ r ih =>
    intro w w' h
    rw [loop] at h
    split at h
    · exact absurd h (by simp)
    · cases h; exact ⟨[], by simp⟩
    · rename_i w₁ hr
      obtain ⟨k, -, -, h4, -⟩ := round_idle hπ hr
      obtain ⟨L, h6, -⟩ := find_log' hπ h4
      obtain ⟨L', h7⟩ := ih h
      exact ⟨L ++ L', by rw [h7, h6, List.append_assoc]⟩

/-- The next round reports steps of class `k`. -/
def roundUses (π : Orders Run) (fuel : Nat) (T : Sudoku) (k : Kind) : Bool :=
  match round π fuel solvers (T, []) with
  | .ok (some w) => w.2.any fun st => decide (st.kind = k)
  | _ => false

theorem solve_uses {π : Orders Run} (hπ : π.Ok) (hp : LogFree π) {fuel j n : Nat} {s T T' : Sudoku} (hs : Solvable s.bw s.bh s.num)
    (hf : s.empty.length < fuel) (hT : Tidy T) (h0 : sameTable (Solve.initCandidates s.copy true) T = true) (h : Runs π fuel j T T' n)
    {k : Kind} (hk : roundUses π fuel T' k = true) (rounds : Nat) (hr : s.empty.length * (s.bw * s.bh + 1) < rounds) :
    ∃ w, solve π fuel rounds s = .ok (some w) ∧ ∃ st ∈ w.2, st.kind = k := by
  have e0 := eq_of_sameTable (tidy_start s) hT h0
  obtain ⟨w, h5, -⟩ := solve_spec hπ s hs fuel rounds hf hr
  refine ⟨w, h5, ?_⟩
  obtain ⟨L, h1, -⟩ := loop_runs hπ hp h (rounds + 1) []
  have h7 := solve_rounds h5 (rounds + 1 + j) (by omega)
  unfold solve at h7
  rw [e0, h1, loop, round_after hp] at h7
  unfold roundUses at hk
  split at hk
  · rename_i w₁ hw₁
    rw [hw₁] at h7
    obtain ⟨L', h8⟩ := loop_grows hπ h7
    rw [List.any_eq_true] at hk
    obtain ⟨st, hst, hk⟩ := hk
    exact ⟨st, by rw [h8]; simp [after, hst], of_decide_eq_true hk⟩
  · exact absurd hk (by simp)

end Solvers

open Solvers

namespace Props

/-- A sudoku for which `solve` uses this class. -/
def tripleUse : Sudoku := ofTable 3 2
  [0, 0, 0, 0, 0, 0,
   0, 0, 4, 6, 0, 0,
   0, 0, 0, 0, 0, 0,
   5, 4, 1, 0, 0, 0,
   0, 0, 0, 0, 0, 0,
   0, 6, 3, 5, 0, 0]
  []
/-- A solution. -/
def tripleSol : Sudoku := ofTable 3 2
  [3, 2, 6, 1, 5, 4,
   1, 5, 4, 6, 2, 3,
   6, 3, 2, 4, 1, 5,
   5, 4, 1, 2, 3, 6,
   4, 1, 5, 3, 6, 2,
   2, 6, 3, 5, 4, 1]
  []
/-- With the candidates `solve` starts with. -/
def triple0 : Sudoku := ofTable 3 2
  [0, 0, 0, 0, 0, 0,
   0, 0, 4, 6, 0, 0,
   0, 0, 0, 0, 0, 0,
   5, 4, 1, 0, 0, 0,
   0, 0, 0, 0, 0, 0,
   0, 6, 3, 5, 0, 0]
  [[], [], [], [], [], [],
   [], [], [4], [6], [], [],
   [], [], [], [], [], [],
   [5], [4], [1], [], [], [],
   [], [], [], [], [], [],
   [], [6], [3], [5], [], []]
/-- After the first round. -/
def triple1 : Sudoku := ofTable 3 2
  [0, 0, 0, 0, 0, 0,
   0, 0, 4, 6, 0, 0,
   0, 0, 0, 0, 0, 0,
   5, 4, 1, 0, 0, 0,
   0, 0, 0, 0, 0, 0,
   0, 6, 3, 5, 0, 0]
  [[1, 2, 3, 6], [1, 2, 3, 5], [2, 5, 6], [1, 2, 3, 4], [1, 2, 3, 4, 5], [1, 2, 3, 4, 5],
   [1, 2, 3], [1, 2, 3, 5], [4], [6], [1, 2, 3, 5], [1, 2, 3, 5],
   [2, 3, 6], [2, 3], [2, 6], [1, 2, 3, 4], [1, 2, 3, 4, 5, 6], [1, 2, 3, 4, 5, 6],
   [5], [4], [1], [2, 3], [2, 3, 6], [2, 3, 6],
   [1, 2, 4], [1, 2, 5], [2, 5], [1, 2, 3, 4], [1, 2, 3, 4, 6], [1, 2, 3, 4, 6],
   [1, 2, 4], [6], [3], [5], [1, 2, 4], [1, 2, 4]]
/-- A sudoku for which `solve` uses this class. -/
def hiddenUse : Sudoku := ofTable 3 2
  [5, 1, 0, 0, 6, 4,
   0, 6, 0, 0, 0, 0,
   0, 0, 1, 0, 4, 0,
   3, 4, 0, 0, 0, 0,
   0, 0, 0, 0, 0, 0,
   1, 0, 0, 0, 5, 6]
  []
/-- A solution. -/
def hiddenSol : Sudoku := ofTable 3 2
  [5, 1, 3, 2, 6, 4,
   4, 6, 2, 1, 3, 5,
   2, 5, 1, 6, 4, 3,
   3, 4, 6, 5, 2, 1,
   6, 3, 5, 4, 1, 2,
   1, 2, 4, 3, 5, 6]
  []
/-- With the candidates `solve` starts with. -/
def hidden0 : Sudoku := ofTable 3 2
  [5, 1, 0, 0, 6, 4,
   0, 6, 0, 0, 0, 0,
   0, 0, 1, 0, 4, 0,
   3, 4, 0, 0, 0, 0,
   0, 0, 0, 0, 0, 0,
   1, 0, 0, 0, 5, 6]
  [[5], [1], [], [], [6], [4],
   [], [6], [], [], [], [],
   [], [], [1], [], [4], [],
   [3], [4], [], [], [], [],
   [], [], [], [], [], [],
   [1], [], [], [], [5], [6]]
/-- After the first round. -/
def hidden1 : Sudoku := ofTable 3 2
  [5, 1, 0, 0, 6, 4,
   0, 6, 0, 0, 0, 0,
   0, 0, 1, 0, 4, 0,
   3, 4, 0, 0, 0, 0,
   0, 0, 0, 0, 0, 0,
   1, 0, 0, 0, 5, 6]
  [[5], [1], [2, 3], [2, 3], [6], [4],
   [2, 4], [6], [2, 3, 4], [1, 2, 3, 5], [1, 2, 3], [1, 2, 3, 5],
   [2, 6], [2, 5], [1], [2, 3, 5, 6], [4], [2, 3, 5],
   [3], [4], [2, 5, 6], [1, 2, 5, 6], [1, 2], [1, 2, 5],
   [2, 4, 6], [2, 3, 5], [2, 3, 4, 5, 6], [1, 2, 3, 4], [1, 2, 3], [1, 2, 3],
   [1], [2, 3], [2, 3, 4], [2, 3, 4], [5], [6]]
/-- A sudoku for which `solve` uses this class. -/
def wingUse : Sudoku := ofTable 3 2
  [5, 0, 0, 0, 1, 2,
   0, 2, 1, 0, 0, 0,
   0, 4, 0, 0, 0, 0,
   0, 0, 0, 0, 0, 4,
   6, 0, 0, 0, 5, 0,
   0, 5, 3, 6, 0, 0]
  []
/-- A solution. -/
def wingSol : Sudoku := ofTable 3 2
  [5, 3, 6, 4, 1, 2,
   4, 2, 1, 5, 3, 6,
   3, 4, 2, 1, 6, 5,
   1, 6, 5, 3, 2, 4,
   6, 1, 4, 2, 5, 3,
   2, 5, 3, 6, 4, 1]
  []
/-- With the candidates `solve` starts with. -/
def wing0 : Sudoku := ofTable 3 2
  [5, 0, 0, 0, 1, 2,
   0, 2, 1, 0, 0, 0,
   0, 4, 0, 0, 0, 0,
   0, 0, 0, 0, 0, 4,
   6, 0, 0, 0, 5, 0,
   0, 5, 3, 6, 0, 0]
  [[5], [], [], [], [1], [2],
   [], [2], [1], [], [], [],
   [], [4], [], [], [], [],
   [], [], [], [], [], [4],
   [6], [], [], [], [5], [],
   [], [5], [3], [6], [], []]
/-- After the first round. -/
def wing1 : Sudoku := ofTable 3 2
  [5, 0, 0, 0, 1, 2,
   0, 2, 1, 0, 0, 0,
   0, 4, 0, 0, 0, 0,
   0, 0, 0, 0, 0, 4,
   6, 0, 0, 0, 5, 0,
   0, 5, 3, 6, 0, 0]
  [[5], [3, 6], [4, 6], [3, 4], [1], [2],
   [3, 4], [2], [1], [3, 4, 5], [3, 4, 6], [3, 5, 6],
   [1, 2, 3], [4], [2, 5, 6], [1, 2, 3, 5], [2, 3, 6], [1, 3, 5, 6],
   [1, 2, 3], [1, 3, 6], [2, 5, 6], [1, 2, 3, 5], [2, 3, 6], [4],
   [6], [1], [2, 4], [1, 2, 3, 4], [5], [1, 3],
   [1, 2, 4], [5], [3], [6], [2, 4], [1]]
/-- After the second round (3 points). -/
def wing2 : Sudoku := ofTable 3 2
  [5, 0, 0, 0, 1, 2,
   0, 2, 1, 0, 0, 0,
   0, 4, 0, 0, 0, 0,
   0, 0, 0, 0, 0, 4,
   6, 1, 0, 0, 5, 3,
   0, 5, 3, 6, 0, 1]
  [[5], [3, 6], [4, 6], [3, 4], [1], [2],
   [3, 4], [2], [1], [3, 4, 5], [3, 4, 6], [5, 6],
   [1, 2, 3], [4], [2, 5, 6], [1, 2, 3, 5], [2, 3, 6], [5, 6],
   [1, 2, 3], [3, 6], [2, 5, 6], [1, 2, 3, 5], [2, 3, 6], [4],
   [6], [1], [2, 4], [2, 4], [5], [3],
   [2, 4], [5], [3], [6], [2, 4], [1]]

theorem triple_runs : Runs (plainWatch Run) 37 1 triple0 triple1 0 :=
  .cons (ofTable_tidy _ _ _ _) (ofTable_tidy _ _ _ _) (by decide +kernel : roundTo (plainWatch Run) 37 triple0 triple1 0 = true) (.nil _)

theorem hidden_runs : Runs (plainWatch Run) 37 1 hidden0 hidden1 0 :=
  .cons (ofTable_tidy _ _ _ _) (ofTable_tidy _ _ _ _) (by decide +kernel : roundTo (plainWatch Run) 37 hidden0 hidden1 0 = true) (.nil _)

theorem wing_runs : Runs (plainWatch Run) 37 2 wing0 wing2 3 :=
  .cons (n := 0) (ofTable_tidy _ _ _ _) (ofTable_tidy _ _ _ _) (by decide +kernel : roundTo (plainWatch Run) 37 wing0 wing1 0 = true)
    (.cons (n := 3) (ofTable_tidy _ _ _ _) (ofTable_tidy _ _ _ _) (by decide +kernel : roundTo (plainWatch Run) 37 wing1 wing2 3 = true) (.nil _))

theorem triple_uses : ∃ w, solve (plainWatch Run) 37 300 tripleUse = .ok (some w) ∧ ∃ st ∈ w.2, st.kind = .nakedTuple 3 :=
  solve_uses (plainWatch_ok Run) plainWatch_logFree ⟨_, (by decide +kernel : IsSolution 3 2 tripleUse.num tripleSol.num)⟩ (by decide +kernel)
    (ofTable_tidy _ _ _ _) (by decide +kernel : _ = true) triple_runs (by decide +kernel) _ (by decide +kernel)

theorem hidden_uses : ∃ w, solve (plainWatch Run) 37 300 hiddenUse = .ok (some w) ∧ ∃ st ∈ w.2, st.kind = .hiddenTuple 2 :=
  solve_uses (plainWatch_ok Run) plainWatch_logFree ⟨_, (by decide +kernel : IsSolution 3 2 hiddenUse.num hiddenSol.num)⟩ (by decide +kernel)
    (ofTable_tidy _ _ _ _) (by decide +kernel : _ = true) hidden_runs (by decide +kernel) _ (by decide +kernel)

theorem wing_uses : ∃ w, solve (plainWatch Run) 37 300 wingUse = .ok (some w) ∧ ∃ st ∈ w.2, st.kind = .basicFish 2 :=
  solve_uses (plainWatch_ok Run) plainWatch_logFree ⟨_, (by decide +kernel : IsSolution 3 2 wingUse.num wingSol.num)⟩ (by decide +kernel)
    (ofTable_tidy _ _ _ _) (by decide +kernel : _ = true) wing_runs (by decide +kernel) _ (by decide +kernel)

/-- A sudoku of size 4 for which `solve` uses a fish. -/
def fourUse : Sudoku := ofTable 2 2
  [0, 0, 0, 3,
   3, 0, 1, 0,
   0, 3, 0, 0,
   2, 0, 3, 0]
  []
/-- A solution. -/
def fourSol : Sudoku := ofTable 2 2
  [1, 2, 4, 3,
   3, 4, 1, 2,
   4, 3, 2, 1,
   2, 1, 3, 4]
  []
/-- With the candidates `solve` starts with. -/
def four0 : Sudoku := ofTable 2 2
  [0, 0, 0, 3,
   3, 0, 1, 0,
   0, 3, 0, 0,
   2, 0, 3, 0]
  [[], [], [], [3],
   [3], [], [1], [],
   [], [3], [], [],
   [2], [], [3], []]
/-- After the first round. -/
def four1 : Sudoku := ofTable 2 2
  [0, 0, 0, 3,
   3, 0, 1, 0,
   0, 3, 0, 0,
   2, 0, 3, 0]
  [[1, 4], [1, 2, 4], [2, 4], [3],
   [3], [2, 4], [1], [2, 4],
   [1, 4], [3], [2, 4], [1, 2, 4],
   [2], [1, 4], [3], [1, 4]]

theorem four_uses : ∃ w, solve (plainWatch Run) 37 300 fourUse = .ok (some w) ∧ ∃ st ∈ w.2, st.kind = .basicFish 2 :=
  solve_uses (plainWatch_ok Run) plainWatch_logFree ⟨_, (by decide +kernel : IsSolution 2 2 fourUse.num fourSol.num)⟩ (by decide +kernel)
    (ofTable_tidy _ _ _ _) (by decide +kernel : sameTable _ four0 = true)
    (.cons (n := 0) (ofTable_tidy _ _ _ _) (ofTable_tidy _ _ _ _) (by decide +kernel : roundTo (plainWatch Run) 37 four0 four1 0 = true) (.nil _))
    (by decide +kernel) _ (by decide +kernel)

/-- A sudoku for which `solve` uses a pointing pair (the start of `fewer0`). -/
def pointUse : Sudoku := ofTable 2 3
  [0, 0, 3, 0, 0, 2, 3, 0, 2, 0, 0, 0, 0, 2, 0, 6, 3, 0, 1, 0, 0, 2, 0, 3, 2, 3, 6, 0, 0, 4, 0, 5, 0, 3, 2, 0] []

theorem point_uses : ∃ w, solve (plainWatch Run) 20 300 pointUse = .ok (some w) ∧ ∃ st ∈ w.2, st.kind = .pointingTuple 2 :=
  solve_uses (plainWatch_ok Run) plainWatch_logFree ⟨_, (by decide +kernel : IsSolution 2 3 pointUse.num fewer6.num)⟩ (by decide +kernel)
    (ofTable_tidy _ _ _ _) (by decide +kernel : sameTable _ fewer0 = true)
    (.cons (n := 0) (ofTable_tidy _ _ _ _) (ofTable_tidy _ _ _ _) fewer_round0 (.nil _)) (by decide +kernel) _ (by decide +kernel)

end Props
