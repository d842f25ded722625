import Verif.Props.Solvers

set_option autoImplicit false

/-! # C31: what `solve` returns for unsolvable sudokus (longer computations, hence in a file of their own) -/

open Spec Solvers

namespace Props

/-- A 4x4 sudoku given by its rows. -/
def ofRows (rows : List (List Int)) : Sudoku := { Sudoku.new 2 2 with num := fun a => (rows.getD a.1 []).getD a.2 0 }

private def returns (p : Sudoku → Bool) : Except PyErr (Option Run) → Bool
  | .ok (some (t, _)) => p t
  | _ => false

private theorem returns_spec {p : Sudoku → Bool} {r : Except PyErr (Option Run)} (h : returns p r = true) :
    ∃ t steps, r = .ok (some (t, steps)) ∧ p t = true := by
  rcases r with e | (_ | ⟨t, steps⟩)
  · cases h
  · cases h
  · exact ⟨t, steps, rfl, h⟩

private theorem unsolvable {s : Sudoku} (h : (Dlx.dlx ((plainWatch Run).dlx (s, [])) 30 s).toOption.map List.length = some 0)
    (hf : s.empty.length < 30) : ¬ Solvable s.bw s.bh s.get := by
  obtain ⟨sols, h1, -, h3⟩ := C18_dlx_complete ((plainWatch Run).dlx (s, [])) ((plainWatch_ok Run).dlx _) 30 s hf
  rw [h1] at h
  exact h3.1 (List.length_eq_zero_iff.1 (Option.some.inj h))

/-- Four clues. -/
def noWay : Sudoku := ofRows [[0, 0, 2, 3], [0, 0, 0, 0], [0, 3, 0, 0], [0, 2, 0, 0]]

/-- Four other clues. -/
def noWay' : Sudoku := ofRows [[0, 0, 0, 3], [0, 0, 0, 1], [0, 0, 0, 0], [3, 1, 0, 0]]

/-- **C31** For a sudoku without conflicts that has no solution, `solve` may return a full grid with conflicts: here with two 3s
in a row.  (`HiddenSingle` does not look at the candidates of the field, see `C61_not_a_candidate`.) -/
theorem C31_wrong_solution : NoConflict noWay.bw noWay.bh noWay.get ∧ ¬ Solvable noWay.bw noWay.bh noWay.get ∧
    ∃ t steps, solve (plainWatch Run) 30 8 noWay = .ok (some (t, steps)) ∧ t.empty = [] ∧ t.get (2, 0) = 3 ∧ t.get (2, 1) = 3 := by
  refine ⟨by decide +kernel, unsolvable (by decide +kernel) (by decide +kernel), ?_⟩
  obtain ⟨t, steps, h1, h2⟩ := returns_spec (p := fun t => decide (t.empty = [] ∧ t.get (2, 0) = 3 ∧ t.get (2, 1) = 3))
    (r := solve (plainWatch Run) 30 8 noWay) (by decide +kernel)
  exact ⟨t, steps, h1, of_decide_eq_true h2⟩

/-- **C31** It may also return a grid with empty fields (and conflicts). -/
theorem C31_incomplete : NoConflict noWay'.bw noWay'.bh noWay'.get ∧ ¬ Solvable noWay'.bw noWay'.bh noWay'.get ∧
    ∃ t steps, solve (plainWatch Run) 30 8 noWay' = .ok (some (t, steps)) ∧ t.get (0, 1) = 0 ∧ t.get (0, 3) = 3 ∧ t.get (2, 3) = 3 := by
  refine ⟨by decide +kernel, unsolvable (by decide +kernel) (by decide +kernel), ?_⟩
  obtain ⟨t, steps, h1, h2⟩ := returns_spec (p := fun t => decide (t.get (0, 1) = 0 ∧ t.get (0, 3) = 3 ∧ t.get (2, 3) = 3))
    (r := solve (plainWatch Run) 30 8 noWay') (by decide +kernel)
  exact ⟨t, steps, h1, of_decide_eq_true h2⟩

end Props
