import Verif.Props.FirstSolutions

set_option autoImplicit false

/-! # The recursion limit does not change what is found (C132) -/

open Spec

namespace Props

/-- **C132** Two runs of `dlx` with different recursion limits, neither of which raises RecursionError: the first `k` sudokus and the number of calls
until then are the same. -/
theorem C132_dlx_first (π : Dlx.Orders) (fuel fuel' k : Nat) (s : Sudoku) (q q' : List Sudoku × Nat) (h : Dlx.dlxK π fuel k s = .ok q)
    (h' : Dlx.dlxK π fuel' k s = .ok q') : q = q' := by
  have h1 := Dlx.dlxK_shallow h (Nat.le_max_left q.2 q'.2)
  have h2 := Dlx.dlxK_shallow h' (Nat.le_max_right q.2 q'.2)
  rw [h1] at h2
  exact Except.ok.inj h2

/-- **C132** The same for `bruteforce`. -/
theorem C132_bruteforce_first (π : Solve.SetOrder) (fuel fuel' k : Nat) (s : Sudoku) (q q' : List Sudoku × Nat) (h : Solve.bruteforceK π fuel k s = some q)
    (h' : Solve.bruteforceK π fuel' k s = some q') : q = q' := by
  have h1 := Solve.bruteforceK_shallow h (Nat.le_max_left q.2 q'.2)
  have h2 := Solve.bruteforceK_shallow h' (Nat.le_max_right q.2 q'.2)
  rw [h1] at h2
  exact Option.some.inj h2

private theorem eq_of_take {α : Type} {l l' : List α} (h : l.take (max l.length l'.length + 1) = l'.take (max l.length l'.length + 1)) : l = l' := by
  rwa [List.take_of_length_le (by omega), List.take_of_length_le (by omega)] at h

/-- **C132** Whole runs of `dlx`: the same sudokus in the same order, with the same number of calls. -/
theorem C132_dlx (π : Dlx.Orders) (fuel fuel' : Nat) (s : Sudoku) (q q' : List Sudoku × Nat) (h : Dlx.dlxN π fuel s = .ok q)
    (h' : Dlx.dlxN π fuel' s = .ok q') : q = q' := by
  obtain ⟨sols, n⟩ := q
  obtain ⟨sols', n'⟩ := q'
  obtain ⟨m, h1, h2, -⟩ := Dlx.dlxK_spec (k := max sols.length sols'.length + 1) (by omega) h
  obtain ⟨m', h1', h2', -⟩ := Dlx.dlxK_spec (k := max sols.length sols'.length + 1) (by omega) h'
  have e := C132_dlx_first π fuel fuel' _ s _ _ h1 h1'
  rw [h2 (by omega), h2' (by omega)] at e
  rw [eq_of_take (Prod.mk.inj e).1, (Prod.mk.inj e).2]

/-- **C132** Whole runs of `bruteforce`. -/
theorem C132_bruteforce (π : Solve.SetOrder) (hπ : π.Ok) (fuel fuel' : Nat) (s : Sudoku) (q q' : List Sudoku × Nat) (h : Solve.bruteforceN π fuel s = some q)
    (h' : Solve.bruteforceN π fuel' s = some q') : q = q' := by
  obtain ⟨sols, n⟩ := q
  obtain ⟨sols', n'⟩ := q'
  obtain ⟨m, h1, h2, -⟩ := Solve.bruteforceK_spec hπ (k := max sols.length sols'.length + 1) (by omega) h
  obtain ⟨m', h1', h2', -⟩ := Solve.bruteforceK_spec hπ (k := max sols.length sols'.length + 1) (by omega) h'
  have e := C132_bruteforce_first π fuel fuel' _ s _ _ h1 h1'
  rw [h2 (by omega), h2' (by omega)] at e
  rw [eq_of_take (Prod.mk.inj e).1, (Prod.mk.inj e).2]

/-- **C132** So the answer of `is_unique` is the same. -/
theorem C132_is_unique (π : Dlx.Orders) (fuel fuel' : Nat) (s : Sudoku) (b b' : Bool) (h : Dlx.isUnique π fuel s = .ok b) (h' : Dlx.isUnique π fuel' s = .ok b') :
    b = b' := by
  have hs := Dlx.dlxN_same π fuel s
  have hs' := Dlx.dlxN_same π fuel' s
  cases e : Dlx.dlxN π fuel s with
  | error x => rw [e] at hs; unfold Dlx.isUnique at h; rw [← hs] at h; cases h
  | ok q =>
    cases e' : Dlx.dlxN π fuel' s with
    | error x => rw [e'] at hs'; unfold Dlx.isUnique at h'; rw [← hs'] at h'; cases h'
    | ok q' =>
      have := C132_dlx π fuel fuel' s q q' e e'
      subst this
      rw [e] at hs
      rw [e'] at hs'
      unfold Dlx.isUnique at h h'
      rw [← hs] at h
      rw [← hs'] at h'
      rw [h] at h'
      exact Except.ok.inj h'

/-- **C132** As many levels as a run makes calls are always enough. -/
theorem C132_enough (π : Dlx.Orders) (π' : Solve.SetOrder) (fuel fuel' limit k : Nat) (s : Sudoku) (q q' : List Sudoku × Nat)
    (h : Dlx.dlxK π fuel k s = .ok q) (h' : Solve.bruteforceK π' fuel' k s = some q') :
    (q.2 ≤ limit → Dlx.dlxK π limit k s = .ok q) ∧ (q'.2 ≤ limit → Solve.bruteforceK π' limit k s = some q') :=
  ⟨fun hl => Dlx.dlxK_shallow h hl, fun hl => Solve.bruteforceK_shallow h' hl⟩

/-! ## Samples -/

/-- Five levels are needed for four empty fields; with more nothing changes. -/
example : (Dlx.dlxN plainOrders 4 (Sudoku.new 2 1)).toOption.isNone ∧
    (Dlx.dlxN plainOrders 5 (Sudoku.new 2 1)).toOption.map (fun q => (q.1.map fun t => t.cells.map t.get, q.2)) =
      (Dlx.dlxN plainOrders 50 (Sudoku.new 2 1)).toOption.map (fun q => (q.1.map fun t => t.cells.map t.get, q.2)) ∧
    (Dlx.dlxN plainOrders 5 (Sudoku.new 2 1)).toOption.isSome ∧ (Solve.bruteforceN upwards 50 (Sudoku.new 2 1)).isSome := by decide +kernel

end Props
