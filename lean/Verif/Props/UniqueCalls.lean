import Verif.Proofs.UniqueCalls
import Verif.Props.CallsFactorial
import Verif.Props.Solve

set_option autoImplicit false

/-! # `is_unique` stops at the second solution (C130) -/

open Spec

namespace Props

/-- **C130** The answer of `is_unique`, which stops at the second solution, is that of the whole search, with any limit of the recursion. It fails
exactly if the whole search fails. -/
theorem C130_same (π : Dlx.Orders) (hπ : π.Ok) (fuel : Nat) (s : Sudoku) : (Dlx.isUniqueN π fuel s).map Prod.fst = Dlx.isUnique π fuel s := by
  have hsame := Dlx.dlxN_same π fuel s
  cases e : Dlx.dlx π fuel s with
  | error x =>
    rw [Dlx.isUniqueN_error hπ e, Dlx.isUnique, e]
    rfl
  | ok sols =>
    rw [e] at hsame
    cases e1 : Dlx.dlxN π fuel s with
    | error x => rw [e1] at hsame; cases hsame
    | ok q =>
      obtain ⟨sols', n⟩ := q
      rw [e1] at hsame
      have hs : sols' = sols := Except.ok.inj hsame
      subst hs
      obtain ⟨m, h1, -, -⟩ := Dlx.isUniqueN_spec e1
      rw [h1, Dlx.isUnique, e]
      match sols' with
      | [] => rfl
      | [_] => rfl
      | _ :: _ :: _ => simp [Except.map]

/-- **C130** With at most one solution `is_unique` calls `solve` as often as a full run of `dlx`; otherwise each solution from the third one on
saves at least one call. -/
theorem C130_calls (π : Dlx.Orders) (fuel : Nat) (s : Sudoku) (sols : List Sudoku) (n : Nat) (h : Dlx.dlxN π fuel s = .ok (sols, n)) :
    ∃ m, Dlx.isUniqueN π fuel s = .ok (decide (sols.length = 1), m) ∧ (sols.length ≤ 1 → m = n) ∧ m + (sols.length - 2) ≤ n := by
  obtain ⟨m, h1, h2, h3⟩ := Dlx.isUniqueN_spec h
  exact ⟨m, h1, fun hl => h2 (by omega), h3⟩

/-- **C130** So `is_unique` makes at most `(E + 1) ∏ mᵢ!` calls, `mᵢ` being the number of empty fields in row (column) `i`. -/
theorem C130_bound (π : Dlx.Orders) (hπ : π.Ok) (fuel : Nat) (s : Sudoku) (b : Bool) (m : Nat) (h : Dlx.isUniqueN π fuel s = .ok (b, m)) :
    m ≤ (s.empty.length + 1) * rowProduct (s.bw * s.bh) s.get ∧ m ≤ (s.empty.length + 1) * columnProduct (s.bw * s.bh) s.get := by
  have hsame := Dlx.dlxN_same π fuel s
  cases e1 : Dlx.dlxN π fuel s with
  | error x =>
    rw [e1] at hsame
    rw [Dlx.isUniqueN_error hπ hsame.symm] at h
    cases h
  | ok q =>
    obtain ⟨sols, n⟩ := q
    obtain ⟨m', h1, -, h3⟩ := Dlx.isUniqueN_spec e1
    rw [h1] at h
    cases h
    obtain ⟨-, -, h4, h5⟩ := C129_lines_dlx π hπ fuel s sols n e1
    exact ⟨by omega, by omega⟩

/-- **C130** If `is_unique` is true it made at least `E + 1` calls, those of a full run of `dlx` (`E + 1` exactly if `dlx` never guesses, C118). -/
theorem C130_true (π : Dlx.Orders) (hπ : π.Ok) (fuel : Nat) (s : Sudoku) (m : Nat) (h : Dlx.isUniqueN π fuel s = .ok (true, m)) :
    UniqueSolution s.bw s.bh s.get ∧ s.empty.length + 1 ≤ m ∧ ∃ sols, Dlx.dlxN π fuel s = .ok (sols, m) := by
  have hsame := Dlx.dlxN_same π fuel s
  cases e1 : Dlx.dlxN π fuel s with
  | error x =>
    rw [e1] at hsame
    rw [Dlx.isUniqueN_error hπ hsame.symm] at h
    cases h
  | ok q =>
    obtain ⟨sols, n⟩ := q
    obtain ⟨m', h1, h2, h3⟩ := Dlx.isUniqueN_spec e1
    rw [h1] at h
    have hb := (Prod.mk.inj (Except.ok.inj h)).1
    have hm := (Prod.mk.inj (Except.ok.inj h)).2
    have hl : sols.length = 1 := of_decide_eq_true hb
    have hmn : m = n := by rw [← hm]; exact h2 (by omega)
    subst hmn
    rw [e1] at hsame
    have hd : Dlx.dlx π fuel s = .ok sols := hsame.symm
    have hu : Dlx.isUnique π fuel s = .ok true := by
      rw [← C130_same π hπ fuel s, h1, hb]
      rfl
    have hU : UniqueSolution s.bw s.bh s.get := by
      rcases Dlx.dlx_result hπ s fuel with ⟨sols', e, hn, mm, -⟩ | ⟨e, -⟩
      swap
      · rw [hd] at e; cases e
      obtain ⟨x, hx⟩ := List.length_eq_one_iff.1 hl
      rw [hd] at e
      cases e
      by_cases hf : s.empty.length < fuel
      · obtain ⟨b, k1, k2⟩ := C22_is_unique π hπ fuel s hf
        rw [hu] at k1
        exact k2.1 (Except.ok.inj k1).symm
      · exfalso
        have hsol : Solvable s.bw s.bh s.get := by
          obtain ⟨-, k⟩ := (mm x).1 (by rw [hx]; simp)
          exact ⟨x.num, k⟩
        have := (C57_depth upwards upwards_ok π hπ fuel s hsol (by omega)).1
        rw [hd] at this
        cases this
    obtain ⟨g, hg, -⟩ := id hU
    have h4 := C124_dlx π hπ fuel s sols m e1 [g] (by simp) (by simpa using hg) (by simp)
    simp only [List.length_singleton] at h4
    exact ⟨hU, by omega, sols, rfl⟩

/-! ## Samples -/

/-- The empty 2x2 sudoku: the second of the two solutions is found in the last of nine calls. -/
example : (Dlx.isUniqueN plainOrders 5 (Sudoku.new 2 1)).toOption = some (false, 9) := by decide +kernel

/-- The empty 4x4 sudoku has 288 solutions; `is_unique` stops early. -/
example : (Dlx.isUniqueN plainOrders 17 (Sudoku.new 2 2)).toOption.map (fun q => (q.1, decide (q.2 < 40))) = some (false, true) := by decide +kernel

end Props
