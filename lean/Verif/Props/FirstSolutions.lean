import Verif.Proofs.FirstCalls
import Verif.Props.UniqueCalls

set_option autoImplicit false

/-! # Taking only the first solutions (C131) -/

open Spec

namespace Props

/-- **C131** Whoever asks `dlx` for `k ≥ 1` sudokus gets the first `k` of a full run, or RecursionError exactly if the full run raises it. -/
theorem C131_dlx (π : Dlx.Orders) (hπ : π.Ok) (fuel k : Nat) (hk : 1 ≤ k) (s : Sudoku) :
    (Dlx.dlxK π fuel k s).map Prod.fst = (Dlx.dlx π fuel s).map (List.take k) := by
  have hsame := Dlx.dlxN_same π fuel s
  cases e : Dlx.dlx π fuel s with
  | error x => rw [Dlx.dlxK_error hπ hk e]; rfl
  | ok sols =>
    rw [e] at hsame
    cases e1 : Dlx.dlxN π fuel s with
    | error x => rw [e1] at hsame; cases hsame
    | ok q =>
      obtain ⟨sols', n⟩ := q
      rw [e1] at hsame
      have hs : sols' = sols := Except.ok.inj hsame
      subst hs
      obtain ⟨m, h1, -, -⟩ := Dlx.dlxK_spec hk e1
      rw [h1]
      rfl

/-- **C131** The same for `bruteforce`. -/
theorem C131_bruteforce (π : Solve.SetOrder) (hπ : π.Ok) (fuel k : Nat) (hk : 1 ≤ k) (s : Sudoku) :
    (Solve.bruteforceK π fuel k s).map Prod.fst = (Solve.bruteforce π fuel s).map (List.take k) := by
  have hsame := Solve.bruteforceN_same π fuel s
  cases e : Solve.bruteforce π fuel s with
  | none =>
    rcases Solve.bruteforce_result hπ s fuel with ⟨_, e', -⟩ | ⟨-, hf⟩
    · rw [e] at e'; cases e'
    · rw [Solve.bruteforceK_none hπ hk hf e]; rfl
  | some sols =>
    rw [e] at hsame
    cases e1 : Solve.bruteforceN π fuel s with
    | none => rw [e1] at hsame; cases hsame
    | some q =>
      obtain ⟨sols', n⟩ := q
      rw [e1] at hsame
      have hs : sols' = sols := Option.some.inj hsame
      subst hs
      obtain ⟨m, h1, -, -⟩ := Solve.bruteforceK_spec hπ hk e1
      rw [h1]
      rfl

/-- **C131** The number of calls until the `k`-th sudoku: that of a full run if there are fewer, and at least one less for each further one. -/
theorem C131_calls (π : Dlx.Orders) (π' : Solve.SetOrder) (hπ' : π'.Ok) (fuel fuel' k : Nat) (hk : 1 ≤ k) (s : Sudoku)
    (sols sols' : List Sudoku) (n n' : Nat) (h : Dlx.dlxN π fuel s = .ok (sols, n)) (h' : Solve.bruteforceN π' fuel' s = some (sols', n')) :
    (∃ m, Dlx.dlxK π fuel k s = .ok (sols.take k, m) ∧ (sols.length < k → m = n) ∧ m + (sols.length - k) ≤ n) ∧
    ∃ m, Solve.bruteforceK π' fuel' k s = some (sols'.take k, m) ∧ (sols'.length < k → m = n') ∧ m + (sols'.length - k) ≤ n' :=
  ⟨Dlx.dlxK_spec hk h, Solve.bruteforceK_spec hπ' hk h'⟩

/-- **C131** `next(dlx(s))` and `next(bruteforce(s))`: with one level of recursion for each empty field and one more, both return a solution if there
is one, and raise StopIteration (nothing is yielded) otherwise. The numbers of `s` are between 1 and `N`. -/
theorem C131_next (π : Dlx.Orders) (π' : Solve.SetOrder) (hπ : π.Ok) (hπ' : π'.Ok) (fuel : Nat) (s : Sudoku) (hf : s.empty.length < fuel)
    (hs : ∀ a, InGrid s.bw s.bh a → s.get a ≠ 0 → IsNumber s.bw s.bh (s.get a)) :
    (∃ m m' t t', Dlx.dlxK π fuel 1 s = .ok ([t], m) ∧ Solve.bruteforceK π' fuel 1 s = some ([t'], m') ∧
      IsSolution s.bw s.bh s.get t.get ∧ IsSolution s.bw s.bh s.get t'.get) ∨
    (¬ Solvable s.bw s.bh s.get ∧ (∃ m, Dlx.dlxK π fuel 1 s = .ok ([], m)) ∧ ∃ m, Solve.bruteforceK π' fuel 1 s = some ([], m)) := by
  obtain ⟨sols', sols, h1, h2, hp⟩ := C21_agree π' hπ' π hπ fuel s hf hs
  obtain ⟨sols2, h3, -, h4⟩ := C18_dlx_complete π hπ fuel s hf
  rw [h2] at h3
  cases h3
  have hsol := C17_dlx_sound π hπ fuel s sols h2
  have e1 := C131_dlx π hπ fuel 1 (Nat.le_refl 1) s
  have e2 := C131_bruteforce π' hπ' fuel 1 (Nat.le_refl 1) s
  rw [h2] at e1
  rw [h1] at e2
  cases f1 : Dlx.dlxK π fuel 1 s with
  | error x => rw [f1] at e1; cases e1
  | ok q =>
    cases f2 : Solve.bruteforceK π' fuel 1 s with
    | none => rw [f2] at e2; cases e2
    | some q' =>
      obtain ⟨l, m⟩ := q
      obtain ⟨l', m'⟩ := q'
      rw [f1] at e1
      rw [f2] at e2
      have g1 : l = sols.take 1 := Except.ok.inj e1
      have g2 : l' = sols'.take 1 := Option.some.inj e2
      rw [g1, g2]
      match sols, sols', hp with
      | [], l', hp =>
        have : l' = [] := hp.eq_nil
        subst this
        exact Or.inr ⟨h4.1 rfl, ⟨m, rfl⟩, m', rfl⟩
      | x :: xs, [], hp => exact absurd hp.symm.eq_nil (List.cons_ne_nil _ _)
      | x :: xs, y :: ys, hp =>
        exact Or.inl ⟨m, m', x, y, rfl, rfl, (hsol x (by simp)).2, (hsol y (hp.mem_iff.1 (by simp))).2⟩

/-- **C131** Whoever gets at least one sudoku has caused at least `E + 1` calls, ... -/
theorem C131_least_dlx (π : Dlx.Orders) (hπ : π.Ok) (fuel k : Nat) (hk : 1 ≤ k) (s t : Sudoku) (ts : List Sudoku) (m : Nat)
    (h : Dlx.dlxK π fuel k s = .ok (t :: ts, m)) : s.empty.length + 1 ≤ m := by
  have h1 := C131_dlx π hπ m k hk s
  rw [Dlx.dlxK_shallow h (Nat.le_refl m)] at h1
  rcases Dlx.dlx_result hπ s m with ⟨sols, e, -, hm, hf⟩ | ⟨e, -⟩
  · rw [e] at h1
    have h2 : t :: ts = sols.take k := Except.ok.inj h1
    have h3 : t ∈ sols := List.mem_of_mem_take (by rw [← h2]; simp)
    exact hf ⟨t.num, ((hm t).1 h3).2⟩
  · rw [e] at h1; cases h1

/-- **C131** ... of `_do_bruteforce` as well. -/
theorem C131_least_bruteforce (π : Solve.SetOrder) (hπ : π.Ok) (fuel k : Nat) (hk : 1 ≤ k) (s t : Sudoku) (ts : List Sudoku) (m : Nat)
    (h : Solve.bruteforceK π fuel k s = some (t :: ts, m)) : s.empty.length + 1 ≤ m := by
  have h1 := C131_bruteforce π hπ m k hk s
  rw [Solve.bruteforceK_shallow h (Nat.le_refl m)] at h1
  rcases Solve.bruteforce_result hπ s m with ⟨sols, e, -, hm, hf⟩ | ⟨e, -⟩
  · rw [e] at h1
    have h2 : t :: ts = sols.take k := Option.some.inj h1
    have h3 : t ∈ sols := List.mem_of_mem_take (by rw [← h2]; simp)
    exact hf t.num ((hm t).1 h3).2
  · rw [e] at h1; cases h1

/-! ## Samples -/

/-- Two solutions of the empty 2x2 sudoku: five calls until the first, nine in all. -/
example : (Dlx.dlxK plainOrders 5 1 (Sudoku.new 2 1)).toOption.map (fun q => (q.1.length, q.2)) = some (1, 5) ∧
    (Solve.bruteforceK upwards 5 1 (Sudoku.new 2 1)).map (fun q => (q.1.length, q.2)) = some (1, 5) ∧
    (Dlx.dlxN plainOrders 5 (Sudoku.new 2 1)).toOption.map (fun q => (q.1.length, q.2)) = some (2, 9) := by decide +kernel

/-- Too few levels of recursion. -/
example : (Dlx.dlxK plainOrders 4 1 (Sudoku.new 2 1)).toOption.isNone ∧ (Solve.bruteforceK upwards 4 1 (Sudoku.new 2 1)).isNone := by decide +kernel

end Props
