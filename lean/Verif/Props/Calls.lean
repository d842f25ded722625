import Verif.Proofs.CallsRate
import Verif.Proofs.CallsBrute
import Verif.Props.Thin

set_option autoImplicit false

/-! # How often the searches have to guess (C118) -/

open Spec Solvers

namespace Props

/-- **C118** Counting the calls does not change what is found. -/
theorem C118_same (π : Dlx.Orders) (π' : Solve.SetOrder) (fuel : Nat) (s : Sudoku) :
    (Dlx.dlxN π fuel s).map Prod.fst = Dlx.dlx π fuel s ∧ (Solve.bruteforceN π' fuel s).map Prod.fst = Solve.bruteforce π' fuel s :=
  ⟨Dlx.dlxN_same π fuel s, Solve.bruteforceN_same π' fuel s⟩

/-- **C118** The numbers exist if the recursion is not too deep. -/
theorem C118_ends (π : Dlx.Orders) (π' : Solve.SetOrder) (hπ : π.Ok) (hπ' : π'.Ok) (fuel : Nat) (s : Sudoku) (hf : s.empty.length < fuel) :
    (∃ sols n, Dlx.dlxN π fuel s = .ok (sols, n)) ∧ ∃ sols n, Solve.bruteforceN π' fuel s = some (sols, n) := by
  constructor
  · obtain ⟨sols, h1, -⟩ := Dlx.dlx_spec hπ s fuel hf
    rw [← Dlx.dlxN_same] at h1
    cases h : Dlx.dlxN π fuel s with
    | error e => rw [h] at h1; cases h1
    | ok q => exact ⟨q.1, q.2, rfl⟩
  · obtain ⟨sols, h1, -⟩ := Solve.bruteforce_spec hπ' s fuel hf
    rw [← Solve.bruteforceN_same] at h1
    cases h : Solve.bruteforceN π' fuel s with
    | none => rw [h] at h1; cases h1
    | some q => exact ⟨q.1, q.2, rfl⟩

/-- **C118** `dlx` calls its function `solve` at least once for each empty field and once more, if there is a solution.  It is not called more
often iff from each grid between the sudoku and a solution one can go on without guessing, i.e. some empty field can get only one number
or some number has only one place in a row, column or box. -/
theorem C118_dlx (π : Dlx.Orders) (hπ : π.Ok) (fuel : Nat) (s : Sudoku) (hs : Solvable s.bw s.bh s.get) (sols : List Sudoku) (n : Nat)
    (h : Dlx.dlxN π fuel s = .ok (sols, n)) :
    s.empty.length + 1 ≤ n ∧ (n = s.empty.length + 1 ↔ ∀ g t, IsSolution s.bw s.bh s.get g → Between s.bw s.bh s.get t g → NotFull s.bw s.bh t →
      OneNumber s.bw s.bh t ∨ OneFits s.bw s.bh t) := by
  have hc := Dlx.dlxN_count hπ h
  obtain ⟨g, hg⟩ := hs
  refine ⟨hc.ge g hg, fun hn g' t hg' ht hnf => ?_, fun hF => hc.forced g hg fun t ht hnf => hF g t hg ht hnf⟩
  by_contra hst
  have := hc.stuck g' hg' t ht hnf hst
  omega

/-- **C118** `_do_bruteforce` is called at least as often, too; it is not called more often iff in each of these grids some empty field can get only one number. -/
theorem C118_bruteforce (π : Solve.SetOrder) (hπ : π.Ok) (fuel : Nat) (s : Sudoku) (hs : Solvable s.bw s.bh s.get) (sols : List Sudoku) (n : Nat)
    (h : Solve.bruteforceN π fuel s = some (sols, n)) :
    s.empty.length + 1 ≤ n ∧ (n = s.empty.length + 1 ↔ ∀ g t, IsSolution s.bw s.bh s.get g → Between s.bw s.bh s.get t g → NotFull s.bw s.bh t →
      OneNumber s.bw s.bh t) := by
  obtain ⟨g, hg⟩ := hs
  have hnc : NoConflict s.bw s.bh s.num := by
    intro a b ha hb hp h0 e
    have ga := hg.keeps a ha h0
    have gb := hg.keeps b hb (by show s.num b ≠ 0; rw [← e]; exact h0)
    exact hg.valid a b ha hb hp (by rw [ga]; exact h0) (by rw [ga, gb]; exact e)
  have hc := Solve.bruteforceN_count hπ hnc h
  refine ⟨hc.ge g hg, fun hn g' t hg' ht hnf => ?_, fun hF => hc.forced g hg fun t ht hnf => hF g t hg ht hnf⟩
  by_contra hst
  have := hc.stuck g' hg' t ht hnf hst
  omega

/-- **C118** So `dlx` never has to guess iff the rate is at most 1. -/
theorem C118_rate (π : Dlx.Orders) (π' : Orders Run) (hπ : π.Ok) (hπ' : π'.Ok) (fuel fuel' rounds : Nat) (s : Sudoku)
    (hs : Solvable s.bw s.bh s.get) (hf : s.empty.length < fuel') (sols : List Sudoku) (n r : Nat)
    (h : Dlx.dlxN π fuel s = .ok (sols, n)) (hr : rate π' fuel' rounds s = .ok (some r)) : n = s.empty.length + 1 ↔ r ≤ 1 := by
  rw [(C118_dlx π hπ fuel s hs sols n h).2]
  constructor
  · intro hF
    by_contra hlt
    obtain ⟨w, h1, -, -, -, h2, -, -, h3⟩ := rate_run hπ' hs hf hr
    obtain ⟨st, hst, hst'⟩ := h3 (by omega)
    have hk : Earlier st.kind .nakedSingle ∧ Earlier st.kind .hiddenSingle := by
      have h4 := h2 st hst
      have h5 : 2 ≤ (rating st.kind).getD 0 := by rw [hst']; simp only [Option.getD_some]; omega
      revert h4 h5
      generalize st.kind = k
      unfold Earlier
      revert k
      decide
    have hbl := (solve_blocked hπ' hs hf h1 st hst).resolve_left (by
      intro e
      rw [e] at hst'
      cases hst'
      omega)
    obtain ⟨g, t, hg, hb, hnf, hst⟩ := blocked_singles hk.1 hk.2 hbl
    exact hst (hF g t hg hb hnf)
  · intro hle g t hg hb hnf
    by_contra hst
    have hbl := blocked_pair hg hb hnf hst
    obtain ⟨u, h1, h2, h3, h4⟩ := C88_attained π' hπ' s hs fuel' rounds hf r hr
    have hu := blocked_reached (by decide) hbl (fun g hg => neat_init (by
      have e := init_dims s
      rw [e.1, e.2.1, e.2.2] at hg
      exact hg)) (reached_mono (fun k hk => ?_) h1)
    · refine hu (empty_full fun a ha => ?_)
      rw [h2, h3] at ha
      have := (h4.full a ha).1
      show u.get a ≠ 0
      omega
    · obtain ⟨h5, q, h6, h7⟩ := hk
      have h8 : (rating k).getD 0 < 2 := by rw [h6]; simp only [Option.getD_some]; omega
      clear h6
      revert h8 h5
      unfold Earlier
      revert k
      decide

/-- **C118** And `bruteforce` never has to guess iff `solve` reports only `CalculateCandidates` and `NakedSingle`. -/
theorem C118_steps (π : Solve.SetOrder) (π' : Orders Run) (hπ : π.Ok) (hπ' : π'.Ok) (fuel fuel' rounds : Nat) (s : Sudoku)
    (hs : Solvable s.bw s.bh s.get) (hf : s.empty.length < fuel') (hr : s.empty.length * (s.bw * s.bh + 1) < rounds) (sols : List Sudoku) (n : Nat)
    (h : Solve.bruteforceN π fuel s = some (sols, n)) :
    ∃ w, solve π' fuel' rounds s = .ok (some w) ∧
      (n = s.empty.length + 1 ↔ ∀ st ∈ w.2, st.kind = .calculateCandidates ∨ st.kind = .nakedSingle) := by
  obtain ⟨w, h1, h2, h3, h4, -, h5, -⟩ := solve_spec hπ' s hs fuel' rounds hf hr
  refine ⟨w, h1, ?_⟩
  rw [(C118_bruteforce π hπ fuel s hs sols n h).2]
  constructor
  · intro hF st hst
    by_contra hno
    push Not at hno
    have hk : Earlier st.kind .nakedSingle := by
      have h6 := h5 st hst
      obtain ⟨k1, k2⟩ := hno
      revert h6 k1 k2
      generalize st.kind = k
      unfold Earlier
      revert k
      decide
    obtain ⟨g, T, hn, hb, he, hi⟩ := (solve_blocked hπ' hs hf h1 st hst).resolve_left hno.1
    have e := init_dims s
    have h6 := below_between hn hb
    refine stuck_naked hn hb (hi _ hk) (hF g T.num h6.1 h6.2 ?_)
    have := notFull_empty he
    rwa [hb.bw.trans e.1, hb.bh.trans e.2.1] at this
  · intro hlog g t hg hb hnf
    by_contra hst
    have e := fresh_dims s t
    obtain ⟨r', w₁, h8, h9, -⟩ := solve_split h1
    have hK : ∀ k, (k = .calculateCandidates ∨ k = .nakedSingle) → k ≠ .bruteforce ∧ ∀ j ∈ needs k, Idle (fresh s t) j := by
      rintro k (rfl | rfl)
      · exact ⟨by decide, fun j hj => by cases hj⟩
      · refine ⟨by decide, fun j hj => ?_⟩
        rw [List.mem_singleton.1 hj]
        exact idle_naked hst
    have ho := loop_over (fresh_neat hg hb) hK hπ' h8 ⟨h9.neat (neat_init hg), (fresh_below hg hb).trans h9.symm.below⟩ hlog
    refine ho.empty (fun he => ?_) (empty_full fun a ha => ?_)
    · obtain ⟨a, ha, h0⟩ := hnf
      refine full_num he (a := a) (by rw [e.1, e.2.1]; exact ha) ?_
      rw [e.2.2]; exact h0
    · rw [h3, h4] at ha
      have := (h2.full a ha).1
      omega

/-- **C118** If `bruteforce` does not have to guess, neither does `dlx`. -/
theorem C118_compare (π : Dlx.Orders) (π' : Solve.SetOrder) (hπ : π.Ok) (hπ' : π'.Ok) (fuel fuel' : Nat) (s : Sudoku)
    (hs : Solvable s.bw s.bh s.get) (sols sols' : List Sudoku) (n n' : Nat) (h : Dlx.dlxN π fuel s = .ok (sols, n))
    (h' : Solve.bruteforceN π' fuel' s = some (sols', n')) (hn : n' = s.empty.length + 1) : n = s.empty.length + 1 := by
  rw [(C118_bruteforce π' hπ' fuel' s hs sols' n' h').2] at hn
  rw [(C118_dlx π hπ fuel s hs sols n h).2]
  exact fun g t hg hb hnf => Or.inl (hn g t hg hb hnf)

/-- **C118** If `dlx` does not have to guess, the solution is the only one. -/
theorem C118_unique (π : Dlx.Orders) (hπ : π.Ok) (fuel : Nat) (s : Sudoku) (hs : Solvable s.bw s.bh s.get) (sols : List Sudoku) (n : Nat)
    (h : Dlx.dlxN π fuel s = .ok (sols, n)) (hn : n = s.empty.length + 1) : UniqueSolution s.bw s.bh s.get := by
  rw [(C118_dlx π hπ fuel s hs sols n h).2] at hn
  obtain ⟨g, hg⟩ := hs
  exact ⟨g, hg, fun g' hg' => forced_unique hg hg' fun t ht hnf => hn g t hg ht hnf⟩

/-- **C118** Sudokus with thin empty fields (`C117`) need no guessing, neither with `dlx` nor with `bruteforce`. -/
theorem C118_thin (π : Dlx.Orders) (π' : Solve.SetOrder) (hπ : π.Ok) (hπ' : π'.Ok) (fuel fuel' : Nat) (s : Sudoku)
    (hs : Solvable s.bw s.bh s.get) (ht : Thin s.bw s.bh s.get) (sols sols' : List Sudoku) (n n' : Nat) (h : Dlx.dlxN π fuel s = .ok (sols, n))
    (h' : Solve.bruteforceN π' fuel' s = some (sols', n')) : n = s.empty.length + 1 ∧ n' = s.empty.length + 1 := by
  obtain ⟨w, h1, h2⟩ := C118_steps π' (plainWatch Run) hπ' (plainWatch_ok Run) fuel' (s.empty.length + 1) (s.empty.length * (s.bw * s.bh + 1) + 1) s hs
    (by omega) (by omega) sols' n' h'
  obtain ⟨⟨w', h3, h4, -⟩, -⟩ := C117_singles (plainWatch Run) _ _ (plainWatch_ok Run) (plainWatch_ok Run) (plainWatch_ok Run) s hs ht (s.empty.length + 1)
    (s.empty.length * (s.bw * s.bh + 1) + 1) (by omega) (by omega)
  rw [h1] at h3
  cases h3
  have hn := h2.2 h4
  exact ⟨C118_compare π π' hπ hπ' fuel fuel' s hs sols sols' n n' h h' hn, hn⟩

/-! ## Samples -/

/-- The candidates in ascending order. -/
def upwards : Solve.SetOrder := fun _ S => Solvers.sortSet S
theorem upwards_ok : upwards.Ok := by
  refine fun _ S => ⟨?_, fun _ => mem_sortSet⟩
  obtain ⟨l, hl⟩ := S
  induction l using Quot.ind with
  | mk l => exact (List.perm_insertionSort _ l).nodup_iff.2 hl

/-- No guess: four calls for three empty fields. -/
example : (Dlx.dlxN plainOrders 5 corner).toOption.map Prod.snd = some 4 ∧ (Solve.bruteforceN upwards 5 corner).map Prod.snd = some 4 := by
  decide +kernel

/-- Two numbers are tried for the first field: two times four further calls. -/
example : (Dlx.dlxN plainOrders 5 (Sudoku.new 2 1)).toOption.map Prod.snd = some 9 ∧
    (Solve.bruteforceN upwards 5 (Sudoku.new 2 1)).map Prod.snd = some 9 := by decide +kernel

/-- Fourteen empty fields in a Latin square; at the beginning each of them can get several numbers, so that
`bruteforce` has to try. -/
def hidden5 : Sudoku :=
  Sudoku.new 5 1 |>.setNumber (0, 1) 1 |>.setNumber (1, 0) 3 |>.setNumber (1, 3) 1 |>.setNumber (1, 4) 4 |>.setNumber (2, 2) 3
    |>.setNumber (2, 4) 1 |>.setNumber (3, 0) 1 |>.setNumber (3, 2) 4 |>.setNumber (3, 3) 2 |>.setNumber (4, 0) 2 |>.setNumber (4, 2) 1
example : hidden5.empty.length = 14 ∧ (Solve.bruteforceN upwards 15 hidden5).map Prod.snd = some 23 := by decide +kernel

end Props
