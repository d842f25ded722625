import Verif.Props.ScoreBound
import Verif.Proofs.RateRun

set_option autoImplicit false

/-! # C88: `rate` is the least rating that suffices, in whatever order one works -/

open Spec Solvers

namespace Props

theorem rate_run {π : Orders Run} (hπ : π.Ok) {s : Sudoku} (hs : Solvable s.bw s.bh s.get) {fuel rounds : Nat}
    (hf : s.empty.length < fuel) {r : Nat} (h : rate π fuel rounds s = .ok (some r)) :
    ∃ w, solve π fuel rounds s = .ok (some w) ∧ IsSolution s.bw s.bh s.num w.1.num ∧ w.1.bw = s.bw ∧ w.1.bh = s.bh ∧
      (∀ st ∈ w.2, st.kind ∈ solvers) ∧ (w.2.filter fun st => decide st.kind.Fills).length = s.empty.length ∧
      (∀ st ∈ w.2, (rating st.kind).getD 0 ≤ r) ∧ (0 < r → ∃ st ∈ w.2, rating st.kind = some r) := by
  unfold rate at h
  split at h
  · exact absurd h (by simp)
  · exact absurd h (by simp)
  · rename_i w hw
    obtain ⟨w', h1, h2, h3, h4, -, h5, h6, -⟩ := solve_spec hπ s hs fuel (max rounds (s.empty.length * (s.bw * s.bh + 1) + 1)) hf (by omega)
    have h7 := loop_mono hw (max rounds (s.empty.length * (s.bw * s.bh + 1) + 1)) (by omega)
    rw [show loop π fuel _ _ = solve π fuel (max rounds (s.empty.length * (s.bw * s.bh + 1) + 1)) s from rfl, h1] at h7
    cases h7
    rw [ratings_ok w.2 h5] at h
    simp only [Except.ok.injEq, Option.some.injEq] at h
    refine ⟨w, hw, h2, h3, h4, h5, h6, fun st hst => ?_, fun hr => ?_⟩
    · have hmem : (rating st.kind).getD 0 ∈ w.2.map (fun st => (rating st.kind).getD 0) := List.mem_map.2 ⟨st, hst, rfl⟩
      rw [if_neg (List.ne_nil_of_mem hmem)] at h
      rw [← h]
      exact le_maxList hmem
    · split at h
      · omega
      · rename_i hne
        obtain ⟨st, hst, e⟩ := List.mem_map.1 (maxList_mem hne)
        refine ⟨st, hst, ?_⟩
        obtain ⟨q, hq, -⟩ := rating_solvers st.kind (h5 st hst)
        rw [hq] at e ⊢
        simp only [Option.getD_some] at e
        rw [e, h]

private theorem easier_iff {r : Nat} {k : Kind} : Easier r k ↔ k ∈ solvers ∧ (rating k).getD 0 < r := by
  unfold Easier
  constructor
  · rintro ⟨h1, q, h2, h3⟩; rw [h2]; exact ⟨h1, h3⟩
  · rintro ⟨h1, h2⟩
    obtain ⟨q, hq, -⟩ := rating_solvers k h1
    rw [hq] at h2
    exact ⟨h1, q, hq, h2⟩

/-- **C88** `rate` is not too high.  Whoever starts with the calculated candidates and only uses classes of a rating below that
of the sudoku (collecting and applying steps in any order, by hand or with `apply_all`) never fills all fields. -/
theorem C88_least (π : Orders Run) (hπ : π.Ok) (s : Sudoku) (hs : Solvable s.bw s.bh s.get) (fuel rounds : Nat)
    (hf : s.empty.length < fuel) (r : Nat) (hr : rate π fuel rounds s = .ok (some r)) (hr0 : 0 < r) (t : Sudoku)
    (ht : Reached (Easier r) (Solve.initCandidates s false) t) : ¬ Full t := by
  obtain ⟨w, h1, -, -, -, h2, -, -, h3⟩ := rate_run hπ hs hf hr
  obtain ⟨st, hst, hst'⟩ := h3 hr0
  have hk := h2 st hst
  rcases solve_blocked hπ hs hf h1 st hst with h | h
  · rw [h] at hst'
    cases hst'
    omega
  · have := blocked_reached hk h (fun g hg => neat_init (by
      have e := init_dims s
      rw [e.1, e.2.1, e.2.2] at hg
      exact hg)) (reached_mono (fun j hj => ?_) ht)
    · rw [full_iff']
      exact this
    · rw [easier_iff] at hj
      refine ⟨hj.1, rating_earlier _ hk j hj.1 ?_⟩
      rw [hst']
      exact hj.2
where
  full_iff' {t : Sudoku} : ¬ Full t ↔ t.empty ≠ [] := by
    constructor
    · intro h e
      exact h fun a ha => full_num e ha
    · intro h hf
      exact h (empty_full hf)

/-- **C88** `rate` is not too low: the solution can be reached with the classes of at most this rating. -/
theorem C88_attained (π : Orders Run) (hπ : π.Ok) (s : Sudoku) (hs : Solvable s.bw s.bh s.get) (fuel rounds : Nat)
    (hf : s.empty.length < fuel) (r : Nat) (hr : rate π fuel rounds s = .ok (some r)) :
    ∃ t, Reached (Easier (r + 1)) (Solve.initCandidates s false) t ∧ t.bw = s.bw ∧ t.bh = s.bh ∧ IsSolution s.bw s.bh s.get t.get := by
  obtain ⟨w, h1, hw, hwb, hwh, h2, -, h3, -⟩ := rate_run hπ hs hf hr
  have e := init_dims s
  by_cases h10 : Easier (r + 1) .bruteforce
  · obtain ⟨t, h4, h5, h6, h7⟩ := applyAll_brute (plainWatch_ok Sudoku) (fuel := fuel) (Solve.initCandidates s false)
      (by rw [init_empty]; exact hf) (by rw [e.1, e.2.1, e.2.2]; exact hs)
    rw [e.1] at h5
    rw [e.2.1] at h6
    rw [e.1, e.2.1, e.2.2] at h7
    exact ⟨t, .applyAll .start h10 (plainWatch_ok Sudoku) h4, h5, h6, h7⟩
  · obtain ⟨g, hg⟩ := hs
    obtain ⟨u, h4, h5, h6, h7⟩ := exists_idle h10 (plainWatch_ok Watch) _ _ le_rfl (neat_init hg) (Below.refl _) .start
    refine ⟨u, h4, h6.bw.trans e.1, h6.bh.trans e.2.1, ?_⟩
    have hfull : u.empty = [] := by
      by_contra hne
      obtain ⟨r', w₁, h8, h9, h10'⟩ := solve_split h1
      have hK : ∀ k, Easier (r + 1) k → k ≠ .bruteforce ∧ ∀ j ∈ needs k, Idle u j := by
        intro k hk
        have hkb : k ≠ .bruteforce := by rintro rfl; exact h10 hk
        refine ⟨hkb, fun j hj => ?_⟩
        have h11 := needs_earlier k hk.1 hkb j hj
        refine h7 j h11.1 (easier_iff.2 ⟨h11.1, ?_⟩)
        have := (easier_iff.1 hk).2
        omega
      have ho := loop_over h5 hK hπ h8 ⟨h9.neat (neat_init hg), h6.trans h9.symm.below⟩
        (fun st hst => easier_iff.2 ⟨h2 st hst, by have := h3 st hst; omega⟩)
      refine ho.empty hne (empty_full fun a ha => ?_)
      rw [hwb, hwh] at ha
      have := (hw.full a ha).1
      omega
    refine sol_congr (g := g) (fun a ha => ?_) hg
    rw [← e.1, ← e.2.1, ← h6.bw, ← h6.bh] at ha
    exact (h5.num ha (full_num hfull ha)).symm

/-- **C88** So `rate` does not depend on the orders of the sets and dictionaries (nor on the recursion limit). -/
theorem C88_orders (π π' : Orders Run) (hπ : π.Ok) (hπ' : π'.Ok) (s : Sudoku) (hs : Solvable s.bw s.bh s.get)
    (fuel fuel' rounds rounds' : Nat) (hf : s.empty.length < fuel) (hf' : s.empty.length < fuel') (r r' : Nat)
    (hr : rate π fuel rounds s = .ok (some r)) (hr' : rate π' fuel' rounds' s = .ok (some r')) : r = r' := by
  have key : ∀ (π π' : Orders Run) (fuel fuel' rounds rounds' r r' : Nat), π.Ok → π'.Ok → s.empty.length < fuel → s.empty.length < fuel' →
      rate π fuel rounds s = .ok (some r) → rate π' fuel' rounds' s = .ok (some r') → ¬ r < r' := by
    intro π π' fuel fuel' rounds rounds' r r' hπ hπ' hf hf' hr hr' hlt
    obtain ⟨t, h1, h2, h3, h4⟩ := C88_attained π hπ s hs fuel rounds hf r hr
    refine C88_least π' hπ' s hs fuel' rounds' hf' r' hr' (by omega) t (reached_mono (fun k hk => ?_) h1) fun a ha => ?_
    · obtain ⟨h5, q, h6, h7⟩ := hk
      exact ⟨h5, q, h6, by omega⟩
    · rw [h2, h3] at ha
      have := (h4.full a ha).1
      omega
  have h1 := key π π' fuel fuel' rounds rounds' r r' hπ hπ' hf hf' hr hr'
  have h2 := key π' π fuel' fuel rounds' rounds r' r hπ' hπ hf' hf hr' hr
  omega

/-- **C88** No class is reported that is not needed: if `solve` reports a step other than `CalculateCandidates`, then the classes
before its class in `SOLVERS` do not suffice to fill all fields, in whatever order they are used. -/
theorem C88_needed (π : Orders Run) (hπ : π.Ok) (s : Sudoku) (hs : Solvable s.bw s.bh s.get) (fuel rounds : Nat)
    (hf : s.empty.length < fuel) (w : Run) (hw : solve π fuel rounds s = .ok (some w)) (st : Step) (hst : st ∈ w.2)
    (hk : st.kind ≠ .calculateCandidates) (t : Sudoku)
    (ht : Reached (Earlier st.kind) (Solve.initCandidates s false) t) : ¬ Full t := by
  have h0 := (solve_blocked hπ hs hf hw st hst).resolve_left hk
  rw [C88_least.full_iff']
  refine blocked_reached ?_ h0 (fun g hg => neat_init (by
      have e := init_dims s
      rw [e.1, e.2.1, e.2.2] at hg
      exact hg)) ht
  obtain ⟨w', h1, -, -, -, -, h5, -⟩ := solve_spec hπ s hs fuel (max rounds (s.empty.length * (s.bw * s.bh + 1) + 1)) hf (by omega)
  have h7 := loop_mono hw (max rounds (s.empty.length * (s.bw * s.bh + 1) + 1)) (by omega)
  rw [show loop π fuel _ _ = solve π fuel (max rounds (s.empty.length * (s.bw * s.bh + 1) + 1)) s from rfl, h1] at h7
  cases h7
  exact h5 st hst

/-- How ratings of different sudokus are compared. -/
theorem rate_le_of_blocked {s t : Sudoku} (hb : ∀ k, Blocked (Solve.initCandidates t false) k → Blocked (Solve.initCandidates s false) k)
    {π π' : Orders Run} (hπ : π.Ok) (hπ' : π'.Ok) (hs : Solvable s.bw s.bh s.get) (ht : Solvable t.bw t.bh t.get)
    {fuel fuel' rounds rounds' : Nat} (hf : s.empty.length < fuel) (hf' : t.empty.length < fuel') {r q : Nat}
    (hr : rate π fuel rounds s = .ok (some r)) (hq : rate π' fuel' rounds' t = .ok (some q)) : q ≤ r := by
  by_contra hlt
  obtain ⟨w, h1, -, -, -, h2, -, -, h3⟩ := rate_run hπ' ht hf' hq
  obtain ⟨st, hst, hst'⟩ := h3 (by omega)
  have hk := h2 st hst
  rcases solve_blocked hπ' ht hf' h1 st hst with h | h
  · rw [h] at hst'
    cases hst'
    omega
  · obtain ⟨u, h4, h5, h6, h7⟩ := C88_attained π hπ s hs fuel rounds hf r hr
    refine blocked_reached hk (hb _ h) (fun g hg => neat_init (by
      have e := init_dims s
      rw [e.1, e.2.1, e.2.2] at hg
      exact hg)) (reached_mono (fun j hj => ?_) h4) (empty_full fun a ha => ?_)
    · rw [easier_iff] at hj
      refine ⟨hj.1, rating_earlier _ hk j hj.1 ?_⟩
      rw [hst', Option.getD_some]
      omega
    · rw [h5, h6] at ha
      have := (h7.full a ha).1
      show u.get a ≠ 0
      omega

private theorem rating_fills : ∀ k ∈ solvers, (if k.Fills then 1 else 0) ≤ (rating k).getD 0 ∧
    ((if k.Fills then 1 else 0) = (rating k).getD 0 ↔ (rating k).getD 0 ≤ 1) := by decide

private theorem sum_eq (l : List Step) (hl : ∀ st ∈ l, st.kind ∈ solvers) :
    (l.map fun st => (rating st.kind).getD 0).sum = (l.filter fun st => decide st.kind.Fills).length ↔
      ∀ st ∈ l, (rating st.kind).getD 0 ≤ 1 := by
  induction l with
  | nil => simp
  | cons st l ih =>
    have h1 := ih (fun x hx => hl x (by simp [hx]))
    have h2 := sum_ge l (fun x hx => hl x (by simp [hx]))
    obtain ⟨h3, h4⟩ := rating_fills st.kind (hl st (by simp))
    rw [List.forall_mem_cons, ← h1, ← h4, List.map_cons, List.sum_cons, List.filter_cons]
    by_cases hf : st.kind.Fills
    · simp only [hf, decide_true, if_true, List.length_cons] at h3 ⊢; omega
    · simp only [hf, decide_false, Bool.false_eq_true, if_false] at h3 ⊢; omega

/-- **C88** The lower bound of `score` is attained exactly by the sudokus that singles suffice for. -/
theorem C88_score (π : Orders Run) (hπ : π.Ok) (s : Sudoku) (hs : Solvable s.bw s.bh s.get) (fuel rounds : Nat)
    (hf : s.empty.length < fuel) (r q : Nat) (hr : rate π fuel rounds s = .ok (some r)) (hq : score π fuel rounds s = .ok (some q)) :
    q = s.empty.length ↔ r ≤ 1 := by
  obtain ⟨w, h1, -, -, -, h2, h3, h4, h5⟩ := rate_run hπ hs hf hr
  unfold score at hq
  rw [h1] at hq
  simp only at hq
  rw [ratings_ok w.2 h2] at hq
  simp only [Except.ok.injEq, Option.some.injEq] at hq
  rw [← hq, ← h3, sum_eq w.2 h2]
  constructor
  · intro h
    by_contra hr1
    obtain ⟨st, hst, e⟩ := h5 (by omega)
    have := h st hst
    rw [e] at this
    simp only [Option.getD_some] at this
    omega
  · intro h st hst
    have := h4 st hst
    omega

/-! Cases: `pz` (two clues) needs `Bruteforce`; a solved sudoku with two fields cleared needs singles only. -/

def easy4 : Sudoku := (solved4.setNumber (0, 0) 0).setNumber (0, 1) 0

example : (rate (plainWatch Run) 30 6 pz).toOption = some (some 10) := by decide +kernel
example : Solvable easy4.bw easy4.bh easy4.get := ⟨solved4.get, by decide +kernel⟩
example : (rate (plainWatch Run) 30 6 easy4).toOption = some (some 1) ∧ (score (plainWatch Run) 30 6 easy4).toOption = some (some 2) := by
  decide +kernel
/-- With `NakedPair` one gets somewhere in `pz`, but never to the end. -/
example : ∃ t, Reached (Easier 10) (Solve.initCandidates pz false) t ∧ (Solve.initCandidates pz false).getCandidates (1, 0) = {1, 2, 3, 4} ∧
    t.getCandidates (1, 0) = {3, 4} := by
  have h : ((Solvers.applyAll (plainWatch Sudoku) 0 (.nakedTuple 2) (Solve.initCandidates pz false)).toOption.map
    fun t => t.getCandidates (1, 0)) = some {3, 4} := by decide +kernel
  cases e : Solvers.applyAll (plainWatch Sudoku) 0 (.nakedTuple 2) (Solve.initCandidates pz false) with
  | error x => rw [e] at h; cases h
  | ok t =>
    rw [e] at h
    exact ⟨t, .applyAll .start ⟨by decide, 2, rfl, by omega⟩ (plainWatch_ok Sudoku) e, by decide +kernel, by simpa [Except.toOption] using h⟩

end Props
