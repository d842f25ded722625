import Verif.Proofs.SolveRun

set_option autoImplicit false

/-! Helper lemmas: `apply_all`. -/

open Spec

namespace Solvers

/-! ### `CalculateCandidates` -/

/-- The loop over the fields `l`. -/
theorem foldl_calc (l : List Cell) (hl : l.Nodup) : ∀ s : Sudoku, (∀ a ∈ l, InGrid s.bw s.bh a) →
    l.foldl (fun w a => if (id w : Sudoku).getCandidates a ≠ ∅ then w
      else Step.apply w (Step.mkSet .calculateCandidates [a] [a] (Solve.calcCandidates (id w) a))) s =
    { s with cand := fun a => if a ∈ l ∧ s.cand a = ∅ then Solve.calcCandidates s a else s.cand a } := by
  induction l with
  | nil => intro s _; simp
  | cons b l ih =>
    intro s hin
    rw [List.nodup_cons] at hl
    rw [List.foldl_cons]
    by_cases hb : s.cand b = ∅
    · rw [if_neg (by simpa [Sudoku.getCandidates] using hb)]
      rw [show Step.apply s (Step.mkSet .calculateCandidates [b] [b] (Solve.calcCandidates (id s) b)) =
        { s with cand := fun a => if a = b then Solve.calcCandidates s b else s.cand a } from ?_]
      · refine (ih hl.2 { s with cand := fun a => if a = b then Solve.calcCandidates s b else s.cand a } (fun a ha => hin a (by simp [ha]))).trans ?_
        congr 1
        funext a
        simp only
        rw [Solve.calc_congr (s := { s with cand := fun a => if a = b then Solve.calcCandidates s b else s.cand a }) (t := s) rfl rfl rfl a]
        by_cases hab : a = b
        · subst hab
          simp [hl.1, hb]
        · simp [hab]
      · rw [apply_calc s rfl rfl]
        have : (Step.mkSet .calculateCandidates [b] [b] (Solve.calcCandidates (id s) b)).values.toFinset = Solve.calcCandidates s b := by
          ext v
          rw [List.mem_toFinset]
          exact mem_sortSet
        rw [this]
        rfl
    · rw [if_pos (by simpa [Sudoku.getCandidates] using hb), ih hl.2 s (fun a ha => hin a (by simp [ha]))]
      congr 1
      funext a
      by_cases hab : a = b
      · subst hab; simp [hb]
      · simp [hab]

theorem applyAll_calc (π : Orders Sudoku) (fuel : Nat) (s : Sudoku) : applyAll π fuel .calculateCandidates s =
    .ok { s with cand := fun a => if InGrid s.bw s.bh a ∧ s.cand a = ∅ then Solve.calcCandidates s a else s.cand a } := by
  show Except.ok (findCalc id Step.apply s) = _
  unfold findCalc
  rw [foldl_calc (id s).cells (Sudoku.nodup_cells _) s (fun a ha => (Sudoku.mem_cells _).1 ha)]
  congr 2
  funext a
  simp only [id, Sudoku.mem_cells]

/-! ### the other classes -/

theorem keep_step {s : Sudoku} {st : Step} (hu : Useful s st) : ∀ a, s.num a ≠ 0 → (Step.apply s st).num a = s.num a := by
  rcases effect (Useful.shape hu) with ⟨c, hk, hc, e, -, -⟩ | ⟨c, v, hk, hc, e, -, hus⟩ | ⟨R, hk, e, -, -⟩
  · rw [e]; exact fun a _ => rfl
  · obtain ⟨h0, -⟩ := hus hu
    rw [e]
    intro a hne
    simp only; rw [if_neg]; rintro rfl; exact hne h0
  · rw [e]; exact fun a _ => rfl

/-- Between two steps. -/
structure Kept (s : Sudoku) (G : Grid → Prop) (t : Sudoku) : Prop where
  bw : t.bw = s.bw
  bh : t.bh = s.bh
  num : ∀ a, s.num a ≠ 0 → t.num a = s.num a
  cons : ∀ g, G g → Contains t g

theorem Kept.ctx (s : Sudoku) (G : Grid → Prop) (k : Kind) : Ctx id Step.apply s.bw s.bh k G (Kept s G) where
  bw _ t := t.bw
  bh _ t := t.bh
  may _ t g hg := (t.cons g hg).1
  step x st t _ hst _ := by
    have hd := apply_dims x st
    refine ⟨hd.1.trans t.bw, hd.2.trans t.bh, fun a ha => ?_, fun g hg => contains_apply (Useful.shape hst.1) (hst.2 g hg) (t.cons g hg)⟩
    have h1 := t.num a ha
    exact (keep_step hst.1 a (by show x.num a ≠ 0; rw [h1]; exact ha)).trans h1
  cons _ t := t.cons

theorem applyAll_inv {π : Orders Sudoku} (hπ : π.Ok) (fuel : Nat) {k : Kind} (hk : k ≠ .bruteforce) (s : Sudoku) :
    ∃ t, applyAll π fuel k s = .ok t ∧ Kept s (Contains s) t :=
  find_inv hπ fuel hk (Kept.ctx s (Contains s) k) s ⟨rfl, rfl, fun _ _ => rfl, fun _ h => h⟩

/-! ### `Bruteforce` -/

theorem diff_num (t : Sudoku) (l : List Cell) : ∀ (s : Sudoku) (done : List Cell), (∀ a ∈ l, InGrid s.bw s.bh a) →
    (∀ a ∈ done, s.num a = t.num a) → ∀ a, a ∈ done ∨ a ∈ l →
    (l.foldl (fun w a => if (id w : Sudoku).get a ≠ t.get a then Step.apply w (Step.single .bruteforce a (t.get a)) else w) s).num a = t.num a := by
  induction l with
  | nil => intro s done _ hd a ha; exact hd a (by simpa using ha)
  | cons b l ih =>
    intro s done hin hd a ha
    rw [List.foldl_cons]
    have hb := hin b (by simp)
    by_cases hne : s.get b ≠ t.get b
    · rw [if_pos (show (id s).get b ≠ t.get b from hne)]
      have e : Step.apply s (Step.single .bruteforce b (t.get b)) = _ :=
        apply_single (st := Step.single .bruteforce b (t.get b)) s (Or.inr (Or.inr rfl)) hb rfl rfl
      refine ih _ (b :: done) ?_ ?_ a ?_
      · intro c hc; rw [e]; exact hin c (by simp [hc])
      · intro c hc
        rw [e]
        simp only
        split
        · rename_i h; rw [h]; rfl
        · rename_i h; exact hd c (by simpa [h] using hc)
      · simp only [List.mem_cons] at ha ⊢; tauto
    · rw [if_neg (show ¬ (id s).get b ≠ t.get b from hne)]
      rw [not_not] at hne
      refine ih _ (b :: done) (fun c hc => hin c (by simp [hc])) ?_ a ?_
      · intro c hc
        rcases List.mem_cons.1 hc with rfl | hc
        · exact hne
        · exact hd c hc
      · simp only [List.mem_cons] at ha ⊢; tauto

theorem applyAll_brute {π : Orders Sudoku} (hπ : π.Ok) {fuel : Nat} (s : Sudoku) (hf : s.empty.length < fuel)
    (hs : Solvable s.bw s.bh s.num) :
    ∃ t, applyAll π fuel .bruteforce s = .ok t ∧ t.bw = s.bw ∧ t.bh = s.bh ∧ IsSolution s.bw s.bh s.num t.num := by
  obtain ⟨g, hg⟩ := hs
  obtain ⟨sols, h1, -, h3⟩ := Dlx.dlx_spec (hπ.dlx s) s fuel hf
  obtain ⟨r, hr⟩ := canon_of hg
  cases sols with
  | nil => exact absurd ((h3 r).2 hr) (by simp)
  | cons t rest =>
    have ht := (h3 t).1 (by simp)
    have hin : ∀ a ∈ s.cells, InGrid s.bw s.bh a := fun a ha => (Sudoku.mem_cells _).1 ha
    refine ⟨s.cells.foldl (fun w a => if (id w : Sudoku).get a ≠ t.get a then Step.apply w (Step.single .bruteforce a (t.get a)) else w) s,
      ?_, ?_⟩
    · show findBruteforce id Step.apply π fuel s = _
      unfold findBruteforce
      rw [show Dlx.dlx (π.dlx s) fuel (id s) = _ from h1]
      rfl
    · have key := foldl_inv (fun x : Sudoku => x.bw = s.bw ∧ x.bh = s.bh)
        (fun w a => if (id w : Sudoku).get a ≠ t.get a then Step.apply w (Step.single .bruteforce a (t.get a)) else w) s.cells
        (fun x a _ hx => by
          split
          · have := apply_dims x (Step.single .bruteforce a (t.get a))
            exact ⟨this.1.trans hx.1, this.2.trans hx.2⟩
          · exact hx) s ⟨rfl, rfl⟩
      refine ⟨key.1, key.2, sol_congr (g := t.num) (fun a ha => ?_) ht.2⟩
      exact (diff_num t s.cells s [] hin (by simp) a (Or.inr ((Sudoku.mem_cells _).2 ha))).symm

/-- No solution: nothing happens. -/
theorem applyAll_brute_none {π : Orders Sudoku} (hπ : π.Ok) {fuel : Nat} (s : Sudoku) (hf : s.empty.length < fuel)
    (hs : ¬ Solvable s.bw s.bh s.num) : applyAll π fuel .bruteforce s = .ok s := by
  obtain ⟨sols, h1, -, h3⟩ := Dlx.dlx_spec (hπ.dlx s) s fuel hf
  show findBruteforce id Step.apply π fuel s = _
  unfold findBruteforce
  rw [show Dlx.dlx (π.dlx s) fuel (id s) = _ from h1]
  cases sols with
  | nil => rfl
  | cons t rest => exact absurd ⟨t.num, ((h3 t).1 (by simp)).2⟩ hs

theorem applyPass_append (π : Orders Sudoku) (fuel : Nat) (l m : List Kind) (s : Sudoku) :
    applyPass π fuel (l ++ m) s = match applyPass π fuel l s with
      | .error e => .error e
      | .ok t => applyPass π fuel m t := by
  induction l generalizing s with
  | nil => rfl
  | cons k l ih =>
    rw [List.cons_append, applyPass, applyPass]
    cases applyAll π fuel k s with
    | error e => rfl
    | ok t => exact ih t

theorem applyPass_inv {π : Orders Sudoku} (hπ : π.Ok) (fuel : Nat) (l : List Kind) (hl : .bruteforce ∉ l) (s : Sudoku) :
    ∃ t, applyPass π fuel l s = .ok t ∧ Kept s (Contains s) t := by
  induction l generalizing s with
  | nil => exact ⟨s, rfl, rfl, rfl, fun _ _ => rfl, fun _ h => h⟩
  | cons k l ih =>
    rw [applyPass]
    obtain ⟨t, h1, h2⟩ := applyAll_inv hπ fuel (k := k) (by rintro rfl; exact hl (by simp)) s
    rw [h1]
    obtain ⟨u, h3, h4⟩ := ih (fun h => hl (by simp [h])) t
    refine ⟨u, h3, h4.bw.trans h2.bw, h4.bh.trans h2.bh, fun a ha => ?_, fun g hg => h4.cons g (h2.cons g hg)⟩
    have := h2.num a ha
    exact (h4.num a (by rw [this]; exact ha)).trans this

end Solvers
