import Verif.Proofs.SolveRun

set_option autoImplicit false

/-! Helper lemmas: the steps seen by someone watching a search; runs that never end; ratings; order of steps. -/

open Spec

namespace Solvers

theorem keeps_leave (g : Grid) : KeepsSolution g leave := fun _ _ h _ => ⟨rfl, rfl, h⟩

theorem keeps_applyNow (g : Grid) : KeepsSolution g applyNow :=
  fun w st _ h => ⟨(apply_dims w.1 st).1, (apply_dims w.1 st).2, h⟩

/-- What is known about a logged step. -/
structure Seen (g : Grid) (w h : Nat) (p : Sudoku × Step) : Prop where
  bw : p.1.bw = w
  bh : p.1.bh = h
  cons : Contains p.1 g
  truth : TrueOf g p.2
  useful : Useful p.1 p.2

theorem seen_ctx {g : Grid} {next : Watch → Step → Sudoku} (hn : KeepsSolution g next) (w h : Nat) (k : Kind)
    (Q : Sudoku × Step → Prop) (hQ : ∀ p, Seen g w h p → p.2.kind = k → Q p) :
    Ctx Prod.fst (watch next) w h k (fun g' => g' = g)
      (fun x : Watch => x.1.bw = w ∧ x.1.bh = h ∧ Contains x.1 g ∧ ∀ p ∈ x.2, Q p) where
  bw _ t := t.1
  bh _ t := t.2.1
  may x t g' hg' := by rw [hg']; exact t.2.2.1.1
  cons x t g' hg' := by rw [hg']; exact t.2.2.1
  step x st t e hst _ := by
    obtain ⟨h1, h2, h3, h4⟩ := t
    have htrue := hst.2 g rfl
    obtain ⟨k1, k2, k3⟩ := hn x st h3 (contains_apply (Useful.shape hst.1) htrue h3)
    refine ⟨k1.trans h1, k2.trans h2, k3, fun p hp => ?_⟩
    simp only [watch, List.mem_append, List.mem_singleton] at hp
    rcases hp with hp | rfl
    · exact h4 p hp
    · exact hQ _ ⟨h1, h2, h3, htrue, hst.1⟩ e

/-- All classes but `Bruteforce`, watched. -/
theorem watch_find {g : Grid} {next : Watch → Step → Sudoku} (hn : KeepsSolution g next) {π : Orders Watch} (hπ : π.Ok)
    (fuel : Nat) {k : Kind} (hk : k ≠ .bruteforce) (s : Sudoku) (hg : Contains s g) (log : List (Sudoku × Step))
    (Q : Sudoku × Step → Prop) (hQ : ∀ p, Seen g s.bw s.bh p → p.2.kind = k → Q p) (hlog : ∀ p ∈ log, Q p) :
    ∃ y : Watch, find Prod.fst (watch next) π fuel k (s, log) = .ok y ∧ y.1.bw = s.bw ∧ y.1.bh = s.bh ∧ Contains y.1 g ∧
      ∀ p ∈ y.2, Q p :=
  find_inv hπ fuel hk (seen_ctx hn s.bw s.bh k Q hQ) (s, log) ⟨rfl, rfl, hg, hlog⟩

theorem useful_ctx {next : Watch → Step → Sudoku} (hn : ∀ x st, (next x st).bw = x.1.bw ∧ (next x st).bh = x.1.bh) (w h : Nat)
    (k : Kind) : Ctx Prod.fst (watch next) w h k (fun _ => False)
      (fun x : Watch => x.1.bw = w ∧ x.1.bh = h ∧ ∀ p ∈ x.2, p.1.bw = w ∧ p.1.bh = h ∧ p.2.kind = k ∧ Useful p.1 p.2) where
  bw _ t := t.1
  bh _ t := t.2.1
  may x t g' hg' := hg'.elim
  cons x t g' hg' := hg'.elim
  step x st t e hst _ := by
    obtain ⟨h1, h2, h3⟩ := t
    refine ⟨(hn x st).1.trans h1, (hn x st).2.trans h2, fun p hp => ?_⟩
    simp only [watch, List.mem_append, List.mem_singleton] at hp
    rcases hp with hp | rfl
    · exact h3 p hp
    · exact ⟨h1, h2, e, hst.1⟩

theorem watch_useful {next : Watch → Step → Sudoku} (hn : ∀ x st, (next x st).bw = x.1.bw ∧ (next x st).bh = x.1.bh)
    {π : Orders Watch} (hπ : π.Ok) (fuel : Nat) {k : Kind} (hk : k ≠ .bruteforce) (s : Sudoku) :
    ∃ y : Watch, find Prod.fst (watch next) π fuel k (s, []) = .ok y ∧
      ∀ p ∈ y.2, p.1.bw = s.bw ∧ p.1.bh = s.bh ∧ p.2.kind = k ∧ Useful p.1 p.2 := by
  obtain ⟨y, h1, -, -, h2⟩ := find_inv hπ fuel hk (useful_ctx hn s.bw s.bh k) (s, []) ⟨rfl, rfl, by simp⟩
  exact ⟨y, h1, h2⟩

/-- All hints, watched. -/
theorem watch_hints {g : Grid} {next : Watch → Step → Sudoku} (hn : KeepsSolution g next) {π : Orders Watch} (hπ : π.Ok)
    (s : Sudoku) (hg : Contains s g) :
    ∀ p ∈ (hints Prod.fst (watch next) π (s, [])).2, Seen g s.bw s.bh p ∧ p.2.kind ∈ solvers ∧ p.2.kind ≠ .bruteforce := by
  unfold hints
  let Q : Sudoku × Step → Prop := fun p => Seen g s.bw s.bh p ∧ p.2.kind ∈ solvers ∧ p.2.kind ≠ .bruteforce
  refine (foldl_inv (fun x : Watch => x.1.bw = s.bw ∧ x.1.bh = s.bh ∧ Contains x.1 g ∧ ∀ p ∈ x.2, Q p) _ solvers ?_ (s, [])
    ⟨rfl, rfl, hg, by simp⟩).2.2.2
  rintro ⟨t, log⟩ k hk ⟨h1, h2, h3, h4⟩
  simp only at h1 h2 h3 h4 ⊢
  split
  · exact ⟨h1, h2, h3, h4⟩
  · rename_i hb
    obtain ⟨y, e, k1, k2, k3, k4⟩ := watch_find hn hπ 0 hb t h3 log Q (by
      rintro p hp rfl
      rw [h1, h2] at hp
      exact ⟨hp, hk, hb⟩) h4
    rw [e]
    exact ⟨k1.trans h1, k2.trans h2, k3, k4⟩

theorem contains_foldl {s : Sudoku} {g : Grid} (hg : Contains s g) (l : List Step)
    (hl : ∀ st ∈ l, Shape s.bw s.bh st ∧ TrueOf g st) : Contains (l.foldl Step.apply s) g := by
  refine (foldl_inv (fun t : Sudoku => t.bw = s.bw ∧ t.bh = s.bh ∧ Contains t g) _ l ?_ s ⟨rfl, rfl, hg⟩).2.2
  rintro t st hst ⟨h1, h2, h3⟩
  have hd := apply_dims t st
  refine ⟨hd.1.trans h1, hd.2.trans h2, contains_apply ?_ (hl st hst).2 h3⟩
  rw [h1, h2]; exact (hl st hst).1

/-! ### never ending -/

/-- A field without admissible number: `CalculateCandidates` finds something in each round. -/
theorem calc_forever {s0 : Sudoku} {a : Cell} (ha : InGrid s0.bw s0.bh a) (hcalc : Solve.calcCandidates s0 a = ∅)
    (π : Orders Run) (fuel rounds : Nat) : ∀ w : Run, w.1.bw = s0.bw → w.1.bh = s0.bh → w.1.num = s0.num → w.1.cand a = ∅ →
      loop π fuel rounds w = .ok none := by
  induction rounds with
  | zero => intro w _ _ _ _; rfl
  | succ r ih =>
    intro w hw hh hn hc
    have hlen : (findCalc Prod.fst consume w).2.length > w.2.length := by
      by_contra h
      exact calc_still h a (by rw [hw, hh]; exact ha) hc
    have e : round π fuel solvers w = .ok (some (findCalc Prod.fst consume w)) := by
      have e : solvers = .calculateCandidates :: solvers.tail := by decide
      rw [e, round]
      simp only [find]
      rw [if_pos hlen]
    rw [loop, e]
    simp only
    have key : ∀ w' : Run, w' = findCalc Prod.fst consume w →
        w'.1.bw = s0.bw ∧ w'.1.bh = s0.bh ∧ w'.1.num = s0.num ∧ w'.1.cand a = ∅ := by
      rintro w' rfl
      unfold findCalc
      refine foldl_inv (fun w' : Run => w'.1.bw = s0.bw ∧ w'.1.bh = s0.bh ∧ w'.1.num = s0.num ∧ w'.1.cand a = ∅) _ _ ?_ w
        ⟨hw, hh, hn, hc⟩
      rintro x b - ⟨k1, k2, k3, k4⟩
      try dsimp only
      split
      · exact ⟨k1, k2, k3, k4⟩
      · have e := apply_calc (st := Step.mkSet .calculateCandidates [b] [b] (Solve.calcCandidates x.1 b)) x.1 rfl (a := b) rfl
        simp only [consume]
        rw [e]
        refine ⟨k1, k2, k3, ?_⟩
        simp only [Sudoku.setCandidates]
        split
        · rename_i hab
          subst hab
          ext v
          rw [List.mem_toFinset]
          show v ∈ sortSet _ ↔ _
          rw [mem_sortSet, Solve.calc_congr k1 k2 k3, hcalc]
        · exact k4
    obtain ⟨k1, k2, k3, k4⟩ := key _ rfl
    exact ih _ k1 k2 k3 k4

/-! ### more rounds -/

theorem loop_mono {π : Orders Run} {fuel r : Nat} : ∀ {w w' : Run}, loop π fuel r w = .ok (some w') → ∀ r', r ≤ r' →
    loop π fuel r' w = .ok (some w') := by
  induction r with
  | zero => intro w w' h; simp [loop] at h
  | succ r ih =>
    intro w w' h r' hr
    obtain ⟨r', rfl⟩ : ∃ m, r' = m + 1 := ⟨r' - 1, by omega⟩
    rw [loop] at h ⊢
    split at h
    · exact absurd h (by simp)
    · simpa using h
    · exact ih h r' (by omega)

/-! ### ratings -/

theorem rating_solvers : ∀ k ∈ solvers, ∃ r, rating k = some r ∧ r ≤ 10 ∧ (r = 0 ↔ k = .calculateCandidates) ∧
    (r = 10 ↔ k = .bruteforce) ∧ (k.Fills → 1 ≤ r) := by
  have : ∀ k ∈ solvers, (rating k).isSome = true ∧ (rating k).getD 0 ≤ 10 ∧ ((rating k).getD 0 = 0 ↔ k = .calculateCandidates) ∧
      ((rating k).getD 0 = 10 ↔ k = .bruteforce) ∧ (k.Fills → 1 ≤ (rating k).getD 0) := by decide
  intro k hk
  obtain ⟨h1, h2⟩ := this k hk
  obtain ⟨r, hr⟩ := Option.isSome_iff_exists.1 h1
  rw [hr] at h2
  exact ⟨r, hr, h2⟩

theorem rating_le : ∀ k ∈ solvers, (rating k).getD 0 ≤ 10 ∧ (¬ k.Fills → (rating k).getD 0 ≤ 7) ∧
    ((rating k).getD 0 ≤ 7 ∨ (rating k).getD 0 = 10) := by decide

theorem sum_le (l : List Step) (hl : ∀ st ∈ l, st.kind ∈ solvers) :
    (l.map fun st => (rating st.kind).getD 0).sum ≤ 3 * (l.filter fun st => decide st.kind.Fills).length + 7 * l.length := by
  induction l with
  | nil => simp
  | cons st l ih =>
    have h := ih (fun x hx => hl x (by simp [hx]))
    rw [List.map_cons, List.sum_cons, List.filter_cons]
    obtain ⟨h1, h2, -⟩ := rating_le st.kind (hl st (by simp))
    split
    · simp only [List.length_cons]; omega
    · rename_i hf
      have := h2 (fun h => hf (decide_eq_true h))
      simp only [List.length_cons]; omega

theorem ratings_ok (l : List Step) (hl : ∀ st ∈ l, st.kind ∈ solvers) :
    ratings l = .ok (l.map fun st => (rating st.kind).getD 0) := by
  induction l with
  | nil => rfl
  | cons st l ih =>
    obtain ⟨r, hr, -⟩ := rating_solvers st.kind (hl st (by simp))
    rw [ratings, hr, ih (fun x hx => hl x (by simp [hx]))]
    simp [hr]

theorem foldl_max (l : List Nat) : ∀ x, l.foldl max x = max x (l.foldl max 0) := by
  induction l with
  | nil => simp
  | cons a l ih =>
    intro x
    rw [List.foldl_cons, List.foldl_cons, ih (max x a), ih (max 0 a)]
    omega

theorem le_maxList {l : List Nat} {x : Nat} (h : x ∈ l) : x ≤ maxList l := by
  induction l with
  | nil => simp at h
  | cons a l ih =>
    unfold maxList at ih ⊢
    rw [List.foldl_cons, foldl_max]
    rcases List.mem_cons.1 h with rfl | h
    · omega
    · have := ih h; omega

theorem maxList_mem {l : List Nat} (h : l ≠ []) : maxList l ∈ l := by
  induction l with
  | nil => exact absurd rfl h
  | cons a l ih =>
    unfold maxList at ih ⊢
    rw [List.foldl_cons, foldl_max]
    by_cases hl : l = []
    · subst hl; simp
    · have := ih hl
      rcases le_total (max 0 a) (l.foldl max 0) with h | h
      · rw [max_eq_right h]; simp [this]
      · rw [max_eq_left h]; simp

theorem sum_ge (l : List Step) (hl : ∀ st ∈ l, st.kind ∈ solvers) :
    (l.filter fun st => decide st.kind.Fills).length ≤ (l.map fun st => (rating st.kind).getD 0).sum := by
  induction l with
  | nil => simp
  | cons st l ih =>
    have h := ih (fun x hx => hl x (by simp [hx]))
    rw [List.map_cons, List.sum_cons, List.filter_cons]
    obtain ⟨r, hr, -, -, -, h1⟩ := rating_solvers st.kind (hl st (by simp))
    rw [hr]
    split
    · rename_i hf
      have := h1 (of_decide_eq_true hf)
      simp only [Option.getD_some, List.length_cons]
      omega
    · simp only [Option.getD_some]; omega

/-! ### the order of steps -/

section
variable {α : Type} [DecidableEq α] {lt : α → α → Bool}

theorem tupleLt_irrefl (l : List α) : tupleLt lt l l = false := by
  induction l with
  | nil => rfl
  | cons a l ih => simp [tupleLt, ih]

theorem tupleLt_trans (hirr : ∀ a, lt a a = false) (htr : ∀ a b c, lt a b = true → lt b c = true → lt a c = true) :
    ∀ l m n : List α, tupleLt lt l m = true → tupleLt lt m n = true → tupleLt lt l n = true := by
  intro l
  induction l with
  | nil =>
    intro m n h1 h2
    cases m with
    | nil => simp [tupleLt] at h1
    | cons b m => cases n with
      | nil => simp [tupleLt] at h2
      | cons c n => simp [tupleLt]
  | cons a l ih =>
    intro m n h1 h2
    cases m with
    | nil => simp [tupleLt] at h1
    | cons b m => cases n with
      | nil => simp [tupleLt] at h2
      | cons c n =>
        simp only [tupleLt] at h1 h2 ⊢
        by_cases hab : a = b
        · subst hab
          by_cases hac : a = c
          · simp only [hac, if_true] at h1 h2 ⊢; exact ih m n h1 h2
          · simp only [hac, if_false] at h2 ⊢; exact h2
        · by_cases hbc : b = c
          · subst hbc; simp only [hab, if_false] at h1 ⊢; exact h1
          · simp only [hab, hbc, if_false] at h1 h2
            have h3 := htr a b c h1 h2
            by_cases hac : a = c
            · subst hac; rw [hirr] at h3; simp at h3
            · simp only [hac, if_false]; exact h3

theorem tupleLt_total (htot : ∀ a b, a ≠ b → lt a b = true ∨ lt b a = true) :
    ∀ l m : List α, l ≠ m → tupleLt lt l m = true ∨ tupleLt lt m l = true := by
  intro l
  induction l with
  | nil => intro m h; cases m with
    | nil => exact absurd rfl h
    | cons b m => left; rfl
  | cons a l ih =>
    intro m h
    cases m with
    | nil => right; rfl
    | cons b m =>
      simp only [tupleLt]
      by_cases hab : a = b
      · subst hab
        simp only [if_true]
        exact ih m (fun e => h (by rw [e]))
      · simp only [hab, Ne.symm hab, if_false]
        exact htot a b hab

end

theorem cellLt_irrefl (a : Cell) : cellLt a a = false := by simp [cellLt]

theorem cellLt_trans (a b c : Cell) (h1 : cellLt a b = true) (h2 : cellLt b c = true) : cellLt a c = true := by
  unfold cellLt at *
  split_ifs at * <;> simp only [decide_eq_true_eq] at * <;> omega

theorem cellLt_total (a b : Cell) (h : a ≠ b) : cellLt a b = true ∨ cellLt b a = true := by
  unfold cellLt
  by_cases h1 : a.1 = b.1
  · have : a.2 ≠ b.2 := fun e => h (Prod.ext h1 e)
    simp only [h1, if_true, decide_eq_true_eq]; omega
  · simp only [h1, Ne.symm h1, if_false, decide_eq_true_eq]; omega

theorem intLt_trans (a b c : Int) (h1 : decide (a < b) = true) (h2 : decide (b < c) = true) : decide (a < c) = true := by
  simp only [decide_eq_true_eq] at *; omega

theorem intLt_total (a b : Int) (h : a ≠ b) : decide (a < b) = true ∨ decide (b < a) = true := by
  simp only [decide_eq_true_eq]; omega

theorem step_irrefl (a : Step) : a.lt a = false := by
  simp [Step.lt, tupleLt_irrefl]

theorem step_total (a b : Step) (h : a.eq b = false) : a.lt b = true ∨ b.lt a = true := by
  unfold Step.lt
  by_cases h1 : a.clues = b.clues
  · by_cases h2 : a.affected = b.affected
    · have h3 : a.values ≠ b.values := by
        intro h3; simp [Step.eq, h1, h2, h3] at h
      simp only [h1, h2, if_true]
      exact tupleLt_total intLt_total _ _ h3
    · simp only [h1, h2, Ne.symm h2, if_true, if_false]
      exact tupleLt_total cellLt_total _ _ h2
  · simp only [h1, Ne.symm h1, if_false]
    exact tupleLt_total cellLt_total _ _ h1

theorem step_trans (a b c : Step) (h1 : a.lt b = true) (h2 : b.lt c = true) : a.lt c = true := by
  unfold Step.lt at *
  by_cases hab : a.clues = b.clues
  · by_cases hbc : b.clues = c.clues
    · simp only [hab, hbc, if_true] at h1 h2 ⊢
      by_cases hab2 : a.affected = b.affected
      · by_cases hbc2 : b.affected = c.affected
        · simp only [hab2, hbc2, if_true] at h1 h2 ⊢
          exact tupleLt_trans (by simp) intLt_trans _ _ _ h1 h2
        · simp only [hab2, hbc2, if_true, if_false] at h1 h2 ⊢
          exact h2
      · by_cases hbc2 : b.affected = c.affected
        · rw [← hbc2]
          simp only [hab2, if_false] at h1 ⊢
          exact h1
        · simp only [hab2, hbc2, if_false] at h1 h2
          have h3 := tupleLt_trans cellLt_irrefl cellLt_trans _ _ _ h1 h2
          by_cases hac : a.affected = c.affected
          · rw [hac, tupleLt_irrefl] at h3; simp at h3
          · rw [if_neg hac]; exact h3
    · rw [hab]
      simp only [hbc, if_false] at h2 ⊢
      exact h2
  · by_cases hbc : b.clues = c.clues
    · rw [← hbc]
      simp only [hab, if_false] at h1 ⊢
      exact h1
    · simp only [hab, hbc, if_false] at h1 h2
      have h3 := tupleLt_trans cellLt_irrefl cellLt_trans _ _ _ h1 h2
      by_cases hac : a.clues = c.clues
      · rw [hac, tupleLt_irrefl] at h3; simp at h3
      · rw [if_neg hac]; exact h3

theorem sortCells_perm {l m : List Cell} (h : l.Perm m) : sortCells l = sortCells m := by
  have tot : ∀ a b : Cell, cellLe a b ∨ cellLe b a := fun a b => by unfold cellLe; omega
  have tr : ∀ a b c : Cell, cellLe a b → cellLe b c → cellLe a c := fun a b c => by unfold cellLe; omega
  have anti : ∀ a b : Cell, cellLe a b → cellLe b a → a = b := fun a b h1 h2 =>
    Prod.ext (by unfold cellLe at *; omega) (by unfold cellLe at *; omega)
  have : Std.Total cellLe := ⟨tot⟩
  have : IsTrans Cell cellLe := ⟨tr⟩
  have : Std.Antisymm cellLe := ⟨anti⟩
  exact List.Perm.eq_of_pairwise' (r := cellLe) (List.pairwise_insertionSort cellLe l) (List.pairwise_insertionSort cellLe m)
    ((List.perm_insertionSort _ l).trans (h.trans (List.perm_insertionSort _ m).symm))

theorem sortInts_perm {l m : List Int} (h : l.Perm m) : sortInts l = sortInts m :=
  List.Perm.eq_of_pairwise' (r := (· ≤ ·)) (List.pairwise_insertionSort (· ≤ ·) l) (List.pairwise_insertionSort (· ≤ ·) m)
    ((List.perm_insertionSort _ l).trans (h.trans (List.perm_insertionSort _ m).symm))

/-! ### applying twice -/

theorem exec_single_twice {s : Sudoku} {a : Cell} {v : Int} (l : List Cell) (hl : a ∉ l) (t : Sudoku)
    (ht : t = (Action.setNumber a v :: Action.setCandidates a {v} :: l.map fun b => .removeCandidates b {v}).foldl Action.exec s) :
    (Action.setNumber a v :: Action.setCandidates a {v} :: l.map fun b => .removeCandidates b {v}).foldl Action.exec t = t := by
  have key : ∀ s : Sudoku, (Action.setNumber a v :: Action.setCandidates a {v} :: l.map fun b => .removeCandidates b {v}).foldl
      Action.exec s = { s with
        num := fun b => if b = a then v else s.num b
        cand := fun b => if b = a then {v} else if b ∈ l then s.cand b \ {v} else s.cand b } := by
    intro s
    simp only [List.foldl_cons]
    rw [foldl_remove l (fun _ => {v})]
    simp only [Action.exec, Sudoku.setNumber, Sudoku.setCandidates]
    congr 1
    funext b
    by_cases hb : b = a
    · subst hb; simp [hl]
    · simp [hb]
  rw [key] at ht
  rw [key, ht]
  ext1
  · rfl
  · rfl
  · funext b; simp only; split <;> rfl
  · funext b
    simp only
    split
    · rfl
    · split
      · simp
      · rfl

theorem exec_remove_twice {s : Sudoku} (l : List Cell) (f : Cell → Finset Int) (t : Sudoku)
    (ht : t = (l.map fun b => Action.removeCandidates b (f b)).foldl Action.exec s) :
    (l.map fun b => Action.removeCandidates b (f b)).foldl Action.exec t = t := by
  rw [foldl_remove] at ht
  rw [foldl_remove, ht]
  ext1 <;> try rfl
  funext b
  simp only
  split
  · simp
  · rfl

theorem not_mem_surrounding (s : Sudoku) (a : Cell) : a ∉ s.surroundingOf a false := by
  unfold Sudoku.surroundingOf Sudoku.rowOf Sudoku.columnOf Sudoku.quadWithoutRowAndColumnOf
  simp only [Bool.false_eq_true, if_false, List.mem_append, List.mem_map, List.mem_filter, Bool.false_or, bne_iff_ne,
    Bool.and_eq_true]
  rintro ((⟨j, ⟨-, h⟩, e⟩ | ⟨i, ⟨-, h⟩, e⟩) | ⟨p, ⟨-, h, -⟩, e⟩)
  · exact h (congrArg Prod.snd e)
  · exact h (congrArg Prod.fst e)
  · exact h (congrArg Prod.fst e)

end Solvers
