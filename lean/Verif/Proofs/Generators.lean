import Verif.Model.Generators
import Verif.Proofs.Store
import Verif.Proofs.Geometry
import Verif.Proofs.DlxDict

set_option autoImplicit false

/-! # Helper lemmas for C99: programs of generators on sudoku values -/

open Spec

namespace Generators

variable {α β : Type}

/-- Running a computation on a sudoku value: what it yields, and how it ends. -/
def runV : Prog α → Sudoku → List Sudoku × Except PyErr (α × Sudoku)
  | .pure x, s => ([], .ok (x, s))
  | .fail e, _ => ([], .error e)
  | .get a k, s => if InGrid s.bw s.bh a then runV (k (s.num a)) s else ([], .error .IndexError)
  | .getCandidates a k, s => if InGrid s.bw s.bh a then runV (k (s.cand a)) s else ([], .error .IndexError)
  | .set a v k, s => if InGrid s.bw s.bh a then runV k (s.setNumber a v) else ([], .error .IndexError)
  | .setCandidates a v k, s => if InGrid s.bw s.bh a then runV k (s.setCandidates a v) else ([], .error .IndexError)
  | .removeCandidates a v k, s => if InGrid s.bw s.bh a then runV k (s.removeCandidates a v) else ([], .error .IndexError)
  | .yield k, s => (s.copy :: (runV k s).1, (runV k s).2)

/-- What one computation after the other does. -/
def seqV (r : List Sudoku × Except PyErr (α × Sudoku)) (f : α → Sudoku → List Sudoku × Except PyErr (β × Sudoku)) :
    List Sudoku × Except PyErr (β × Sudoku) :=
  match r.2 with
  | .error e => (r.1, .error e)
  | .ok (x, s) => (r.1 ++ (f x s).1, (f x s).2)

theorem runV_bind (p : Prog α) (f : α → Prog β) : ∀ s, runV (p.bind f) s = seqV (runV p s) fun x => runV (f x) := by
  induction p with
  | pure x => intro s; simp [Prog.bind, runV, seqV]
  | fail e => intro s; simp [Prog.bind, runV, seqV]
  | get a k ih | getCandidates a k ih =>
    intro s
    simp only [Prog.bind, runV]
    split
    · exact ih _ s
    · rfl
  | set a v k ih | setCandidates a v k ih | removeCandidates a v k ih =>
    intro s
    simp only [Prog.bind, runV]
    split
    · exact ih _
    · rfl
  | yield k ih =>
    intro s
    simp only [Prog.bind, runV]
    rw [ih s]
    unfold seqV
    simp only
    cases (runV k s).2 with
    | error e => rfl
    | ok x => simp

/-- The computation ends regularly. -/
def Gives (p : Prog α) (s : Sudoku) (ys : List Sudoku) (x : α) (t : Sudoku) : Prop := runV p s = (ys, .ok (x, t))

/-- The computation raises an exception. -/
def Fails (p : Prog α) (s : Sudoku) (e : PyErr) : Prop := (runV p s).2 = .error e

theorem Gives.pure (x : α) (s : Sudoku) : Gives (Pure.pure x) s [] x s := rfl

theorem Gives.bind {p : Prog α} {f : α → Prog β} {s t u : Sudoku} {ys zs : List Sudoku} {x : α} {y : β}
    (h1 : Gives p s ys x t) (h2 : Gives (f x) t zs y u) : Gives (p >>= f) s (ys ++ zs) y u := by
  show runV (p.bind f) s = _
  rw [runV_bind, h1]
  unfold seqV
  simp only
  rw [h2]

theorem Gives.bind0 {p : Prog α} {f : α → Prog β} {s t u : Sudoku} {zs : List Sudoku} {x : α} {y : β}
    (h1 : Gives p s [] x t) (h2 : Gives (f x) t zs y u) : Gives (p >>= f) s zs y u := h1.bind h2

theorem Fails.first {p : Prog α} {f : α → Prog β} {s : Sudoku} {e : PyErr} (h : Fails p s e) : Fails (p >>= f) s e := by
  show (runV (p.bind f) s).2 = _
  rw [runV_bind]
  unfold seqV
  rw [h]

theorem Gives.fails {p : Prog α} {f : α → Prog β} {s t : Sudoku} {ys : List Sudoku} {x : α} {e : PyErr}
    (h1 : Gives p s ys x t) (h2 : Fails (f x) t e) : Fails (p >>= f) s e := by
  show (runV (p.bind f) s).2 = _
  rw [runV_bind, h1]
  exact h2

theorem Fails.raise (e : PyErr) (s : Sudoku) : Fails (raise e : Prog α) s e := rfl

variable {s : Sudoku} {a : Cell}

theorem Gives.getNum (ha : InGrid s.bw s.bh a) : Gives (getNum a) s [] (s.get a) s := by
  show runV (.get a Prog.pure) s = _
  rw [runV, if_pos ha]; rfl

theorem Gives.getCands (ha : InGrid s.bw s.bh a) : Gives (getCands a) s [] (s.getCandidates a) s := by
  show runV (.getCandidates a Prog.pure) s = _
  rw [runV, if_pos ha]; rfl

theorem Gives.setNum (ha : InGrid s.bw s.bh a) (v : Int) : Gives (setNum a v) s [] () (s.setNumber a v) := by
  show runV (.set a v (.pure ())) s = _
  rw [runV, if_pos ha]; rfl

theorem Gives.setCands (ha : InGrid s.bw s.bh a) (v : Finset Int) : Gives (setCands a v) s [] () (s.setCandidates a v) := by
  show runV (.setCandidates a v (.pure ())) s = _
  rw [runV, if_pos ha]; rfl

theorem Gives.removeCands (ha : InGrid s.bw s.bh a) (v : Finset Int) : Gives (removeCands a v) s [] () (s.removeCandidates a v) := by
  show runV (.removeCandidates a v (.pure ())) s = _
  rw [runV, if_pos ha]; rfl

theorem Gives.give (s : Sudoku) : Gives give s [s.copy] () s := rfl

theorem Gives.ofExcept {x : Except PyErr α} {y : α} (h : x = .ok y) (s : Sudoku) : Gives (ofExcept x) s [] y s := by subst h; rfl

theorem Fails.ofExcept {x : Except PyErr α} {e : PyErr} (h : x = .error e) (s : Sudoku) : Fails (ofExcept x) s e := by subst h; rfl

/-! ## The parts of `bruteforce` -/

/-- A sudoku of box size `w`, `h`. -/
def Sized (w h : Nat) (s : Sudoku) : Prop := s.bw = w ∧ s.bh = h

theorem Sized.new_surroundingOf {w h : Nat} {s : Sudoku} (hs : Sized w h s) (a : Cell) (i : Bool) :
    (Sudoku.new w h).surroundingOf a i = s.surroundingOf a i := by
  obtain ⟨rfl, rfl⟩ := hs; rfl

theorem Sized.new_cells {w h : Nat} {s : Sudoku} (hs : Sized w h s) : (Sudoku.new w h).cells = s.cells := by
  obtain ⟨rfl, rfl⟩ := hs; rfl

theorem Sized.new_numbers {w h : Nat} {s : Sudoku} (hs : Sized w h s) : (Sudoku.new w h).numbers = s.numbers := by
  obtain ⟨rfl, rfl⟩ := hs; rfl

theorem surrounding_inGrid {a : Cell} (ha : InGrid s.bw s.bh a) : ∀ b ∈ s.surroundingOf a false, InGrid s.bw s.bh b := fun _ hb =>
  ((s.mem_surroundingOf_false ha).1 hb).1

theorem gives_anyEqual (v : Int) (l : List Cell) (hl : ∀ b ∈ l, InGrid s.bw s.bh b) :
    Gives (anyEqual v l) s [] (l.any fun b => s.get b == v) s := by
  induction l with
  | nil => exact Gives.pure _ _
  | cons b l ih =>
    refine (Gives.getNum (hl b (by simp))).bind0 ?_
    rw [List.any_cons]
    by_cases e : s.get b = v
    · rw [if_pos e, e]; simp; exact Gives.pure _ _
    · rw [if_neg e, beq_eq_false_iff_ne.2 e, Bool.false_or]
      exact ih fun c hc => hl c (by simp [hc])

theorem gives_hasConflict {w h : Nat} (hs : Sized w h s) (l : List Cell) (hl : ∀ b ∈ l, InGrid s.bw s.bh b) :
    Gives (hasConflict w h l) s [] (l.any fun a => s.get a != 0 && (s.surroundingOf a false).any fun b => s.get b == s.get a) s := by
  induction l with
  | nil => exact Gives.pure _ _
  | cons a l ih =>
    have hl' := ih fun c hc => hl c (by simp [hc])
    have ha := hl a (by simp)
    refine (Gives.getNum ha).bind0 ?_
    rw [List.any_cons]
    by_cases e : s.get a = 0
    · rw [if_neg (by simpa using e)]
      simpa [e] using hl'
    · rw [if_pos e]
      refine (gives_anyEqual (s.get a) _ ?_).bind0 ?_
      · rw [hs.new_surroundingOf]; exact surrounding_inGrid ha
      · rw [hs.new_surroundingOf, bne_iff_ne.2 e, Bool.true_and]
        cases (s.surroundingOf a false).any fun b => s.get b == s.get a
        · exact hl'
        · exact Gives.pure _ _

theorem gives_discardNumbers (l : List Cell) (hl : ∀ b ∈ l, InGrid s.bw s.bh b) :
    ∀ cs, Gives (discardNumbers l cs) s [] (l.foldl (fun cs b => cs.erase (s.get b)) cs) s := by
  induction l with
  | nil => intro cs; exact Gives.pure _ _
  | cons b l ih =>
    intro cs
    exact (Gives.getNum (hl b (by simp))).bind0 (ih (fun c hc => hl c (by simp [hc])) _)

theorem gives_calcCandidates {w h : Nat} (hs : Sized w h s) (ha : InGrid s.bw s.bh a) :
    Gives (calcCandidates w h a) s [] (Solve.calcCandidates s a) s := by
  refine (Gives.getNum ha).bind0 ?_
  unfold Solve.calcCandidates
  split
  · exact Gives.pure _ _
  · rw [hs.new_surroundingOf, hs.new_numbers]
    exact gives_discardNumbers _ (surrounding_inGrid ha) _

theorem gives_initCandidates {w h : Nat} (l : List Cell) (hl : ∀ b ∈ l, InGrid w h b) : ∀ s, Sized w h s →
    Gives (initCandidates w h l) s [] () (l.foldl (fun s a => s.setCandidates a (Solve.calcCandidates s a)) s) := by
  induction l with
  | nil => intro s _; exact Gives.pure _ _
  | cons a l ih =>
    intro s hs
    have ha : InGrid s.bw s.bh a := by rw [hs.1, hs.2]; exact hl a (by simp)
    exact (gives_calcCandidates hs ha).bind0 ((Gives.setCands ha _).bind0 (ih (fun b hb => hl b (by simp [hb])) _ hs))

theorem gives_emptyFields (l : List Cell) (hl : ∀ b ∈ l, InGrid s.bw s.bh b) :
    Gives (emptyFields l) s [] (l.filter fun a => s.get a == 0) s := by
  induction l with
  | nil => exact Gives.pure _ _
  | cons a l ih =>
    refine (Gives.getNum (hl a (by simp))).bind0 ((ih fun b hb => hl b (by simp [hb])).bind0 ?_)
    rw [List.filter_cons]
    by_cases e : s.get a = 0
    · simp only [e, if_true, beq_self_eq_true]; exact Gives.pure _ _
    · simp only [e, if_false, beq_iff_eq]; exact Gives.pure _ _

theorem gives_withKeys (l : List Cell) (hl : ∀ b ∈ l, InGrid s.bw s.bh b) :
    Gives (withKeys l) s [] (l.map fun a => (a, (s.getCandidates a).card)) s := by
  induction l with
  | nil => exact Gives.pure _ _
  | cons a l ih =>
    exact (Gives.getCands (hl a (by simp))).bind0 ((ih fun b hb => hl b (by simp [hb])).bind0 (Gives.pure _ _))

theorem head_sorted (s : Sudoku) (l : List Cell) :
    ((l.map fun a => (a, (s.getCandidates a).card)).insertionSort fun p q => p.2 ≤ q.2).head? =
      ((l.insertionSort fun a b => (s.getCandidates a).card ≤ (s.getCandidates b).card).head?).map
        fun a => (a, (s.getCandidates a).card) := by
  rw [← List.map_insertionSort (r := fun a b => (s.getCandidates a).card ≤ (s.getCandidates b).card)]
  · rw [List.head?_map]
  · intro a _ b _; rfl

theorem gives_saveAndRemove {w h : Nat} (c : Int) (l : List Cell) (hl : ∀ b ∈ l, InGrid w h b) :
    ∀ (s : Sudoku) (saved : List (Cell × Finset Int)), Sized w h s →
    Gives (saveAndRemove c l saved) s [] (Solve.saveAndRemove c l s saved).2 (Solve.saveAndRemove c l s saved).1 ∧
      Sized w h (Solve.saveAndRemove c l s saved).1 := by
  induction l with
  | nil => intro s saved hs; exact ⟨Gives.pure _ _, hs⟩
  | cons b l ih =>
    intro s saved hs
    have hb : InGrid s.bw s.bh b := by rw [hs.1, hs.2]; exact hl b (by simp)
    obtain ⟨h1, h2⟩ := ih (fun d hd => hl d (by simp [hd])) (s.removeCandidates b {c}) (Solve.dictSet saved b (s.getCandidates b)) hs
    exact ⟨(Gives.getCands hb).bind0 ((Gives.removeCands hb _).bind0 h1), h2⟩

theorem keys_dictSet {β : Type} (d : List (Cell × β)) (k : Cell) (v : β) (P : Cell → Prop) (hd : ∀ p ∈ d, P p.1) (hk : P k) :
    ∀ p ∈ Solve.dictSet d k v, P p.1 := by
  intro p hp
  unfold Solve.dictSet at hp
  split at hp
  · obtain ⟨q, hq, rfl⟩ := List.mem_map.1 hp
    split
    · exact hk
    · exact hd q hq
  · rcases List.mem_append.1 hp with h | h
    · exact hd p h
    · rw [List.mem_singleton] at h; rw [h]; exact hk

theorem keys_saveAndRemove (c : Int) (P : Cell → Prop) (l : List Cell) (hl : ∀ b ∈ l, P b) :
    ∀ (s : Sudoku) (saved : List (Cell × Finset Int)), (∀ p ∈ saved, P p.1) → ∀ p ∈ (Solve.saveAndRemove c l s saved).2, P p.1 := by
  induction l with
  | nil => intro s saved h; exact h
  | cons b l ih =>
    intro s saved h
    exact ih (fun d hd => hl d (by simp [hd])) _ _ (keys_dictSet _ _ _ P h (hl b (by simp)))

theorem gives_restore {w h : Nat} (l : List (Cell × Finset Int)) (hl : ∀ p ∈ l, InGrid w h p.1) : ∀ s, Sized w h s →
    Gives (restore l) s [] () (Solve.restore s l) ∧ Sized w h (Solve.restore s l) := by
  induction l with
  | nil => intro s hs; exact ⟨Gives.pure _ _, hs⟩
  | cons p l ih =>
    intro s hs
    have hp : InGrid s.bw s.bh p.1 := by rw [hs.1, hs.2]; exact hl p (by simp)
    obtain ⟨h1, h2⟩ := ih (fun q hq => hl q (by simp [hq])) (s.setCandidates p.1 p.2) hs
    exact ⟨(Gives.setCands hp _).bind0 h1, h2⟩

/-- What a computation does, in terms of the model on values. -/
def Matches (w h : Nat) (p : Prog Unit) (s : Sudoku) : Option (List Sudoku × Sudoku) → Prop
  | none => Fails p s .RecursionError
  | some (ys, t) => Gives p s ys () t ∧ Sized w h t

theorem matches_bfLoop {w h : Nat} {rec : List (Cell × Int) → Prog Unit}
    {rec' : List (Cell × Int) → Sudoku → Option (List Sudoku × Sudoku)} (hrec : ∀ p s, Sized w h s → Matches w h (rec p) s (rec' p s))
    (path : List (Cell × Int)) {a : Cell} (ha : InGrid w h a) (cs : List Int) : ∀ s, Sized w h s →
    Matches w h (bfLoop w h rec path a cs) s (Solve.bfLoop rec' path a cs s) := by
  induction cs with
  | nil => intro s hs; exact ⟨Gives.pure _ _, hs⟩
  | cons c cs ih =>
    intro s hs
    have ha' : InGrid s.bw s.bh a := by rw [hs.1, hs.2]; exact ha
    have hs1 : Sized w h (s.setNumber a c) := hs
    have hsur : ∀ b ∈ (Sudoku.new w h).surroundingOf a false, InGrid w h b :=
      surrounding_inGrid (s := Sudoku.new w h) ha
    obtain ⟨g, hs2⟩ := gives_saveAndRemove c _ hsur (s.setNumber a c) [(a, (s.setNumber a c).getCandidates a)] hs1
    have hk := keys_saveAndRemove c (InGrid w h) _ hsur (s.setNumber a c) [(a, (s.setNumber a c).getCandidates a)]
      (by intro p hp; rw [List.mem_singleton] at hp; rw [hp]; exact ha)
    have head : ∀ {x : Option (List Sudoku × Sudoku)} {k : List (Cell × Finset Int) → Prog Unit},
        Matches w h (k (Solve.saveAndRemove c ((Sudoku.new w h).surroundingOf a false) (s.setNumber a c)
          [(a, (s.setNumber a c).getCandidates a)]).2) (Solve.saveAndRemove c ((Sudoku.new w h).surroundingOf a false) (s.setNumber a c)
          [(a, (s.setNumber a c).getCandidates a)]).1 x →
        Matches w h (do
          setNum a c
          let own ← getCands a
          let saved ← saveAndRemove c ((Sudoku.new w h).surroundingOf a false) [(a, own)]
          k saved) s x := by
      intro x k hx
      cases x with
      | none =>
        exact (Gives.setNum ha' c).fails ((Gives.getCands (s := s.setNumber a c) ha').fails (g.fails hx))
      | some q =>
        exact ⟨(Gives.setNum ha' c).bind0 ((Gives.getCands (s := s.setNumber a c) ha').bind0 (g.bind0 hx.1)), hx.2⟩
    rw [Solve.bfLoop, ← hs1.new_surroundingOf]
    refine head ?_
    revert g hs2 hk
    generalize Solve.saveAndRemove c ((Sudoku.new w h).surroundingOf a false) (s.setNumber a c) [(a, (s.setNumber a c).getCandidates a)] = q
    obtain ⟨t, saved⟩ := q
    intro _ hs2 hk
    simp only at hs2 hk ⊢
    have hr := hrec ((a, c) :: path) t hs2
    cases e : rec' ((a, c) :: path) t with
    | none => rw [e] at hr; exact Fails.first hr
    | some q =>
      obtain ⟨sols, t1⟩ := q
      rw [e] at hr
      obtain ⟨g1, hs3⟩ := hr
      obtain ⟨g2, hs4⟩ := gives_restore saved hk t1 hs3
      have ha4 : InGrid (Solve.restore t1 saved).bw (Solve.restore t1 saved).bh a := by rw [hs4.1, hs4.2]; exact ha
      have hs5 : Sized w h ((Solve.restore t1 saved).setNumber a 0) := hs4
      have hl := ih _ hs5
      simp only
      cases e2 : Solve.bfLoop rec' path a cs ((Solve.restore t1 saved).setNumber a 0) with
      | none =>
        rw [e2] at hl
        exact g1.fails (g2.fails ((Gives.setNum ha4 0).fails hl))
      | some q2 =>
        obtain ⟨sols', t2⟩ := q2
        rw [e2] at hl
        exact ⟨g1.bind (g2.bind0 ((Gives.setNum ha4 0).bind0 hl.1)), hl.2⟩

theorem matches_doBruteforce {w h : Nat} (π : Solve.SetOrder) (fuel : Nat) : ∀ path s, Sized w h s →
    Matches w h (doBruteforce w h π fuel path) s (Solve.doBruteforce π fuel path s) := by
  induction fuel with
  | zero => intro path s _; exact Fails.raise _ _
  | succ fuel ih =>
    intro path s hs
    have hcells : ∀ b ∈ s.cells, InGrid s.bw s.bh b := fun b hb => (s.mem_cells).1 hb
    have he : ∀ b ∈ s.empty, InGrid s.bw s.bh b := fun b hb => hcells b (List.mem_of_mem_filter hb)
    have g1 := gives_emptyFields (s := s) s.cells hcells
    have g2 := gives_withKeys (s := s) s.empty he
    have hh := head_sorted s s.empty
    have head : ∀ {x : Option (List Sudoku × Sudoku)} {k : List (Cell × Nat) → Prog Unit},
        Matches w h (k (s.empty.map fun a => (a, (s.getCandidates a).card))) s x →
        Matches w h (do
          let es ← emptyFields s.cells
          let ks ← withKeys es
          k ks) s x := by
      intro x k hx
      cases x with
      | none => exact g1.fails (g2.fails hx)
      | some q => exact ⟨g1.bind0 (g2.bind0 hx.1), hx.2⟩
    rw [Solve.doBruteforce, doBruteforce, hs.new_cells]
    refine head ?_
    rw [hh]
    have hpick : Solve.pickEmpty s = (s.empty.insertionSort fun a b => (s.getCandidates a).card ≤ (s.getCandidates b).card).head? := rfl
    rw [← hpick]
    cases e : Solve.pickEmpty s with
    | none => exact ⟨Gives.give s, hs⟩
    | some a =>
      have ha : InGrid s.bw s.bh a := by
        rw [hpick] at e
        refine he a ?_
        rw [← List.mem_insertionSort fun a b => (s.getCandidates a).card ≤ (s.getCandidates b).card]
        exact List.mem_of_head? e
      have hb := matches_bfLoop (w := w) (h := h) ih path (a := a) (by rw [← hs.1, ← hs.2]; exact ha) (π path (s.getCandidates a)) s hs
      simp only [Option.map_some]
      revert hb
      cases Solve.bfLoop (Solve.doBruteforce π fuel) path a (π path (s.getCandidates a)) s with
      | none => intro hb; exact (Gives.getCands ha).fails hb
      | some q => intro hb; exact ⟨(Gives.getCands ha).bind0 hb.1, hb.2⟩

/-- What `bruteforce` does with its copy. -/
theorem runV_bruteforce {w h : Nat} (π : Solve.SetOrder) (fuel : Nat) {s : Sudoku} (hs : Sized w h s) :
    Matches w h (do initCandidates w h (Sudoku.new w h).cells; doBruteforce w h π fuel []) s
      (Solve.doBruteforce π fuel [] (Solve.initCandidates s)) := by
  have hcells : ∀ b ∈ s.cells, InGrid w h b := fun b hb => by rw [← hs.1, ← hs.2]; exact (s.mem_cells).1 hb
  have g1 := gives_initCandidates s.cells hcells s hs
  have e : s.cells.foldl (fun s a => s.setCandidates a (Solve.calcCandidates s a)) s = Solve.initCandidates s := by
    unfold Solve.initCandidates; simp
  rw [e] at g1
  have hs1 : Sized w h (Solve.initCandidates s) := by
    rw [← e]
    have : ∀ (l : List Cell) (t : Sudoku), Sized w h t → Sized w h (l.foldl (fun s a => s.setCandidates a (Solve.calcCandidates s a)) t) := by
      intro l
      induction l with
      | nil => intro t ht; exact ht
      | cons a l ih => intro t ht; exact ih _ ht
    exact this _ _ hs
  have hm := matches_doBruteforce π fuel [] _ hs1
  rw [hs.new_cells]
  revert hm
  cases Solve.doBruteforce π fuel [] (Solve.initCandidates s) with
  | none => intro hm; exact g1.fails hm
  | some q => intro hm; exact ⟨g1.bind0 hm.1, hm.2⟩

/-! ## The parts of `dlx` -/

/-- Writing a solution into a sudoku. -/
def written (s : Sudoku) (sol : List Dlx.Row) : Sudoku := sol.foldl (fun s (i : Dlx.Row) => s.setNumber (i.1, i.2.1) i.2.2) s

/-- Writing several solutions. -/
def after (s : Sudoku) (sols : List (List Dlx.Row)) : Sudoku := sols.foldl written s

theorem sized_written {w h : Nat} (sol : List Dlx.Row) : ∀ {s : Sudoku}, Sized w h s → Sized w h (written s sol) := by
  induction sol with
  | nil => intro s hs; exact hs
  | cons i l ih => intro s hs; exact ih (s := s.setNumber (i.1, i.2.1) i.2.2) hs

theorem sized_after {w h : Nat} (sols : List (List Dlx.Row)) : ∀ {s : Sudoku}, Sized w h s → Sized w h (after s sols) := by
  induction sols with
  | nil => intro s hs; exact hs
  | cons i l ih => intro s hs; exact ih (sized_written i hs)

theorem writeSolutions_append (l r : List (List Dlx.Row)) : ∀ s, Dlx.writeSolutions (l ++ r) s =
    Dlx.writeSolutions l s ++ Dlx.writeSolutions r (after s l) := by
  induction l with
  | nil => intro s; rfl
  | cons x l ih => intro s; simp only [List.cons_append, Dlx.writeSolutions]; rw [ih]; rfl

theorem after_append (l r : List (List Dlx.Row)) (s : Sudoku) : after s (l ++ r) = after (after s l) r := List.foldl_append

theorem gives_writeAll {w h : Nat} (sol : List Dlx.Row) (hl : ∀ i ∈ sol, InGrid w h (i.1, i.2.1)) : ∀ s, Sized w h s →
    Gives (writeAll sol) s [] () (written s sol) := by
  induction sol with
  | nil => intro s _; exact Gives.pure _ _
  | cons i l ih =>
    intro s hs
    have hi : InGrid s.bw s.bh (i.1, i.2.1) := by rw [hs.1, hs.2]; exact hl i (by simp)
    exact (Gives.setNum hi _).bind0 (ih (fun j hj => hl j (by simp [hj])) _ hs)

/-- What the search does, in terms of the model on values. -/
def MatchesX (p : Prog (Dlx.Dict Dlx.Col (List Dlx.Row))) (s : Sudoku) : Except PyErr (List (List Dlx.Row) × Dlx.Dict Dlx.Col (List Dlx.Row)) → Prop
  | .error e => Fails p s e
  | .ok (sols, X) => Gives p s (Dlx.writeSolutions sols s) X (after s sols)

theorem lookup_none {κ ν : Type} [DecidableEq κ] (d : List (κ × ν)) (k : κ) (h : ∀ p ∈ d, p.1 ≠ k) : List.lookup k d = none := by
  rw [List.lookup_eq_none_iff]
  intro p hp
  rw [bne_iff_ne]
  exact (h p hp).symm

theorem select_row {w h : Nat} {X : Dlx.Dict Dlx.Col (List Dlx.Row)} {r : Dlx.Row} {q : Dlx.Dict Dlx.Col (List Dlx.Row) × List (List Dlx.Row)}
    (e : Dlx.select X (Dlx.matrix h w) r = .ok q) : InGrid w h (r.1, r.2.1) := by
  have hm : r ∈ Dlx.rows (h * w) := by
    by_contra hn
    have : Dlx.Dict.get (Dlx.matrix h w) r = .error .KeyError := by
      refine Dlx.get_err ?_
      · refine lookup_none _ _ ?_
        rintro ⟨i, c⟩ hi
        unfold Dlx.matrix at hi
        rw [List.mem_map] at hi
        obtain ⟨j, hj, hji⟩ := hi
        rw [Prod.mk.injEq] at hji
        rintro rfl
        rw [hji.1] at hj
        exact hn hj
    unfold Dlx.select at e
    rw [this] at e
    cases e
  rw [Dlx.mem_rows] at hm
  unfold InGrid
  rw [Nat.mul_comm h w] at hm
  exact ⟨hm.1, hm.2.1⟩

theorem matches_searchLoop {w h : Nat}
    {rec : Dlx.Dict Dlx.Col (List Dlx.Row) → List Dlx.Row → Prog (Dlx.Dict Dlx.Col (List Dlx.Row))}
    {rec' : Dlx.Dict Dlx.Col (List Dlx.Row) → List Dlx.Row → Except PyErr (List (List Dlx.Row) × Dlx.Dict Dlx.Col (List Dlx.Row))}
    (hrec : ∀ X sol s, Sized w h s → (∀ i ∈ sol, InGrid w h (i.1, i.2.1)) → MatchesX (rec X sol) s (rec' X sol))
    (rs : List Dlx.Row) : ∀ X sol s, Sized w h s → (∀ i ∈ sol, InGrid w h (i.1, i.2.1)) →
    MatchesX (searchLoop rec (Dlx.matrix h w) rs X sol) s (Dlx.searchLoop rec' (Dlx.matrix h w) rs X sol) := by
  induction rs with
  | nil => intro X sol s _ _; exact Gives.pure _ _
  | cons r rs ih =>
    intro X sol s hs hsol
    rw [Dlx.searchLoop]
    cases e1 : Dlx.select X (Dlx.matrix h w) r with
    | error e => exact Fails.first (Fails.ofExcept e1 s)
    | ok q =>
      obtain ⟨X1, cols⟩ := q
      have hr := select_row e1
      have hsol' : ∀ i ∈ sol ++ [r], InGrid w h (i.1, i.2.1) := by
        intro i hi
        rcases List.mem_append.1 hi with hi | hi
        · exact hsol i hi
        · rw [List.mem_singleton] at hi; rw [hi]; exact hr
      have h1 := hrec X1 (sol ++ [r]) s hs hsol'
      simp only
      cases e2 : rec' X1 (sol ++ [r]) with
      | error e =>
        rw [e2] at h1
        exact (Gives.ofExcept e1 s).fails (Fails.first h1)
      | ok q2 =>
        obtain ⟨sols, X2⟩ := q2
        rw [e2] at h1
        simp only
        cases e3 : Dlx.deselect X2 (Dlx.matrix h w) r cols with
        | error e => exact (Gives.ofExcept e1 s).fails (Gives.fails h1 (Fails.first (Fails.ofExcept e3 _)))
        | ok X3 =>
          have h2 := ih X3 sol (after s sols) (sized_after sols hs) hsol
          simp only
          cases e4 : Dlx.searchLoop rec' (Dlx.matrix h w) rs X3 sol with
          | error e =>
            rw [e4] at h2
            exact (Gives.ofExcept e1 s).fails (Gives.fails h1 ((Gives.ofExcept e3 _).fails h2))
          | ok q4 =>
            obtain ⟨sols', X4⟩ := q4
            rw [e4] at h2
            show Gives _ s (Dlx.writeSolutions (sols ++ sols') s) X4 (after s (sols ++ sols'))
            rw [writeSolutions_append, after_append]
            exact (Gives.ofExcept e1 s).bind0 (Gives.bind h1 ((Gives.ofExcept e3 _).bind0 h2))

theorem matches_search {w h : Nat} (π : Dlx.Orders) (fuel : Nat) : ∀ X sol s, Sized w h s → (∀ i ∈ sol, InGrid w h (i.1, i.2.1)) →
    MatchesX (search π (Dlx.matrix h w) fuel X sol) s (Dlx.search π (Dlx.matrix h w) fuel X sol) := by
  induction fuel with
  | zero => intro X sol s _ _; exact Fails.raise _ _
  | succ fuel ih =>
    intro X sol s hs hsol
    rw [Dlx.search, search]
    cases Dlx.minKey X (π.keys sol (X.map Prod.fst)) with
    | none => exact (gives_writeAll sol hsol s hs).bind0 ((Gives.give _).bind (Gives.pure _ _))
    | some c =>
      simp only
      cases e : Dlx.Dict.get X c with
      | error e' => exact Fails.first (Fails.ofExcept rfl s)
      | ok rs =>
        have hl := matches_searchLoop ih (π.rows sol rs) X sol s hs hsol
        simp only
        revert hl
        cases Dlx.searchLoop (Dlx.search π (Dlx.matrix h w) fuel) (Dlx.matrix h w) (π.rows sol rs) X sol with
        | error e' => intro hl; exact (Gives.ofExcept rfl s).fails hl
        | ok q => intro hl; exact (Gives.ofExcept rfl s).bind0 hl

theorem gives_selectGiven {w h : Nat} (hs : Sized w h s) (Y : Dlx.Dict Dlx.Row (List Dlx.Col)) (l : List Cell) (hl : ∀ b ∈ l, InGrid w h b) :
    ∀ X, match Dlx.selectGiven s Y l X with
      | .error e => Fails (selectGiven Y l X) s e
      | .ok r => Gives (selectGiven Y l X) s [] r s := by
  induction l with
  | nil => intro X; exact Gives.pure _ _
  | cons a l ih =>
    intro X
    have ih := ih fun b hb => hl b (by simp [hb])
    have ha : InGrid s.bw s.bh a := by rw [hs.1, hs.2]; exact hl a (by simp)
    have g := Gives.getNum (s := s) ha
    rw [Dlx.selectGiven]
    by_cases e : s.get a = 0
    · rw [if_neg (by simpa using e)]
      have hx := ih X
      revert hx
      have hif : ∀ x : Prog (Option (Dlx.Dict Dlx.Col (List Dlx.Row))), (if s.get a ≠ 0 then x else selectGiven Y l X) = selectGiven Y l X :=
        fun x => if_neg (by simpa using e)
      cases Dlx.selectGiven s Y l X with
      | error e' => intro hx; exact g.fails (by simpa only [hif] using hx)
      | ok r => intro hx; exact g.bind0 (by simpa only [hif] using hx)
    · rw [if_pos e]
      cases e1 : Dlx.select X Y (a.1, a.2, s.get a) with
      | error e' =>
        by_cases hk : e' = .KeyError
        · subst hk
          exact g.bind0 (by rw [if_pos e, e1]; exact Gives.pure _ _)
        · have hf : Fails (selectGiven Y (a :: l) X) s e' := by
            refine g.fails ?_
            rw [if_pos e, e1]
            cases e' <;> first | exact Fails.raise _ _ | exact absurd rfl hk
          cases e' <;> first | exact hf | exact absurd rfl hk
      | ok q =>
        obtain ⟨X1, cols⟩ := q
        have hx := ih X1
        simp only
        revert hx
        cases Dlx.selectGiven s Y l X1 with
        | error e' => intro hx; exact g.fails (by rw [if_pos e, e1]; exact hx)
        | ok r => intro hx; exact g.bind0 (by rw [if_pos e, e1]; exact hx)

/-- What `dlx` does with its copy. -/
theorem runV_dlx {s : Sudoku} (π : Dlx.Orders) (fuel : Nat) (hc : s.copy = s) :
    match Dlx.dlx π fuel s with
      | .error e => Fails (doDlx s.bw s.bh π fuel) s e
      | .ok sols => ∃ t, Gives (doDlx s.bw s.bh π fuel) s sols () t := by
  have hs : Sized s.bw s.bh s := ⟨rfl, rfl⟩
  have hcells : ∀ b ∈ s.cells, InGrid s.bw s.bh b := fun b hb => (s.mem_cells).1 hb
  unfold Dlx.dlx doDlx
  rw [hc, hs.new_cells]
  simp only
  cases e1 : Dlx.exactCover (Dlx.columns (s.bh * s.bw)) (Dlx.matrix s.bh s.bw) with
  | error e => exact Fails.first (Fails.ofExcept rfl s)
  | ok X =>
    have g1 : Gives (ofExcept (.ok X)) s [] X s := Gives.ofExcept rfl s
    have h2 := gives_selectGiven hs (Dlx.matrix s.bh s.bw) s.cells hcells X
    simp only
    revert h2
    cases Dlx.selectGiven s (Dlx.matrix s.bh s.bw) s.cells X with
    | error e => intro h2; exact g1.fails (Fails.first h2)
    | ok r =>
      intro h2
      cases r with
      | none => exact ⟨s, g1.bind0 (Gives.bind0 h2 (Gives.pure _ _))⟩
      | some X1 =>
        have h3 := matches_search (w := s.bw) (h := s.bh) π fuel X1 [] s hs (by simp)
        simp only
        revert h3
        cases Dlx.search π (Dlx.matrix s.bh s.bw) fuel X1 [] with
        | error e => intro h3; exact g1.fails (Gives.fails h2 (Fails.first h3))
        | ok q =>
          intro h3
          refine ⟨after s q.1, ?_⟩
          have : Gives (do let _ ← search π (Dlx.matrix s.bh s.bw) fuel X1 []; return) s (Dlx.writeSolutions q.1 s) () (after s q.1) := by
            have := Gives.bind (f := fun _ => (Pure.pure () : Prog Unit)) h3 (Gives.pure () (after s q.1))
            rw [List.append_nil] at this
            exact this
          exact g1.bind0 (Gives.bind0 h2 this)

end Generators
