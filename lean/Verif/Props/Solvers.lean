import Verif.Proofs.Watch
import Verif.Props.Solve

set_option autoImplicit false

/-!
# Properties of `solvers.py` and of `rate`, `score` (C23 - C33, C55, C56, C58)

`Contains s g`: `g` solves the numbers of `s`, and the candidates of each field contain `g`'s value.
`watch next`: someone who looks at each step found and then lets `next` change the sudoku, before the search goes on;
`KeepsSolution g next` says that this keeps `g` whenever applying the step does.  `leave` (only looking) and `applyNow`
(applying each step at once) are instances.
-/

open Spec Solvers

namespace Props

theorem keeps_leave (g : Grid) : KeepsSolution g leave := Solvers.keeps_leave g
theorem keeps_applyNow (g : Grid) : KeepsSolution g applyNow := Solvers.keeps_applyNow g

/-- Sets in increasing order, dictionaries in the order of insertion. -/
def plainWatch (W : Type) : Orders W := ⟨fun _ _ _ S => sortSet S, fun _ _ _ l => l, fun _ => plainOrders⟩

theorem plainWatch_ok (W : Type) : (plainWatch W).Ok := by
  refine ⟨fun _ _ _ S => ⟨?_, fun x => mem_sortSet⟩, fun _ _ _ _ => List.Perm.refl _,
    fun _ => ⟨fun _ _ => List.Perm.refl _, fun _ _ => List.Perm.refl _⟩⟩
  obtain ⟨l, hl, rfl⟩ := exists_list S
  show (sortSet ⟨(l : Multiset Int), hl⟩).Nodup
  rw [sortSet_coe]
  exact (List.perm_insertionSort _ l).nodup_iff.2 hl

instance (s : Sudoku) (g : Grid) : Decidable (Contains s g) := inferInstanceAs (Decidable (_ ∧ _))

/-- For the examples: an empty 4x4 sudoku with the given candidates in some fields and all candidates in the others. -/
def withCands (l : List (Cell × Finset Int)) : Sudoku :=
  { Sudoku.new 2 2 with cand := fun a => ((l.find? fun p => p.1 == a).map Prod.snd).getD {1, 2, 3, 4} }

/-- For the examples: clues, affected fields and values of the steps found by a class. -/
def found (k : Kind) (s : Sudoku) : Option (List (List Cell × List Cell × List Int)) :=
  (find Prod.fst (watch leave) (plainWatch Watch) 20 k (s, [])).toOption.map fun y =>
    y.2.map fun p => (p.2.clues, p.2.affected, p.2.values)

def exNakedSingle := withCands [((0, 0), {1})]
def exHiddenSingle := withCands [((0, 1), {2, 3, 4}), ((0, 2), {2, 3}), ((0, 3), {2, 4})]
def exNakedTuple := withCands [((0, 0), {1, 2}), ((0, 1), {1, 2})]
def exHiddenTuple := withCands [((0, 2), {3, 4}), ((0, 3), {3, 4}), ((1, 2), {1, 2})]
def exPointing := withCands [((1, 0), {2, 3, 4}), ((1, 1), {2, 3, 4})]
def exFish := withCands [((0, 2), {2, 3, 4}), ((0, 3), {2, 3, 4}), ((3, 2), {2, 3, 4}), ((3, 3), {2, 3, 4})]

/-- The common form of C23 - C27. -/
private theorem watched {g : Grid} {next : Watch → Step → Sudoku} (hn : KeepsSolution g next) {π : Orders Watch} (hπ : π.Ok)
    {k : Kind} (hk : k ≠ .bruteforce) (s : Sudoku) (hg : Contains s g) :
    ∃ y : Watch, find Prod.fst (watch next) π 0 k (s, []) = .ok y ∧
      Contains y.1 g ∧ ∀ p ∈ y.2, Seen g s.bw s.bh p ∧ p.2.kind = k := by
  obtain ⟨y, h1, -, -, h2, h3⟩ := watch_find hn hπ 0 hk s hg [] (fun p => Seen g s.bw s.bh p ∧ p.2.kind = k)
    (fun p hp e => ⟨hp, e⟩) (by simp)
  exact ⟨y, h1, h2, h3⟩

/-! ## C23 -/

private theorem single_of {g : Grid} {w h : Nat} {p : Sudoku × Step} (hs : Seen g w h p) {k : Kind} (hk : p.2.kind = k)
    (hf : k.Fills) : ∃ a, InGrid w h a ∧ p.1.get a = 0 ∧ p.2 = Step.single k a (g a) ∧
      (Step.apply p.1 p.2).get a = g a ∧ Contains (Step.apply p.1 p.2) g := by
  obtain ⟨hu1, hu2⟩ := hs.useful
  have ht := hs.truth
  unfold TrueOf at ht
  rw [hk] at hu2 ht
  have key : ∀ a v, p.2.clues = [a] → p.2.affected = [a] → p.2.values = [v] → p.1.num a = 0 → g a = v →
      ∃ a, InGrid w h a ∧ p.1.get a = 0 ∧ p.2 = Step.single k a (g a) ∧
      (Step.apply p.1 p.2).get a = g a ∧ Contains (Step.apply p.1 p.2) g := by
    intro a v e1 e2 e3 e4 hv
    have ha : InGrid p.1.bw p.1.bh a := hu1 a (by rw [e2]; simp)
    refine ⟨a, by rw [← hs.bw, ← hs.bh]; exact ha, e4, ?_, ?_, contains_apply (Useful.shape hs.useful) hs.truth hs.cons⟩
    · rw [hv]
      obtain ⟨q, ⟨k, c, f, u⟩⟩ := p
      simp only at hk e1 e2 e3
      subst hk e1 e2 e3
      rfl
    · rw [apply_single p.1 (by rw [hk]; exact hf) ha e2 e3]
      simp [Sudoku.get, hv]
  rcases hf with rfl | rfl | rfl <;>
  · simp only at hu2 ht
    obtain ⟨a, v, e1, e2, e3, e4, -⟩ := hu2
    exact key a v e1 e2 e3 e4 (ht a (by rw [e2]; simp) v (by rw [e3]; simp))

/-- **C23** Each `NakedSingle` step names an empty field `a` of the grid and the value of `g` there; applying it writes that
value and keeps `g`. -/
theorem C23_naked_single (s : Sudoku) (g : Grid) (hg : Contains s g) (next : Watch → Step → Sudoku)
    (hn : KeepsSolution g next) :
    ∀ p ∈ (findNakedSingle Prod.fst (watch next) (s, [])).2, ∃ a, InGrid s.bw s.bh a ∧ p.1.get a = 0 ∧
      p.2 = Step.single .nakedSingle a (g a) ∧ (Step.apply p.1 p.2).get a = g a ∧ Contains (Step.apply p.1 p.2) g := by
  intro p hp
  obtain ⟨y, h1, -, h3⟩ := watched hn (plainWatch_ok _) (k := .nakedSingle) (by decide) s hg
  simp only [find, Except.ok.injEq] at h1
  rw [h1] at hp
  exact single_of (h3 p hp).1 (h3 p hp).2 (by decide)

/-- **C23** The same for `HiddenSingle`, for each order in which Python visits the set of candidates. -/
theorem C23_hidden_single (s : Sudoku) (g : Grid) (hg : Contains s g) (next : Watch → Step → Sudoku)
    (hn : KeepsSolution g next) (π : Orders Watch) (hπ : π.Ok) :
    ∀ p ∈ (findHiddenSingle Prod.fst (watch next) π (s, [])).2, ∃ a, InGrid s.bw s.bh a ∧ p.1.get a = 0 ∧
      p.2 = Step.single .hiddenSingle a (g a) ∧ (Step.apply p.1 p.2).get a = g a ∧ Contains (Step.apply p.1 p.2) g := by
  intro p hp
  obtain ⟨y, h1, -, h3⟩ := watched hn hπ (k := .hiddenSingle) (by decide) s hg
  simp only [find, Except.ok.injEq] at h1
  rw [h1] at hp
  exact single_of (h3 p hp).1 (h3 p hp).2 (by decide)

example : Contains exNakedSingle solved4.get ∧ found .nakedSingle exNakedSingle = some [([(0, 0)], [(0, 0)], [1])] := by
  decide +kernel
example : Contains exHiddenSingle solved4.get ∧ found .hiddenSingle exHiddenSingle = some [([(0, 0)], [(0, 0)], [1])] := by
  decide +kernel

/-! ## C24 - C27 -/

/-- From `s` to `t` only candidates that `g` does not use are removed, nothing else changes. -/
structure SafeRemoval (g : Grid) (s t : Sudoku) : Prop where
  shape : t.bw = s.bw ∧ t.bh = s.bh
  numbers : t.num = s.num
  less : ∀ a, t.cand a ⊆ s.cand a
  unused : ∀ a v, v ∈ s.cand a → v ∉ t.cand a → g a ≠ v

private theorem safe_of {g : Grid} {w h : Nat} {p : Sudoku × Step} (hs : Seen g w h p) {k : Kind} (hk : p.2.kind = k)
    (hc : k ≠ .calculateCandidates ∧ ¬ k.Fills) : SafeRemoval g p.1 (Step.apply p.1 p.2) ∧ Contains (Step.apply p.1 p.2) g := by
  refine ⟨?_, contains_apply (Useful.shape hs.useful) hs.truth hs.cons⟩
  rcases effect (Useful.shape hs.useful) with ⟨c, hk', -⟩ | ⟨c, v, hk', -⟩ | ⟨R, -, e, truth, -⟩
  · exact absurd (hk ▸ hk') hc.1
  · exact absurd (hk ▸ hk') hc.2
  · rw [e]
    refine ⟨⟨rfl, rfl⟩, rfl, fun a => Finset.sdiff_subset, fun a v h1 h2 e => ?_⟩
    have := truth g hs.truth a
    rw [e] at this
    exact h2 (Finset.mem_sdiff.2 ⟨h1, this⟩)

/-- **C24** `NakedTuple` for every size `n`. -/
theorem C24_naked_tuple (n : Nat) (s : Sudoku) (g : Grid) (hg : Contains s g) (next : Watch → Step → Sudoku)
    (hn : KeepsSolution g next) :
    ∀ p ∈ (findNakedTuple Prod.fst (watch next) n (s, [])).2,
      p.2.kind = .nakedTuple n ∧ SafeRemoval g p.1 (Step.apply p.1 p.2) ∧ Contains (Step.apply p.1 p.2) g := by
  intro p hp
  obtain ⟨y, h1, -, h3⟩ := watched hn (plainWatch_ok _) (k := .nakedTuple n) (by simp) s hg
  simp only [find, Except.ok.injEq] at h1
  rw [h1] at hp
  exact ⟨(h3 p hp).2, safe_of (h3 p hp).1 (h3 p hp).2 (by simp [Kind.Fills])⟩

example : Contains exNakedTuple solved4.get ∧
    found (.nakedTuple 2) exNakedTuple = some [([(0, 0), (0, 1)], [(0, 2), (0, 3)], [1, 2])] := by decide +kernel

/-- **C25** `HiddenTuple` for every size `n`. -/
theorem C25_hidden_tuple (n : Nat) (s : Sudoku) (g : Grid) (hg : Contains s g) (next : Watch → Step → Sudoku)
    (hn : KeepsSolution g next) :
    ∀ p ∈ (findHiddenTuple Prod.fst (watch next) n (s, [])).2,
      p.2.kind = .hiddenTuple n ∧ SafeRemoval g p.1 (Step.apply p.1 p.2) ∧ Contains (Step.apply p.1 p.2) g := by
  intro p hp
  obtain ⟨y, h1, -, h3⟩ := watched hn (plainWatch_ok _) (k := .hiddenTuple n) (by simp) s hg
  simp only [find, Except.ok.injEq] at h1
  rw [h1] at hp
  exact ⟨(h3 p hp).2, safe_of (h3 p hp).1 (h3 p hp).2 (by simp [Kind.Fills])⟩

/-- Each hidden tuple is reported once per field (`for (row, col) in max_set`) if the steps are not applied. -/
example : Contains exHiddenTuple solved4.get ∧
    found (.hiddenTuple 2) exHiddenTuple = some
      [([(0, 0), (0, 1), (0, 2), (0, 3)], [(0, 0), (0, 1)], [1, 2]), ([(0, 0), (0, 1), (0, 2), (0, 3)], [(0, 0), (0, 1)], [1, 2]),
       ([(0, 2), (0, 3), (1, 2), (1, 3)], [(1, 3)], [1, 2]), ([(0, 2), (0, 3), (1, 2), (1, 3)], [(1, 3)], [1, 2])] := by
  decide +kernel

/-- **C26** `PointingTuple` for every size `n`, both directions, all box shapes. -/
theorem C26_pointing_tuple (n : Nat) (s : Sudoku) (g : Grid) (hg : Contains s g) (next : Watch → Step → Sudoku)
    (hn : KeepsSolution g next) :
    ∀ p ∈ (findPointing Prod.fst (watch next) n (s, [])).2,
      p.2.kind = .pointingTuple n ∧ SafeRemoval g p.1 (Step.apply p.1 p.2) ∧ Contains (Step.apply p.1 p.2) g := by
  intro p hp
  obtain ⟨y, h1, -, h3⟩ := watched hn (plainWatch_ok _) (k := .pointingTuple n) (by simp) s hg
  simp only [find, Except.ok.injEq] at h1
  rw [h1] at hp
  exact ⟨(h3 p hp).2, safe_of (h3 p hp).1 (h3 p hp).2 (by simp [Kind.Fills])⟩

example : Contains exPointing solved4.get ∧
    found (.pointingTuple 2) exPointing =
      some [([(0, 0), (0, 1)], [(0, 2), (0, 3)], [1]), ([(1, 2), (1, 3)], [(0, 2), (0, 3)], [1])] := by decide +kernel

/-- **C27** `BasicFish` for every size `n`, rows and columns. -/
theorem C27_basic_fish (n : Nat) (s : Sudoku) (g : Grid) (hg : Contains s g) (next : Watch → Step → Sudoku)
    (hn : KeepsSolution g next) (π : Orders Watch) (hπ : π.Ok) :
    ∀ p ∈ (findFish Prod.fst (watch next) π n (s, [])).2,
      p.2.kind = .basicFish n ∧ SafeRemoval g p.1 (Step.apply p.1 p.2) ∧ Contains (Step.apply p.1 p.2) g := by
  intro p hp
  obtain ⟨y, h1, -, h3⟩ := watched hn hπ (k := .basicFish n) (by simp) s hg
  simp only [find, Except.ok.injEq] at h1
  rw [h1] at hp
  exact ⟨(h3 p hp).2, safe_of (h3 p hp).1 (h3 p hp).2 (by simp [Kind.Fills])⟩

example : Contains exFish solved4.get ∧
    found (.basicFish 2) exFish = some
      [([(0, 0), (0, 1), (3, 0), (3, 1)], [(1, 0), (1, 1), (2, 0), (2, 1)], [1]),
       ([(1, 2), (1, 3), (2, 2), (2, 3)], [(1, 0), (1, 1), (2, 0), (2, 1)], [1])] := by decide +kernel

/-! ## C28 -/

/-- Some candidate is removed, nothing is added, the numbers stay. -/
def Shrinks (s t : Sudoku) : Prop :=
  t.num = s.num ∧ (∀ a, t.cand a ⊆ s.cand a) ∧ ∃ a, InGrid s.bw s.bh a ∧ t.cand a ≠ s.cand a

/-- **C28** Tuples, pointing tuples and fishes: for every sudoku, whatever the candidates are and whatever happens to the
sudoku between the steps. -/
theorem C28_removals (k : Kind) (hk : ∃ n, k = .nakedTuple n ∨ k = .hiddenTuple n ∨ k = .pointingTuple n ∨ k = .basicFish n)
    (s : Sudoku) (next : Watch → Step → Sudoku) (hn : ∀ x st, (next x st).bw = x.1.bw ∧ (next x st).bh = x.1.bh)
    (π : Orders Watch) (hπ : π.Ok) (fuel : Nat) :
    ∃ y : Watch, find Prod.fst (watch next) π fuel k (s, []) = .ok y ∧
      ∀ p ∈ y.2, p.2.kind = k ∧ Shrinks p.1 (Step.apply p.1 p.2) := by
  have hb : k ≠ .bruteforce := by rintro rfl; simp at hk
  obtain ⟨y, h1, h2⟩ := watch_useful hn hπ fuel hb s
  refine ⟨y, h1, fun p hp => ?_⟩
  obtain ⟨-, -, h3, h4⟩ := h2 p hp
  refine ⟨h3, ?_⟩
  rcases effect (Useful.shape h4) with ⟨c, hk', -⟩ | ⟨c, v, hk', -⟩ | ⟨R, -, e, -, hus⟩
  · rw [h3] at hk'; subst hk'; simp at hk
  · rw [h3] at hk'; rcases hk' with rfl | rfl | rfl <;> simp at hk
  · obtain ⟨a, ha, v, hv, hc⟩ := hus h4
    rw [e]
    refine ⟨rfl, fun a => Finset.sdiff_subset, a, ha, fun e => ?_⟩
    simp only at e
    rw [← e, Finset.mem_sdiff] at hc
    exact hc.2 hv

/-- **C28** Singles: for every sudoku; an empty field gets a candidate of its own (`NakedSingle`) or a number from 1 to N. -/
theorem C28_singles (k : Kind) (hk : k = .nakedSingle ∨ k = .hiddenSingle)
    (s : Sudoku) (next : Watch → Step → Sudoku) (hn : ∀ x st, (next x st).bw = x.1.bw ∧ (next x st).bh = x.1.bh)
    (π : Orders Watch) (hπ : π.Ok) (fuel : Nat) :
    ∃ y : Watch, find Prod.fst (watch next) π fuel k (s, []) = .ok y ∧
      ∀ p ∈ y.2, ∃ a v, InGrid s.bw s.bh a ∧ p.1.get a = 0 ∧ (v ∈ p.1.getCandidates a ∨ IsNumber s.bw s.bh v) ∧
        ∀ b, (Step.apply p.1 p.2).get b = if b = a then v else p.1.get b := by
  have hb : k ≠ .bruteforce := by rintro rfl; simp at hk
  obtain ⟨y, h1, h2⟩ := watch_useful hn hπ fuel hb s
  refine ⟨y, h1, fun p hp => ?_⟩
  obtain ⟨hw, hh, h3, h4⟩ := h2 p hp
  rcases effect (Useful.shape h4) with ⟨c, hk', -⟩ | ⟨c, v, hk', hc, e, -, hus⟩ | ⟨R, hk', -⟩
  · rw [h3] at hk'; subst hk'; simp at hk
  · obtain ⟨h5, h6⟩ := hus h4
    rw [hw, hh] at h6 hc
    refine ⟨c, v, hc, h5, h6, fun b => ?_⟩
    rw [e]; rfl
  · rw [h3] at hk'; rcases hk with rfl | rfl <;> exact absurd (by decide) hk'.2

/-- Any finite set of fields may be overwritten between the steps. -/
example : ∀ (x : Watch) (_ : Step), (x.1.setCandidates (0, 1) ∅).bw = x.1.bw ∧ (x.1.setCandidates (0, 1) ∅).bh = x.1.bh :=
  fun _ _ => ⟨rfl, rfl⟩

/-! ## C29 -/

/-- **C29** Every hint is true of every solution contained in the candidates, whatever is done in between. -/
theorem C29_true (s : Sudoku) (g : Grid) (hg : Contains s g) (next : Watch → Step → Sudoku) (hn : KeepsSolution g next)
    (π : Orders Watch) (hπ : π.Ok) : ∀ p ∈ (hints Prod.fst (watch next) π (s, [])).2, TrueOf g p.2 ∧ Useful p.1 p.2 :=
  fun p hp => ⟨(watch_hints hn hπ s hg p hp).1.truth, (watch_hints hn hπ s hg p hp).1.useful⟩

/-- **C29** Hints can be collected and then applied in any order and selection, even repeatedly, without losing a solution. -/
theorem C29_any_order (s : Sudoku) (π : Orders Watch) (hπ : π.Ok) (l : List Step)
    (hl : ∀ st ∈ l, ∃ t, (t, st) ∈ (hints Prod.fst (watch leave) π (s, [])).2) (g : Grid) (hg : Contains s g) :
    Contains (l.foldl Step.apply s) g := by
  refine contains_foldl hg l fun st hst => ?_
  obtain ⟨t, ht⟩ := hl st hst
  have h := (watch_hints (keeps_leave g) hπ s hg _ ht).1
  refine ⟨?_, h.truth⟩
  have := Useful.shape h.useful
  rw [h.bw, h.bh] at this
  exact this

/-- Nine hints, among them one for a naked pair. -/
example : ((hints Prod.fst (watch leave) (plainWatch Watch) (exNakedTuple, [])).2.map fun p => p.2.kind) =
    [.nakedTuple 2, .hiddenTuple 2, .hiddenTuple 2, .hiddenTuple 2, .hiddenTuple 2, .pointingTuple 2, .pointingTuple 2,
     .pointingTuple 2, .pointingTuple 2] := by decide +kernel

/-! ## C30 -/

/-- **C30** For a solvable sudoku `solve` terminates without exception (with enough recursion depth for `dlx`, see C57) and
returns a completely filled, conflict-free sudoku of the same shape extending `s`.  The reported steps, applied to the copy
of `s`, give the result; they are of the classes in `SOLVERS` and at most `N + 1` per empty field.  `rounds` bounds the rounds of the `while` loop; any larger bound gives the same result. -/
theorem C30_solve (π : Orders Run) (hπ : π.Ok) (s : Sudoku) (hs : Solvable s.bw s.bh s.get) (fuel : Nat)
    (hf : s.empty.length < fuel) :
    ∃ t steps, (∀ rounds, s.empty.length * (s.bw * s.bh + 1) < rounds → solve π fuel rounds s = .ok (some (t, steps))) ∧
      IsSolution s.bw s.bh s.get t.get ∧ t.bw = s.bw ∧ t.bh = s.bh ∧
      t = steps.foldl Step.apply (Solve.initCandidates s.copy true) ∧ (∀ st ∈ steps, st.kind ∈ solvers) ∧
      steps.length ≤ s.empty.length * (s.bw * s.bh + 1) := by
  obtain ⟨w, h1, h2, h3, h4, h5, h6, -, h7⟩ := solve_spec hπ s hs fuel _ hf (Nat.lt_succ_self _)
  refine ⟨w.1, w.2, fun rounds hr => ?_, h2, h3, h4, h5, h6, h7⟩
  exact loop_mono h1 _ hr

/-- **C30** If there is only one solution, `solve` returns it. -/
theorem C30_unique (π : Orders Run) (hπ : π.Ok) (s : Sudoku) (g : Grid) (hg : IsSolution s.bw s.bh s.get g)
    (hu : ∀ g', IsSolution s.bw s.bh s.get g' → SameGrid s.bw s.bh g g') (fuel rounds : Nat) (hf : s.empty.length < fuel)
    (hr : s.empty.length * (s.bw * s.bh + 1) < rounds) :
    ∃ t steps, solve π fuel rounds s = .ok (some (t, steps)) ∧ ∀ a, InGrid s.bw s.bh a → t.get a = g a := by
  obtain ⟨t, steps, h1, h2, -⟩ := C30_solve π hπ s ⟨g, hg⟩ fuel hf
  exact ⟨t, steps, h1 rounds hr, fun a ha => (hu t.get h2 a ha).symm⟩

/-- **C30** Whenever `solve` returns (any sudoku, any number of rounds), the result is a solution or there is none. -/
theorem C30_returns (π : Orders Run) (hπ : π.Ok) (s : Sudoku) (fuel rounds : Nat) (hf : s.empty.length < fuel) (t : Sudoku)
    (steps : List Step) (h : solve π fuel rounds s = .ok (some (t, steps))) :
    IsSolution s.bw s.bh s.get t.get ∨ ¬ Solvable s.bw s.bh s.get := by
  by_cases hs : Solvable s.bw s.bh s.get
  · left
    obtain ⟨t', steps', h1, h2, -⟩ := C30_solve π hπ s hs fuel hf
    have h3 := h1 (rounds + (s.empty.length * (s.bw * s.bh + 1) + 1)) (by omega)
    have h4 := loop_mono h (rounds + (s.empty.length * (s.bw * s.bh + 1) + 1)) (by omega)
    unfold solve at h3
    rw [h4] at h3
    cases h3
    exact h2
  · exact Or.inr hs

/-- A 4x4 sudoku with two clues and several solutions. -/
def twoClues : Sudoku := ((Sudoku.new 2 2).setNumber (0, 2) 3).setNumber (1, 0) 3
example : Solvable twoClues.bw twoClues.bh twoClues.get := ⟨solved4.get, by decide +kernel⟩
example : twoClues.empty.length < 15 ∧ (twoClues.bw * twoClues.bh) ^ 2 * (twoClues.bw * twoClues.bh + 2) < 97 := by decide +kernel
/-- A 2x2 sudoku with one clue has exactly one solution; `solve` fills three fields. -/
example : (solve (plainWatch Run) 5 30 ((Sudoku.new 2 1).setNumber (0, 1) 1)).toOption.map (Option.map fun w =>
    (w.1.get (0, 0), w.1.get (1, 0), (w.2.filter fun st => decide st.kind.Fills).length)) = some (some (2, 1, 3)) := by
  decide +kernel

/-! ## C31 -/

/-- **C31** `solve` does not terminate if some empty field sees all numbers: it is never finished, for no number of rounds;
neither are `rate` and `score`. -/
theorem C31_never_ends (π : Orders Run) (s : Sudoku) (a : Cell) (ha : InGrid s.bw s.bh a) (h0 : s.get a = 0)
    (hno : ∀ v, IsNumber s.bw s.bh v → ∃ b, InGrid s.bw s.bh b ∧ Peer s.bw s.bh a b ∧ s.get b = v) (fuel rounds : Nat) :
    solve π fuel rounds s = .ok none ∧ rate π fuel rounds s = .ok none ∧ score π fuel rounds s = .ok none := by
  have key : solve π fuel rounds s = .ok none := by
    unfold solve
    have hb : (Solve.initCandidates s.copy true).bw = s.bw := by rw [start_eq]
    have hh : (Solve.initCandidates s.copy true).bh = s.bh := by rw [start_eq]
    refine calc_forever (s0 := Solve.initCandidates s.copy true) (a := a) (by rw [hb, hh]; exact ha) ?_ π fuel rounds _ rfl rfl rfl ?_
    · ext v
      rw [Solve.mem_calc_empty (by rw [hb, hh]; exact ha) (by rw [start_eq]; simpa [ha, Sudoku.get] using h0)]
      unfold Solve.Admissible
      rw [hb, hh]
      simp only [Finset.notMem_empty, iff_false, not_and]
      intro hv hadm
      obtain ⟨b, hb1, hb2, hb3⟩ := hno v hv
      refine hadm b hb1 hb2 ?_
      rw [start_eq]; simpa [hb1, Sudoku.get] using hb3
    · rw [start_eq]
      have : ¬ (InGrid s.bw s.bh a ∧ s.num a ≠ 0) := fun h => h.2 h0
      simp only [if_neg this]
  refine ⟨key, ?_, ?_⟩
  · unfold rate; rw [key]
  · unfold score; rw [key]

/-- A 2x2 sudoku (boxes of width 1 and height 2) whose fields (0, 1) and (1, 0) see both numbers. -/
def stuck : Sudoku := ((Sudoku.new 1 2).setNumber (0, 0) 1).setNumber (1, 1) 2

/-- **C31** The hypotheses are met. -/
theorem C31_witness (π : Orders Run) (fuel rounds : Nat) : solve π fuel rounds stuck = .ok none := by
  refine (C31_never_ends π stuck (0, 1) (by decide) (by decide) ?_ fuel rounds).1
  rintro v ⟨h1, h2⟩
  have h2' : v ≤ 2 := h2
  interval_cases v
  · exact ⟨(0, 0), by decide, by decide, by decide⟩
  · exact ⟨(1, 1), by decide, by decide, by decide⟩

/-! ## C32, C33 -/

/-- All fields are filled. -/
def Full (s : Sudoku) : Prop := ∀ a, InGrid s.bw s.bh a → s.get a ≠ 0

private theorem full_iff (s : Sudoku) : Full s ↔ s.empty.length = 0 := by
  rw [List.length_eq_zero_iff]
  unfold Sudoku.empty Full
  rw [List.filter_eq_nil_iff]
  constructor
  · intro h a ha; rw [Sudoku.mem_cells] at ha; simpa using h a ha
  · intro h a ha; simpa using h a ((Sudoku.mem_cells _).2 ha)

private theorem mem_of_filter {l : List Step} (h : 0 < (l.filter fun st => decide st.kind.Fills).length) :
    ∃ st ∈ l, st.kind.Fills := by
  obtain ⟨st, hst⟩ := List.exists_mem_of_length_pos h
  rw [List.mem_filter] at hst
  exact ⟨st, hst.1, of_decide_eq_true hst.2⟩

/-- **C32** `rate` of a solvable sudoku: between 0 and 7 or 10, 0 exactly if all fields are filled, 10 exactly if `Bruteforce` was
used. -/
theorem C32_rate (π : Orders Run) (hπ : π.Ok) (s : Sudoku) (hs : Solvable s.bw s.bh s.get) (fuel rounds : Nat)
    (hf : s.empty.length < fuel) (hr : s.empty.length * (s.bw * s.bh + 1) < rounds) :
    ∃ r t steps, solve π fuel rounds s = .ok (some (t, steps)) ∧ rate π fuel rounds s = .ok (some r) ∧ (r ≤ 7 ∨ r = 10) ∧
      (r = 0 ↔ Full s) ∧ (r = 10 ↔ ∃ st ∈ steps, st.kind = .bruteforce) := by
  obtain ⟨w, h1, -, -, -, -, h2, h3, h4⟩ := solve_spec hπ s hs fuel rounds hf hr
  have hrat := ratings_ok w.2 h2
  refine ⟨if (w.2.map fun st => (rating st.kind).getD 0) = [] then 0 else
    maxList (w.2.map fun st => (rating st.kind).getD 0), w.1, w.2, h1, by unfold rate; rw [h1]; simp only; rw [hrat], ?_⟩
  have hmem : ∀ r, r ∈ w.2.map (fun st => (rating st.kind).getD 0) → ∃ st ∈ w.2, rating st.kind = some r ∧ r ≤ 10 ∧
      (r = 0 ↔ st.kind = .calculateCandidates) ∧ (r = 10 ↔ st.kind = .bruteforce) ∧ (st.kind.Fills → 1 ≤ r) := by
    intro r hr
    obtain ⟨st, hst, e⟩ := List.mem_map.1 hr
    obtain ⟨r', k1, k2⟩ := rating_solvers st.kind (h2 st hst)
    rw [k1] at e
    simp only [Option.getD_some] at e
    subst e
    exact ⟨st, hst, k1, k2⟩
  by_cases hnil : w.2 = []
  · have : s.empty.length = 0 := by rw [← h3, hnil]; simp
    simp only [hnil, List.map_nil, if_true]
    refine ⟨Or.inl (by omega), ⟨fun _ => (full_iff s).2 this, fun _ => trivial⟩, by simp⟩
  · have hnil' : w.2.map (fun st => (rating st.kind).getD 0) ≠ [] := by simpa using hnil
    rw [if_neg hnil']
    obtain ⟨st, hst, k1, k2, k3, k4, k5⟩ := hmem _ (maxList_mem hnil')
    have k6 := (rating_le st.kind (h2 st hst)).2.2
    rw [k1] at k6
    refine ⟨k6, ?_, ?_⟩
    · constructor
      · intro h0
        rw [full_iff, ← h3]
        by_contra hpos
        obtain ⟨st', hst', hf'⟩ := mem_of_filter (Nat.pos_of_ne_zero hpos)
        obtain ⟨r', e1, -, -, -, e2⟩ := rating_solvers st'.kind (h2 st' hst')
        have : r' ≤ maxList (w.2.map fun st => (rating st.kind).getD 0) :=
          le_maxList (List.mem_map.2 ⟨st', hst', by rw [e1]; rfl⟩)
        have := e2 hf'
        omega
      · intro hfull
        rw [(full_iff s).1 hfull, Nat.zero_mul] at h4
        exact absurd (List.length_eq_zero_iff.1 (Nat.le_zero.1 h4)) hnil
    · constructor
      · intro h10; exact ⟨st, hst, k4.1 h10⟩
      · rintro ⟨st', hst', hk'⟩
        obtain ⟨r', e1, -, -, e3, -⟩ := rating_solvers st'.kind (h2 st' hst')
        have : r' ≤ maxList (w.2.map fun st => (rating st.kind).getD 0) :=
          le_maxList (List.mem_map.2 ⟨st', hst', by rw [e1]; rfl⟩)
        have := e3.2 hk'
        omega

/-- A full sudoku with conflicts. -/
def ones : Sudoku := { Sudoku.new 2 1 with num := fun _ => 1 }

/-- **C32** The documentation of `rate` says that only completely solved sudokus get 0.  A full sudoku with conflicts
may get 0, too. -/
theorem C32_zero_not_solved : (rate (plainWatch Run) 5 5 ones).toOption = some (some 0) ∧ Solve.isSolved ones = false := by
  decide +kernel

/-- **C33** `score` of a solvable sudoku: at least the number of empty fields, and 0 exactly if all fields are filled. -/
theorem C33_score (π : Orders Run) (hπ : π.Ok) (s : Sudoku) (hs : Solvable s.bw s.bh s.get) (fuel rounds : Nat)
    (hf : s.empty.length < fuel) (hr : s.empty.length * (s.bw * s.bh + 1) < rounds) :
    ∃ r, score π fuel rounds s = .ok (some r) ∧ s.empty.length ≤ r ∧ (r = 0 ↔ Full s) := by
  obtain ⟨w, h1, -, -, -, -, h2, h3, h4⟩ := solve_spec hπ s hs fuel rounds hf hr
  have hrat := ratings_ok w.2 h2
  have hsum := sum_ge w.2 h2
  rw [h3] at hsum
  refine ⟨_, by unfold score; rw [h1]; simp only; rw [hrat], hsum, ?_⟩
  rw [full_iff]
  constructor
  · intro h0; omega
  · intro h0
    rw [h0, Nat.zero_mul] at h4
    rw [List.length_eq_zero_iff.1 (Nat.le_zero.1 h4)]; rfl

/-- **C33** A correct upper bound of `score`: with `N` the side of the grid, `7 N + 10` for each empty field. -/
theorem C33_upper (π : Orders Run) (hπ : π.Ok) (s : Sudoku) (hs : Solvable s.bw s.bh s.get) (fuel rounds : Nat)
    (hf : s.empty.length < fuel) (hr : s.empty.length * (s.bw * s.bh + 1) < rounds) :
    ∃ r, score π fuel rounds s = .ok (some r) ∧ r ≤ s.empty.length * (7 * (s.bw * s.bh) + 10) := by
  obtain ⟨w, h1, -, -, -, -, h2, h3, h4⟩ := solve_spec hπ s hs fuel rounds hf hr
  have hrat := ratings_ok w.2 h2
  have hsum := sum_le w.2 h2
  rw [h3] at hsum
  refine ⟨_, by unfold score; rw [h1]; simp only; rw [hrat], le_trans hsum ?_⟩
  have : s.empty.length * (7 * (s.bw * s.bh) + 10) = 3 * s.empty.length + 7 * (s.empty.length * (s.bw * s.bh + 1)) := by
    rw [Nat.mul_add, Nat.mul_add, Nat.mul_left_comm, Nat.mul_one]; omega
  omega

/-! ## C58 -/

/-- Between two steps at most the numbers of the fields affected by the step change. -/
def KeepsOthers (next : Watch → Step → Sudoku) : Prop := ∀ w st b, b ∉ st.affected → (next w st).get b = w.1.get b

theorem keepsOthers_leave : KeepsOthers leave := fun _ _ _ _ => rfl

private theorem exec_get (l : List Action) (s : Sudoku) (b : Cell) (h : ∀ a v, .setNumber a v ∈ l → a ≠ b) :
    (l.foldl Action.exec s).get b = s.get b := by
  induction l generalizing s with
  | nil => rfl
  | cons x l ih =>
    rw [List.foldl_cons, ih _ fun a v ha => h a v (List.mem_cons_of_mem _ ha)]
    cases x with
    | setNumber a v =>
      have := h a v List.mem_cons_self
      simp only [Action.exec, Sudoku.get, Sudoku.setNumber]
      rw [if_neg fun e => this e.symm]
    | setCandidates a v => rfl
    | removeCandidates a v => rfl

theorem keepsOthers_applyNow : KeepsOthers applyNow := by
  intro w st b hb
  unfold applyNow Step.apply Step.build
  rcases hk : st.kind with _ | _ | _ | _ | n | n | n | n <;> simp only
  · cases hc : st.clues with
    | nil => rfl
    | cons a l => exact exec_get _ _ _ (by simp)
  iterate 3
    cases ha : st.affected with
    | nil => rfl
    | cons a l =>
      cases hv : st.values with
      | nil => rfl
      | cons v l' =>
        refine exec_get _ _ _ fun c u hc => ?_
        simp only [buildSingle, List.mem_cons, Action.setNumber.injEq, reduceCtorEq, List.mem_map, and_false, exists_const,
          or_false] at hc
        rintro rfl
        exact hb (by rw [ha, hc.1]; simp)
  · exact exec_get _ _ _ (by simp)
  · exact exec_get _ _ _ (by simp)
  · cases hv : st.values with
    | nil => rfl
    | cons v l => exact exec_get _ _ _ (by simp)
  · exact exec_get _ _ _ (by simp)

private theorem bruteforce_fold (t : Sudoku) {next : Watch → Step → Sudoku} (hn : KeepsOthers next) (s : Sudoku) :
    ∀ (l : List Cell), l.Nodup → ∀ (w : Watch), (∀ a ∈ l, w.1.get a = s.get a) →
      (∀ a ∈ l, s.get a ≠ t.get a ↔ s.get a = 0) →
      ∃ e : List (Sudoku × Step), (l.foldl (fun w a => if w.1.get a ≠ t.get a then watch next w (Step.single .bruteforce a (t.get a)) else w) w).2 =
        w.2 ++ e ∧ e.map Prod.snd = (l.filter fun a => decide (s.get a = 0)).map (fun a => Step.single .bruteforce a (t.get a)) ∧
        ∀ p ∈ e, ∀ a ∈ p.2.affected, p.1.get a = 0 := by
  intro l
  induction l with
  | nil => intro _ w _ _; exact ⟨[], by simp⟩
  | cons x l ih =>
    intro hl w hw hiff
    rw [List.nodup_cons] at hl
    rw [List.foldl_cons, hw x List.mem_cons_self]
    by_cases hx : s.get x = 0
    · rw [if_pos ((hiff x List.mem_cons_self).2 hx)]
      obtain ⟨e, h1, h2, h3⟩ := ih hl.2 (watch next w (Step.single .bruteforce x (t.get x))) (by
        intro a ha
        show (next w _).get a = _
        rw [hn w _ a (by
          show a ∉ [x]
          rw [List.mem_singleton]; rintro rfl; exact hl.1 ha)]
        exact hw a (List.mem_cons_of_mem _ ha)) (fun a ha => hiff a (List.mem_cons_of_mem _ ha))
      refine ⟨(w.1, Step.single .bruteforce x (t.get x)) :: e, ?_, ?_, ?_⟩
      · rw [h1]; simp [watch]
      · rw [List.filter_cons_of_pos (by simpa using hx), List.map_cons, List.map_cons, h2]
      · intro p hp
        rcases List.mem_cons.1 hp with rfl | hp
        · intro a ha
          have : a = x := by simpa using (show a ∈ [x] from ha)
          subst this
          rw [hw a List.mem_cons_self]; exact hx
        · exact h3 p hp
    · rw [if_neg fun h => hx ((hiff x List.mem_cons_self).1 h), List.filter_cons_of_neg (by simpa using hx)]
      exact ih hl.2 w (fun a ha => hw a (List.mem_cons_of_mem _ ha)) (fun a ha => hiff a (List.mem_cons_of_mem _ ha))

/-- **C58** If there is a solution, `Bruteforce` yields the values of one fixed solution for all empty fields, in the order
of the fields; every step names a field that is still empty. -/
theorem C58_steps (π : Orders Watch) (hπ : π.Ok) (s : Sudoku) (hs : Solvable s.bw s.bh s.get) (fuel : Nat)
    (hf : s.empty.length < fuel) (next : Watch → Step → Sudoku) (hn : KeepsOthers next) :
    ∃ g y, IsSolution s.bw s.bh s.get g ∧ findBruteforce Prod.fst (watch next) π fuel (s, []) = .ok y ∧
      y.2.map Prod.snd = s.empty.map (fun a => Step.single .bruteforce a (g a)) ∧
      ∀ p ∈ y.2, ∀ a ∈ p.2.affected, p.1.get a = 0 := by
  obtain ⟨sols, h1, -, h3⟩ := C18_dlx_complete (π.dlx (s, [])) (hπ.dlx _) fuel s hf
  cases sols with
  | nil => exact absurd hs (h3.1 rfl)
  | cons t l =>
    have ht := (C17_dlx_sound _ (hπ.dlx _) fuel s _ h1 t List.mem_cons_self).2
    obtain ⟨e, h4, h5, h6⟩ := bruteforce_fold t hn s s.cells (Sudoku.nodup_cells s) (s, []) (fun _ _ => rfl) (by
      intro a ha
      rw [Sudoku.mem_cells] at ha
      constructor
      · intro h; by_contra h0; exact h (ht.keeps a ha h0).symm
      · intro h0 h
        have := (ht.full a ha).1
        rw [← h, h0] at this
        exact absurd this (by decide))
    refine ⟨t.get, _, ht, by unfold findBruteforce; rw [h1], ?_, ?_⟩
    · rw [h4]; exact h5
    · rw [h4]; exact h6

/-- **C58** If there is none, it yields nothing. -/
theorem C58_none (π : Orders Watch) (hπ : π.Ok) (s : Sudoku) (hs : ¬ Solvable s.bw s.bh s.get) (fuel : Nat)
    (hf : s.empty.length < fuel) (next : Watch → Step → Sudoku) :
    findBruteforce Prod.fst (watch next) π fuel (s, []) = .ok (s, []) := by
  obtain ⟨sols, h1, -, h3⟩ := C18_dlx_complete (π.dlx (s, [])) (hπ.dlx _) fuel s hf
  have := h3.2 hs
  subst this
  unfold findBruteforce
  rw [h1]

example : found .bruteforce (((Sudoku.new 2 1).setNumber (0, 1) 1)) =
    some [([(0, 0)], [(0, 0)], [2]), ([(1, 0)], [(1, 0)], [1]), ([(1, 1)], [(1, 1)], [2])] := by decide +kernel
example : found .bruteforce stuck = some [] := by decide +kernel

/-! ## C55 -/

/-- **C55** `<` is a strict total order on steps with respect to `==`. -/
theorem C55_order (a b c : Step) :
    a.lt a = false ∧ (a.lt b = true → b.lt c = true → a.lt c = true) ∧ (a.lt b = true ∨ a.eq b = true ∨ b.lt a = true) ∧
    (a.lt b = true → a.eq b = false ∧ b.lt a = false) := by
  have htr := step_trans
  refine ⟨step_irrefl a, htr a b c, ?_, ?_⟩
  · cases h : a.eq b
    · rcases step_total a b h with h | h <;> simp [h]
    · simp
  · intro h
    constructor
    · by_contra he
      rw [Bool.not_eq_false] at he
      have : a.lt b = a.lt a := by
        simp only [Step.eq, Bool.and_eq_true, beq_iff_eq] at he
        unfold Step.lt
        rw [he.1.1, he.1.2, he.2]
      rw [this, step_irrefl] at h
      exact absurd h (by simp)
    · by_contra h'
      rw [Bool.not_eq_false] at h'
      have := htr a b a h h'
      rw [step_irrefl] at this
      exact absurd this (by simp)

/-- **C55** `==` compares clues, affected fields and values. -/
theorem C55_eq (a b : Step) : a.eq b = true ↔ a.clues = b.clues ∧ a.affected = b.affected ∧ a.values = b.values := by
  simp [Step.eq, and_assoc]

/-- **C55** The order in which fields and values are given to the constructor does not matter. -/
theorem C55_arguments (k : Kind) (cl cl' af af' : List Cell) (vs vs' : List Int) (h1 : cl.Perm cl') (h2 : af.Perm af')
    (h3 : vs.Perm vs') : Step.mk' k cl af vs = Step.mk' k cl' af' vs' := by
  simp only [Step.mk', sortCells_perm h1, sortCells_perm h2, sortInts_perm h3]

/-- **C55** `==` does not compare the class of the steps. -/
theorem C55_class_ignored :
    (Step.single .nakedSingle (0, 0) 1).eq (Step.single .hiddenSingle (0, 0) 1) = true ∧
    Step.single .nakedSingle (0, 0) 1 ≠ Step.single .hiddenSingle (0, 0) 1 := by decide

example : (Step.mk' (.nakedTuple 2) [(1, 0), (0, 5)] [(0, 3)] [7, 2]).lt (Step.single .nakedSingle (0, 5) 1) = false ∧
    (Step.single .nakedSingle (0, 5) 1).lt (Step.mk' (.nakedTuple 2) [(1, 0), (0, 5)] [(0, 3)] [7, 2]) = true := by decide

/-! ## C56 -/

/-- **C56** Applying a fresh step object twice in a row gives the same as applying it once, for all classes and all
attributes. -/
theorem C56_twice (st : Step) (s t : Sudoku) (o : StepObj) (h : StepObj.apply { step := st } s = .ok (o, t)) :
    ∃ o', o.apply t = .ok (o', t) := by
  unfold StepObj.apply at h
  simp only [List.isEmpty_nil, if_true] at h
  split at h
  · exact absurd h (by simp)
  · rename_i acts hacts
    simp only [Except.ok.injEq, Prod.mk.injEq] at h
    obtain ⟨rfl, ht⟩ := h
    by_cases he : acts = []
    · subst he
      simp only [List.foldl_nil] at ht
      subst ht
      unfold StepObj.apply
      simp only [List.isEmpty_nil, if_true, hacts]
      exact ⟨_, rfl⟩
    · have hne : acts.isEmpty = false := by simpa using he
      unfold StepObj.apply
      simp only [hne, Bool.false_eq_true, if_false]
      have key : acts.foldl Action.exec t = t := by
        unfold Step.build at hacts
        rcases hk : st.kind with _ | _ | _ | _ | n | n | n | n <;> rw [hk] at hacts <;> simp only at hacts
        · split at hacts
          · exact absurd hacts (by simp)
          · rw [Except.ok.injEq] at hacts
            subst hacts ht
            simp only [List.foldl_cons, List.foldl_nil, Action.exec, Sudoku.setCandidates]
            congr 1
            funext b
            split <;> rfl
        iterate 3
          split at hacts
          · rw [Except.ok.injEq] at hacts
            subst hacts
            exact exec_single_twice _ (fun h => not_mem_surrounding s _ (List.mem_filter.1 h).1) t ht.symm
          · exact absurd hacts (by simp)
        · rw [Except.ok.injEq] at hacts
          subst hacts
          exact exec_remove_twice st.affected (fun a => st.values.toFinset ∩ s.getCandidates a) t ht.symm
        · rw [Except.ok.injEq] at hacts
          subst hacts
          exact exec_remove_twice st.affected (fun a => s.getCandidates a \ st.values.toFinset) t ht.symm
        · split at hacts
          · exact absurd hacts (by simp)
          · rw [Except.ok.injEq] at hacts
            subst hacts
            exact exec_remove_twice st.affected (fun _ => _) t ht.symm
        · rw [Except.ok.injEq] at hacts
          subst hacts
          exact exec_remove_twice st.affected (fun _ => _) t ht.symm
      exact ⟨_, by rw [key]⟩

/-- **C56** But a step object that has been applied remembers its actions: applied to another sudoku it does not do what
the step says.  Here a `HiddenTuple` step for (0, 0) with the values 1, 2 leaves the candidate 4 there. -/
theorem C56_stale :
    let s := (Sudoku.new 2 2).setCandidates (0, 0) {1, 2, 3}
    let t := (Sudoku.new 2 2).setCandidates (0, 0) {1, 2, 4}
    let st := Step.mk' (.hiddenTuple 2) [(0, 0)] [(0, 0)] [1, 2]
    ∃ o s', StepObj.apply { step := st } s = .ok (o, s') ∧ s'.getCandidates (0, 0) = {1, 2} ∧
      ∃ t', o.apply t = .ok (o, t') ∧ t'.getCandidates (0, 0) = {1, 2, 4} ∧
        (Step.apply t st).getCandidates (0, 0) = {1, 2} := by
  refine ⟨_, _, rfl, by decide, _, rfl, by decide, by decide⟩

end Props
