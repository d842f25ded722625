import Verif.Proofs.DlxSearch
import Verif.Proofs.Decide
import Mathlib.Tactic.IntervalCases

set_option autoImplicit false

/-!
# Properties of `solve.py`, `dlx.py` and the checks of `analyze.py` (C13 - C22, C57)
-/

open Spec Solve

namespace Props

/-- A sudoku with boxes of the given size as `copy()` makes it: no candidates, nothing outside the grid. -/
def Plain (w h : Nat) (t : Sudoku) : Prop :=
  t.bw = w ∧ t.bh = h ∧ (∀ a, ¬ InGrid w h a → t.num a = 0) ∧ ∀ a, t.cand a = ∅

/-! ## C13 -/

/-- **C13** An empty field: exactly the numbers `1..N` not found in a peer. -/
theorem C13_empty (s : Sudoku) (a : Cell) (ha : InGrid s.bw s.bh a) (h0 : s.get a = 0) (v : Int) :
    v ∈ calcCandidates s a ↔ IsNumber s.bw s.bh v ∧ ∀ b, InGrid s.bw s.bh b → Peer s.bw s.bh a b → s.get b ≠ v :=
  mem_calc_empty ha h0 v

/-- **C13** A filled field: its number. -/
theorem C13_filled (s : Sudoku) (a : Cell) (h0 : s.get a ≠ 0) (v : Int) :
    v ∈ calcCandidates s a ↔ v = s.get a := by
  rw [calc_filled h0]; simp [Sudoku.get]

/-- A sample: a 4x4 sudoku. -/
def sample : Sudoku :=
  (((Sudoku.new 2 2).setNumber (0, 2) 3).setNumber (1, 0) 4).setNumber (3, 1) 1

example : calcCandidates sample (0, 0) = {1, 2} ∧ calcCandidates sample (0, 2) = {3} ∧
    InGrid sample.bw sample.bh (0, 0) ∧ sample.get (0, 0) = 0 := by decide +kernel

/-! ## C14 -/

/-- **C14** Numbers and shape stay; the candidates become those of `calc_candidates` for the original numbers, in every
field (`filled_only=False`) or in the filled ones (`filled_only=True`), and stay elsewhere. -/
theorem C14_init (s : Sudoku) (filledOnly : Bool) :
    (initCandidates s filledOnly).bw = s.bw ∧ (initCandidates s filledOnly).bh = s.bh ∧
    (∀ a, (initCandidates s filledOnly).get a = s.get a) ∧
    ∀ a, InGrid s.bw s.bh a → (initCandidates s filledOnly).getCandidates a =
      if filledOnly = false ∨ s.get a ≠ 0 then calcCandidates s a else s.getCandidates a := by
  rw [initCandidates_eq]
  refine ⟨rfl, rfl, fun a => rfl, fun a ha => ?_⟩
  simp only [Sudoku.getCandidates, Sudoku.get, ha, true_and]
  split <;> simp_all

/-- **C14** The old candidates do not matter (`filled_only=False`). -/
theorem C14_from_numbers_only (s t : Sudoku) (hw : s.bw = t.bw) (hh : s.bh = t.bh) (hn : s.num = t.num)
    (a : Cell) (ha : InGrid s.bw s.bh a) :
    (initCandidates s).getCandidates a = (initCandidates t).getCandidates a := by
  rw [(C14_init s false).2.2.2 a ha, (C14_init t false).2.2.2 a (by rw [← hw, ← hh]; exact ha)]
  simp only [true_or, if_true]
  exact calc_congr hw hh hn a

/-- **C14** Doing it twice is doing it once. -/
theorem C14_idempotent (s : Sudoku) (filledOnly : Bool) :
    initCandidates (initCandidates s filledOnly) filledOnly = initCandidates s filledOnly := by
  rw [initCandidates_eq s, initCandidates_eq]
  ext1
  · rfl
  · rfl
  · rfl
  · funext a
    simp only
    split
    · exact calc_congr rfl rfl rfl a
    · rfl

example : (initCandidates sample).getCandidates (0, 3) = {1, 2, 4} ∧
    (initCandidates sample true).getCandidates (0, 3) = ∅ ∧
    (initCandidates sample true).getCandidates (0, 2) = {3} := by decide +kernel

/-! ## C15 -/

/-- The fields `a` and `b` conflict with the number `v`. -/
def Conflict (s : Sudoku) (a b : Cell) (v : Int) : Prop :=
  InGrid s.bw s.bh b ∧ Peer s.bw s.bh a b ∧ v ≠ 0 ∧ s.get a = v ∧ s.get b = v

instance (s : Sudoku) (a b : Cell) (v : Int) : Decidable (Conflict s a b v) := inferInstanceAs (Decidable (_ ∧ _))

/-- The fields searched by `find_conflicts(s, *coords)`. -/
def searched (s : Sudoku) (coords : List Cell) : List Cell := if coords = [] then s.cells else coords

/-- **C15** A conflicting triple is reported as often as its first field is searched; other triples never. -/
theorem C15_conflicts (s : Sudoku) (coords : List Cell) (hc : ∀ a ∈ coords, InGrid s.bw s.bh a) (a b : Cell) (v : Int) :
    (findConflicts s coords).count (a, b, v) = if Conflict s a b v then (searched s coords).count a else 0 := by
  have hin : ∀ x ∈ searched s coords, InGrid s.bw s.bh x := by
    intro x hx
    unfold searched at hx
    split at hx
    · exact (Sudoku.mem_cells s).1 hx
    · exact hc x hx
  have hs : (if coords.isEmpty then s.cells else coords) = searched s coords := by
    cases coords <;> rfl
  unfold findConflicts
  simp only [hs]
  generalize searched s coords = l at hin
  induction l with
  | nil => simp
  | cons x l ih =>
    rw [List.flatMap_cons, List.count_append, ih (fun y hy => hin y (by simp [hy]))]
    have hx := hin x (by simp)
    have hcount : (if s.get x = 0 then [] else
        ((s.surroundingOf x false).filter fun b => s.get b == s.get x).map fun b => (x, b, s.get x)).count (a, b, v) =
        if Conflict s a b v ∧ x = a then 1 else 0 := by
      have hnd : (if s.get x = 0 then [] else
          ((s.surroundingOf x false).filter fun b => s.get b == s.get x).map fun b => (x, b, s.get x)).Nodup := by
        split
        · simp
        · refine List.Nodup.map ?_ ((Sudoku.nodup_surroundingOf_false s hx).filter _)
          intro p q e; simpa using e
      have hm : (a, b, v) ∈ (if s.get x = 0 then [] else
          ((s.surroundingOf x false).filter fun b => s.get b == s.get x).map fun b => (x, b, s.get x)) ↔
          Conflict s a b v ∧ x = a := by
        unfold Conflict
        split
        · rename_i h0
          constructor
          · intro h; cases h
          · rintro ⟨⟨_, _, h1, h2, _⟩, rfl⟩; exact absurd (h2 ▸ h0) h1
        · rename_i h0
          simp only [List.mem_map, List.mem_filter, Sudoku.mem_surroundingOf_false s hx, beq_iff_eq, Prod.mk.injEq]
          constructor
          · rintro ⟨b', ⟨⟨h1, h2⟩, h3⟩, rfl, rfl, rfl⟩; exact ⟨⟨h1, h2, h0, rfl, h3⟩, rfl⟩
          · rintro ⟨⟨h1, h2, h3, h4, h5⟩, rfl⟩; exact ⟨b, ⟨⟨h1, h2⟩, by rw [h4, h5]⟩, rfl, rfl, h4⟩
      by_cases h : Conflict s a b v ∧ x = a
      · rw [if_pos h]; exact List.count_eq_one_of_mem hnd (hm.2 h)
      · rw [if_neg h]; exact List.count_eq_zero_of_not_mem (fun h' => h (hm.1 h'))
    rw [hcount, List.count_cons]
    by_cases h : Conflict s a b v
    · by_cases hxa : x = a
      · simp [h, hxa]; omega
      · simp [h, hxa]
    · simp [h]

/-- **C15** The report for the whole sudoku: each conflict once, in both directions. -/
theorem C15_all (s : Sudoku) : (findConflicts s).Nodup ∧
    (∀ a b v, (a, b, v) ∈ findConflicts s ↔ InGrid s.bw s.bh a ∧ Conflict s a b v) ∧
    (∀ a b v, (a, b, v) ∈ findConflicts s → (b, a, v) ∈ findConflicts s) := by
  have hc := C15_conflicts s [] (by simp)
  have hnd := Sudoku.nodup_cells s
  have hm : ∀ a b v, (a, b, v) ∈ findConflicts s ↔ InGrid s.bw s.bh a ∧ Conflict s a b v := by
    intro a b v
    rw [← List.count_pos_iff, hc a b v]
    by_cases h : Conflict s a b v
    · rw [if_pos h, List.count_pos_iff]
      simp [searched, Sudoku.mem_cells, h]
    · simp [h]
  refine ⟨?_, hm, ?_⟩
  · rw [List.nodup_iff_count_le_one]
    rintro ⟨a, b, v⟩
    rw [hc a b v]
    split
    · exact List.nodup_iff_count_le_one.1 hnd a
    · omega
  · intro a b v h
    rw [hm] at h ⊢
    obtain ⟨h1, h2, h3, h4, h5, h6⟩ := h
    exact ⟨h2, h1, Geometry.peer_symm.1 h3, h4, h6, h5⟩

example : findConflicts (sample.setNumber (2, 2) 3) = [((0, 2), (2, 2), 3), ((2, 2), (0, 2), 3)] ∧
    findConflicts (sample.setNumber (2, 2) 3) [(2, 2), (2, 2)] = [((2, 2), (0, 2), 3), ((2, 2), (0, 2), 3)] := by
  decide +kernel

/-! ## C16 -/

/-- **C16** `is_solved`: all fields filled, no conflict. -/
theorem C16_is_solved (s : Sudoku) :
    isSolved s = true ↔ (∀ a, InGrid s.bw s.bh a → s.get a ≠ 0) ∧ NoConflict s.bw s.bh s.get := by
  unfold isSolved
  rw [Bool.and_eq_true, List.isEmpty_iff, List.isEmpty_iff]
  refine and_congr ?_ ?_
  · rw [List.eq_nil_iff_forall_not_mem]
    refine forall_congr' fun a => ?_
    simp [Sudoku.empty, Sudoku.mem_cells]
  · rw [List.eq_nil_iff_forall_not_mem]
    constructor
    · intro h a b ha hb hp h0 e
      exact h (a, b, s.get a) (((C15_all s).2.1 _ _ _).2 ⟨ha, hb, hp, h0, rfl, e.symm⟩)
    · rintro h ⟨a, b, v⟩ hm
      obtain ⟨ha, hb, hp, h0, h1, h2⟩ := ((C15_all s).2.1 _ _ _).1 hm
      exact h a b ha hb hp (by rw [h1]; exact h0) (by rw [h1, h2])

/-- **C16** With legal numbers this is: each row, column and box shows each number exactly once. -/
theorem C16_units (s : Sudoku) (hl : LegalClues s.bw s.bh s.get) :
    isSolved s = true ↔ ∀ v, IsNumber s.bw s.bh v →
      (∀ r, r < s.bw * s.bh → ∃! c, c < s.bw * s.bh ∧ s.get (r, c) = v) ∧
      (∀ c, c < s.bw * s.bh → ∃! r, r < s.bw * s.bh ∧ s.get (r, c) = v) ∧
      (∀ a, InGrid s.bw s.bh a → ∃! b, InGrid s.bw s.bh b ∧ SameBox s.bw s.bh a b ∧ s.get b = v) := by
  rw [C16_is_solved]
  constructor
  · rintro ⟨hf, hv⟩ v hnum
    have full : ∀ a, InGrid s.bw s.bh a → IsNumber s.bw s.bh (s.get a) := fun a ha => hl a ha (hf a ha)
    have uniq : ∀ a b, InGrid s.bw s.bh a → InGrid s.bw s.bh b →
        (SameRow a b ∨ SameCol a b ∨ SameBox s.bw s.bh a b) → s.get a = s.get b → a = b := by
      intro a b ha hb hs e
      by_contra hne
      exact hv a b ha hb ⟨hne, hs⟩ (hf a ha) e
    refine ⟨fun r hr => ?_, fun c hc => ?_, fun a ha => ?_⟩
    · obtain ⟨c, hc, e⟩ := Geometry.row_surj full hv hr hnum
      refine ⟨c, ⟨hc, e⟩, fun c' ⟨hc', e'⟩ => ?_⟩
      exact congrArg Prod.snd (uniq (r, c') (r, c) ⟨hr, hc'⟩ ⟨hr, hc⟩ (Or.inl rfl) (e'.trans e.symm))
    · obtain ⟨r, hr, e⟩ := Geometry.col_surj full hv hc hnum
      refine ⟨r, ⟨hr, e⟩, fun r' ⟨hr', e'⟩ => ?_⟩
      exact congrArg Prod.fst (uniq (r', c) (r, c) ⟨hr', hc⟩ ⟨hr, hc⟩ (Or.inr (Or.inl rfl)) (e'.trans e.symm))
    · obtain ⟨b, hb, hbox, e⟩ := Geometry.box_surj full hv (Coordinates.boxAt_lt ha) hnum
      have hsame : SameBox s.bw s.bh a b := (Coordinates.boxAt_eq_iff ha hb).1 hbox.symm
      refine ⟨b, ⟨hb, hsame, e⟩, fun b' ⟨hb', hs', e'⟩ => ?_⟩
      refine uniq b' b hb' hb (Or.inr (Or.inr ?_)) (e'.trans e.symm)
      exact ⟨hs'.1.symm.trans hsame.1, hs'.2.symm.trans hsame.2⟩
  · intro h
    have hval : ∀ a, InGrid s.bw s.bh a → s.get a ≠ 0 → IsNumber s.bw s.bh (s.get a) := hl
    refine ⟨fun a ha h0 => ?_, fun a b ha hb hp h0 e => ?_⟩
    · -- the row of `a` shows `N` numbers in the `N - 1` other fields
      let N := s.bw * s.bh
      have hex : ∀ v : Fin N, ∃ c, c < N ∧ s.get (a.1, c) = (v : Int) + 1 := by
        intro v
        obtain ⟨c, ⟨hc, e⟩, -⟩ := (h ((v : Int) + 1) ⟨by omega, by have := v.2; omega⟩).1 a.1 ha.1
        exact ⟨c, hc, e⟩
      choose f hf using hex
      have hinj : Function.Injective f := by
        intro v w e
        have h1 := (hf v).2
        have h2 := (hf w).2
        rw [e, h2] at h1
        apply Fin.ext; omega
      have hmap : ∀ v, f v ∈ (Finset.range N).erase a.2 := by
        intro v
        rw [Finset.mem_erase, Finset.mem_range]
        refine ⟨fun e => ?_, (hf v).1⟩
        have := (hf v).2
        rw [e] at this
        have h0' : s.get (a.1, a.2) = 0 := h0
        omega
      have hcard := Finset.card_le_card_of_injOn (s := Finset.univ) (t := (Finset.range N).erase a.2) f
        (fun v _ => hmap v) (fun v _ w _ e => hinj e)
      rw [Finset.card_univ, Fintype.card_fin, Finset.card_erase_of_mem (Finset.mem_range.2 ha.2), Finset.card_range] at hcard
      have : 0 < N := lt_of_le_of_lt (Nat.zero_le _) ha.2
      omega
    · obtain ⟨hr, hc, hb'⟩ := h (s.get a) (hval a ha h0)
      apply hp.1
      rcases hp.2 with hs | hs | hs
      · have h1 : b.1 = a.1 := hs.symm
        exact Prod.ext hs ((hr a.1 ha.1).unique ⟨ha.2, rfl⟩ ⟨hb.2, by rw [← h1]; exact e.symm⟩)
      · have h1 : b.2 = a.2 := hs.symm
        exact Prod.ext ((hc a.2 ha.2).unique ⟨ha.1, rfl⟩ ⟨hb.1, by rw [← h1]; exact e.symm⟩) hs
      · exact (hb' a ha).unique ⟨ha, ⟨rfl, rfl⟩, rfl⟩ ⟨hb, hs, e.symm⟩

/-- A solved 4x4 sudoku. -/
def solved4 : Sudoku :=
  { bw := 2, bh := 2, cand := fun _ => ∅, num := fun a =>
    if a.1 < 4 ∧ a.2 < 4 then ((2 * (a.1 % 2) + a.1 / 2 + a.2) % 4 : Nat) + 1 else 0 }

example : isSolved solved4 = true ∧ isSolved (solved4.setNumber (0, 0) 2) = false ∧ isSolved sample = false := by
  decide +kernel
example : LegalClues solved4.bw solved4.bh solved4.get := by decide +kernel

/-! ## C17 - C19, C22: `dlx`

`π` are the orders in which Python visits dictionaries and sets, `fuel` the available depth of recursion. -/

/-- **C17** `dlx` yields only solutions. -/
theorem C17_dlx_sound (π : Dlx.Orders) (hπ : π.Ok) (fuel : Nat) (s : Sudoku) (sols : List Sudoku)
    (h : Dlx.dlx π fuel s = .ok sols) : ∀ t ∈ sols, Plain s.bw s.bh t ∧ IsSolution s.bw s.bh s.get t.get := by
  rcases Dlx.dlx_result hπ s fuel with ⟨sols', h1, -, h3, -⟩ | ⟨h1, -⟩
  · rw [h1] at h; injection h with h; subst h
    exact fun t ht => (h3 t).1 ht
  · rw [h1] at h; cases h

/-- **C18** `dlx` yields every solution, without an exception, if the recursion may go one deeper than there are empty
fields. -/
theorem C18_dlx_complete (π : Dlx.Orders) (hπ : π.Ok) (fuel : Nat) (s : Sudoku) (hf : s.empty.length < fuel) :
    ∃ sols, Dlx.dlx π fuel s = .ok sols ∧
      (∀ g, IsSolution s.bw s.bh s.get g → ∃ t ∈ sols, SameGrid s.bw s.bh t.get g) ∧
      (sols = [] ↔ ¬ Solvable s.bw s.bh s.get) := by
  obtain ⟨sols, h1, -, h3⟩ := Dlx.dlx_spec hπ s fuel hf
  have hall : ∀ g, IsSolution s.bw s.bh s.get g → ∃ t ∈ sols, SameGrid s.bw s.bh t.get g := by
    intro g hg
    let t : Sudoku := { bw := s.bw, bh := s.bh, cand := fun _ => ∅, num := fun a => if InGrid s.bw s.bh a then g a else 0 }
    have he : ∀ a, InGrid s.bw s.bh a → t.num a = g a := fun a ha => by simp [t, ha]
    refine ⟨t, (h3 t).2 ⟨⟨rfl, rfl, fun a ha => by simp [t, ha], fun a => rfl⟩, ?_, ?_, ?_⟩, he⟩
    · intro a ha h0; rw [he a ha]; exact hg.keeps a ha h0
    · intro a ha; rw [he a ha]; exact hg.full a ha
    · intro a b ha hb hp h0
      rw [he a ha] at h0 ⊢; rw [he b hb]; exact hg.valid a b ha hb hp h0
  refine ⟨sols, h1, hall, ?_⟩
  constructor
  · rintro rfl ⟨g, hg⟩
    obtain ⟨t, ht, -⟩ := hall g hg
    cases ht
  · intro hno
    rw [List.eq_nil_iff_forall_not_mem]
    intro t ht
    exact hno ⟨t.num, ((h3 t).1 ht).2⟩

/-- **C19** `dlx` yields no two sudokus with the same numbers. -/
theorem C19_dlx_nodup (π : Dlx.Orders) (hπ : π.Ok) (fuel : Nat) (s : Sudoku) (sols : List Sudoku)
    (h : Dlx.dlx π fuel s = .ok sols) : sols.Pairwise fun t t' => ¬ SameGrid s.bw s.bh t.get t'.get := by
  rcases Dlx.dlx_result hπ s fuel with ⟨sols', h1, h2, h3, -⟩ | ⟨h1, -⟩
  · rw [h1] at h; injection h with h; subst h
    refine h2.imp_of_mem fun {t t'} ht ht' hne hsame => hne ?_
    exact Dlx.canon_ext ((h3 t).1 ht).1 ((h3 t').1 ht').1 hsame
  · rw [h1] at h; cases h

/-- **C22** `is_unique` says whether there is exactly one solution. -/
theorem C22_is_unique (π : Dlx.Orders) (hπ : π.Ok) (fuel : Nat) (s : Sudoku) (hf : s.empty.length < fuel) :
    ∃ b, Dlx.isUnique π fuel s = .ok b ∧ (b = true ↔ UniqueSolution s.bw s.bh s.get) := by
  obtain ⟨sols, h1, h2, h3⟩ := C18_dlx_complete π hπ fuel s hf
  have h4 := C19_dlx_nodup π hπ fuel s sols h1
  have h5 := C17_dlx_sound π hπ fuel s sols h1
  unfold Dlx.isUnique
  rw [h1]
  match sols, h2, h3, h4, h5 with
  | [], h2, h3, h4, h5 =>
    refine ⟨false, rfl, ?_⟩
    simp only [Bool.false_eq_true, false_iff]
    rintro ⟨g, hg, -⟩
    obtain ⟨t, ht, -⟩ := h2 g hg
    cases ht
  | [t], h2, h3, h4, h5 =>
    refine ⟨true, rfl, ?_⟩
    simp only [true_iff]
    refine ⟨t.get, (h5 t (by simp)).2, fun g hg => ?_⟩
    obtain ⟨t', ht', hs⟩ := h2 g hg
    rw [List.mem_singleton] at ht'; subst ht'; exact hs
  | t :: t' :: l, h2, h3, h4, h5 =>
    refine ⟨false, rfl, ?_⟩
    simp only [Bool.false_eq_true, false_iff]
    rintro ⟨g, hg, hu⟩
    have a1 := hu _ (h5 t (by simp)).2
    have a2 := hu _ (h5 t' (by simp)).2
    rw [List.pairwise_cons] at h4
    exact h4.1 t' (by simp) fun a ha => (a1 a ha).symm.trans (a2 a ha)

/-! ## C20, C21: `bruteforce` -/

/-- **C20** `bruteforce` yields each completion exactly once; in particular nothing if there is a conflict. -/
theorem C20_bruteforce (π : SetOrder) (hπ : π.Ok) (fuel : Nat) (s : Sudoku) (hf : s.empty.length < fuel) :
    ∃ sols, bruteforce π fuel s = some sols ∧
      (sols.Pairwise fun t t' => ¬ SameGrid s.bw s.bh t.get t'.get) ∧
      (∀ t ∈ sols, Plain s.bw s.bh t ∧ IsCompletion s.bw s.bh s.get t.get) ∧
      (∀ g, IsCompletion s.bw s.bh s.get g → ∃ t ∈ sols, SameGrid s.bw s.bh t.get g) ∧
      (¬ NoConflict s.bw s.bh s.get → sols = []) := by
  obtain ⟨sols, h1, h2, h3⟩ := bruteforce_spec hπ s fuel hf
  refine ⟨sols, h1, ?_, fun t ht => (h3 t).1 ht, ?_, ?_⟩
  · refine h2.imp_of_mem fun {t t'} ht ht' hne hsame => hne ?_
    exact Dlx.canon_ext ((h3 t).1 ht).1 ((h3 t').1 ht').1 hsame
  · intro g hg
    let t : Sudoku := { bw := s.bw, bh := s.bh, cand := fun _ => ∅, num := fun a => if InGrid s.bw s.bh a then g a else 0 }
    have he : ∀ a, InGrid s.bw s.bh a → t.num a = g a := fun a ha => by simp [t, ha]
    refine ⟨t, (h3 t).2 ⟨⟨rfl, rfl, fun a ha => by simp [t, ha], fun a => rfl⟩, ?_, ?_, ?_⟩, he⟩
    · intro a ha h0; rw [he a ha]; exact hg.keeps a ha h0
    · intro a ha h0; rw [he a ha]; exact hg.full a ha h0
    · intro a b ha hb hp h0
      rw [he a ha] at h0 ⊢; rw [he b hb]; exact hg.valid a b ha hb hp h0
  · intro hno
    rw [List.eq_nil_iff_forall_not_mem]
    intro t ht
    obtain ⟨-, k⟩ := (h3 t).1 ht
    apply hno
    intro a b ha hb hp h0 e
    have ga := k.keeps a ha h0
    have gb := k.keeps b hb (by rw [← show s.get b = s.num b from rfl, ← e]; exact h0)
    exact k.valid a b ha hb hp (by rw [ga]; exact h0) (by rw [ga, gb]; exact e)

/-- **C21** For legal clues `bruteforce` and `dlx` yield the same sudokus, up to the order. -/
theorem C21_agree (π : SetOrder) (hπ : π.Ok) (π' : Dlx.Orders) (hπ' : π'.Ok) (fuel : Nat) (s : Sudoku)
    (hf : s.empty.length < fuel) (hl : LegalClues s.bw s.bh s.get) :
    ∃ sols sols', bruteforce π fuel s = some sols ∧ Dlx.dlx π' fuel s = .ok sols' ∧ sols.Perm sols' := by
  obtain ⟨sols, h1, h2, h3⟩ := bruteforce_spec hπ s fuel hf
  obtain ⟨sols', h1', h2', h3'⟩ := Dlx.dlx_spec hπ' s fuel hf
  refine ⟨sols, sols', h1, h1', ?_⟩
  rw [List.perm_ext_iff_of_nodup h2 h2']
  intro t
  rw [h3, h3']
  refine and_congr_right fun _ => ⟨fun k => ⟨k.keeps, fun a ha => ?_, k.valid⟩, fun k => ⟨k.keeps, fun a ha _ => k.full a ha, k.valid⟩⟩
  by_cases h0 : s.num a = 0
  · exact k.full a ha h0
  · rw [k.keeps a ha h0]; exact hl a ha h0

/-- A 2x2 sudoku (boxes 2 wide, 1 high) holding the number 7. -/
def odd7 : Sudoku := (((Sudoku.new 2 1).setNumber (0, 0) 7).setNumber (0, 1) 2).setNumber (1, 1) 1

/-- **C21** Without legal clues they may differ. -/
theorem C21_differ (π : SetOrder) (hπ : π.Ok) (π' : Dlx.Orders) (hπ' : π'.Ok) (fuel : Nat) (hf : 1 < fuel) :
    (∃ t, bruteforce π fuel odd7 = some [t] ∧ t.get (0, 0) = 7) ∧ Dlx.dlx π' fuel odd7 = .ok [] := by
  have hlen : odd7.empty.length = 1 := by decide +kernel
  constructor
  · obtain ⟨sols, h1, h2, h3, h4, -⟩ := C20_bruteforce π hπ fuel odd7 (by omega)
    have hk : ∀ t ∈ sols, t.get (0, 0) = 7 ∧ t.get (0, 1) = 2 ∧ t.get (1, 1) = 1 ∧ t.get (1, 0) = 2 := by
      intro t ht
      have k := (h3 t ht).2
      have a1 := k.keeps (0, 0) (by decide) (by decide)
      have a2 := k.keeps (0, 1) (by decide) (by decide)
      have a3 := k.keeps (1, 1) (by decide) (by decide)
      refine ⟨a1, a2, a3, ?_⟩
      have a4 : 1 ≤ t.get (1, 0) ∧ t.get (1, 0) ≤ (2 : Nat) := k.full (1, 0) (by decide) (by decide)
      have a5 := k.valid (1, 0) (1, 1) (by decide) (by decide) (by decide) (by omega)
      rw [show t.get (1, 1) = 1 from a3] at a5
      omega
    have hex : IsCompletion 2 1 odd7.get ((odd7.setNumber (1, 0) 2).get) := by
      decide +kernel
    obtain ⟨t, ht, -⟩ := h4 _ hex
    match sols, h2, hk, h1, ht with
    | [t], _, hk, h1, _ => exact ⟨t, h1, (hk t (by simp)).1⟩
    | t :: t' :: l, h2, hk, _, _ =>
      rw [List.pairwise_cons] at h2
      refine absurd ?_ (h2.1 t' (by simp))
      obtain ⟨a1, a2, a3, a4⟩ := hk t (by simp)
      obtain ⟨b1, b2, b3, b4⟩ := hk t' (by simp)
      rintro ⟨r, c⟩ ⟨hr, hc⟩
      have hr' : r < 2 := hr
      have hc' : c < 2 := hc
      interval_cases r <;> interval_cases c
      · rw [a1, b1]
      · rw [a2, b2]
      · rw [a4, b4]
      · rw [a3, b3]
  · obtain ⟨sols, h1, -, h3⟩ := C18_dlx_complete π' hπ' fuel odd7 (by omega)
    rw [h1, h3.2]
    rintro ⟨g, k⟩
    have a1 := k.keeps (0, 0) (by decide) (by decide)
    have a2 : 1 ≤ g (0, 0) ∧ g (0, 0) ≤ (2 : Nat) := k.full (0, 0) (by decide)
    rw [show g (0, 0) = 7 from a1] at a2
    omega

/-! ## C57: depth of recursion -/

/-- **C57** For a solvable sudoku `dlx` and `bruteforce` need exactly one level of recursion more than there are empty
fields.  With less, `dlx` ends with a `RecursionError`. -/
theorem C57_depth (π : SetOrder) (hπ : π.Ok) (π' : Dlx.Orders) (hπ' : π'.Ok) (fuel : Nat) (s : Sudoku)
    (hs : Solvable s.bw s.bh s.get) (hf : fuel ≤ s.empty.length) :
    Dlx.dlx π' fuel s = .error .RecursionError ∧ bruteforce π fuel s = none := by
  constructor
  · rcases Dlx.dlx_result hπ' s fuel with ⟨_, -, -, -, h⟩ | ⟨h, -⟩
    · have := h hs; omega
    · exact h
  · rcases bruteforce_result hπ s fuel with ⟨_, -, -, -, h⟩ | ⟨h, -⟩
    · obtain ⟨g, hg⟩ := hs
      have := h g ⟨hg.keeps, fun a ha _ => hg.full a ha, hg.valid⟩; omega
    · exact h

/-! ## Examples meeting the hypotheses -/

/-- Visiting in the order of the lists. -/
def plainOrders : Dlx.Orders := ⟨fun _ l => l, fun _ l => l⟩
example : plainOrders.Ok := ⟨fun _ _ => List.Perm.refl _, fun _ _ => List.Perm.refl _⟩

/-- Visiting in reverse order. -/
def reverseOrders : Dlx.Orders := ⟨fun _ l => l.reverse, fun _ l => l.reverse⟩
example : reverseOrders.Ok := ⟨fun _ l => l.reverse_perm, fun _ l => l.reverse_perm⟩

/-- A sudoku of size 2x2 with two solutions. -/
example : (Dlx.dlx plainOrders 5 (Sudoku.new 2 1)).toOption.map (fun l => l.map fun t => (t.get (0, 0), t.get (0, 1))) =
    some [(1, 2), (2, 1)] := by decide +kernel
example : (Dlx.isUnique plainOrders 5 (Sudoku.new 2 1)).toOption = some false := by decide +kernel
example : (Dlx.isUnique reverseOrders 5 ((Sudoku.new 2 1).setNumber (1, 0) 1)).toOption = some true := by decide +kernel
example : (Dlx.isUnique plainOrders 5 odd7).toOption = some false := by decide +kernel
example : (Sudoku.new 2 1).empty.length < 5 ∧ LegalClues 2 1 (Sudoku.new 2 1).get :=
  ⟨by decide, fun _ _ h => absurd rfl h⟩
example : (Dlx.dlx plainOrders 4 (Sudoku.new 2 1)).toOption.isNone = true := by decide +kernel

end Props
