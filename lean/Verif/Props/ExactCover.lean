import Verif.CoverSpec
import Verif.Proofs.ExactCover

set_option autoImplicit false
set_option linter.unusedSectionVars false

/-! # C95: `exact_cover`, `select`, `deselect` and `solve` of dlx.py for every exact cover problem -/

open Spec

namespace Props

open Dlx

variable {κ ρ : Type} [DecidableEq κ] [DecidableEq ρ]

/-- The columns of a row. -/
private def colsIn (Y : Dict ρ (List κ)) (i : ρ) : List κ := (List.lookup i Y).getD []

private theorem lookup_mem {α β : Type} [DecidableEq α] (Y : List (α × β)) (hY : (Y.map Prod.fst).Nodup) (i : α) (ks : β) :
    List.lookup i Y = some ks ↔ (i, ks) ∈ Y := by
  induction Y with
  | nil => simp
  | cons p Y ih =>
    obtain ⟨k, v⟩ := p
    rw [List.map_cons, List.nodup_cons] at hY
    rw [lookup_cons', List.mem_cons, ← ih hY.2]
    by_cases h : i = k
    · subst h
      have : List.lookup i Y = none := (lookup_none_iff i Y).2 hY.1
      rw [this]
      simp [eq_comm]
    · simp [h]

private theorem table_eq (Y : Dict ρ (List κ)) (hY : (Y.map Prod.fst).Nodup) : Cover.table (Y.map Prod.fst) (colsIn Y) = Y := by
  unfold Cover.table
  rw [List.map_map]
  conv => rhs; rw [← List.map_id Y]
  refine List.map_congr_left fun p hp => ?_
  simp only [Function.comp, id, colsIn]
  rw [(lookup_mem Y hY p.1 p.2).2 hp]
  rfl

private theorem covers_iff (Y : Dict ρ (List κ)) (hY : (Y.map Prod.fst).Nodup) (i : ρ) (j : κ) :
    Covers Y i j ↔ i ∈ Y.map Prod.fst ∧ j ∈ colsIn Y i := by
  unfold Covers colsIn
  constructor
  · rintro ⟨ks, h1, h2⟩
    refine ⟨List.mem_map.2 ⟨_, h1, rfl⟩, ?_⟩
    rw [(lookup_mem Y hY i ks).2 h1]; exact h2
  · rintro ⟨h1, h2⟩
    obtain ⟨ks, h⟩ := (lookup_isSome_iff i Y).2 h1
    rw [h] at h2
    exact ⟨ks, (lookup_mem Y hY i ks).1 h, h2⟩

private theorem covers_of (Y : Dict ρ (List κ)) (hY : (Y.map Prod.fst).Nodup) {i : ρ} (hi : i ∈ Y.map Prod.fst) (j : κ) :
    Covers Y i j ↔ j ∈ colsIn Y i := by rw [covers_iff Y hY]; simp only [hi, true_and]

private theorem good_of {K : List κ} {Y : Dict ρ (List κ)} (hP : CoverProblem K Y) : Cover.Good K (Y.map Prod.fst) (colsIn Y) := by
  have aux : ∀ i ∈ Y.map Prod.fst, (i, colsIn Y i) ∈ Y := by
    intro i hi
    obtain ⟨ks, h⟩ := (lookup_isSome_iff i Y).2 hi
    unfold colsIn
    rw [h]; exact (lookup_mem Y hP.names i ks).1 h
  exact ⟨fun i hi => hP.nodup _ (aux i hi), fun i hi => hP.sub _ (aux i hi)⟩

/-- `X[j]`. -/
private theorem get_iff (X : Dict κ (List ρ)) (j : κ) (l : List ρ) : Dict.get X j = .ok l ↔ List.lookup j X = some l := by
  unfold Dict.get
  cases List.lookup j X <;> simp

/-- **C95** `exact_cover(X, Y)`: there is an entry for each column of `X`, the set of the names of the rows with this column.  (Rows may
have a column twice here.) -/
theorem C95_exact_cover (K : List κ) (Y : Dict ρ (List κ)) (hsub : ∀ p ∈ Y, ∀ j ∈ p.2, j ∈ K) :
    ∃ X, exactCover K Y = .ok X ∧ (∀ j, (∃ l, Dict.get X j = .ok l) ↔ j ∈ K) ∧
      ∀ j l, Dict.get X j = .ok l → l.Nodup ∧ ∀ i, i ∈ l ↔ Covers Y i j := by
  obtain ⟨X, e, n, m⟩ := Cover.exactCover_fill K Y hsub
  refine ⟨X, e, fun j => ?_, fun j l hl => ?_⟩
  · simp only [get_iff]
    have := n j
    cases h : List.lookup j X with
    | none => rw [h] at this; simpa using this
    | some l => rw [h] at this; simpa using this
  · rw [get_iff] at hl
    refine ⟨(m j l hl).1, fun i => ?_⟩
    rw [(m j l hl).2]
    constructor
    · rintro ⟨p, hp, rfl, hj⟩; exact ⟨p.2, hp, hj⟩
    · rintro ⟨ks, hp, hj⟩; exact ⟨_, hp, rfl, hj⟩

/-- **C95** `exact_cover` raises `KeyError` if a row has a column that is not in `X`. -/
theorem C95_exact_cover_error (K : List κ) (Y : Dict ρ (List κ)) (h : ∃ p ∈ Y, ∃ j ∈ p.2, j ∉ K) :
    exactCover K Y = .error .KeyError := Cover.exactCover_err K Y h

/-- `select(X, Y, r)` for the rows `r` of a list. -/
def selectAll (Y : Dict ρ (List κ)) : List ρ → Dict κ (List ρ) → Except PyErr (Dict κ (List ρ))
  | [], X => .ok X
  | r :: rs, X => match select X Y r with
    | .error e => .error e
    | .ok (X, _) => selectAll Y rs X

/-- The columns covered by rows. -/
private def colsAll (Y : Dict ρ (List κ)) (rs : List ρ) : Finset κ := (rs.flatMap (colsIn Y)).toFinset

/-- The rows are there, and have no columns in common with each other. -/
def Compatible (Y : Dict ρ (List κ)) (rs : List ρ) : Prop :=
  (∀ i ∈ rs, i ∈ Y.map Prod.fst) ∧ rs.Pairwise fun i i' => ∀ j, ¬ (Covers Y i j ∧ Covers Y i' j)

private theorem selectAll_spec {K : List κ} {Y : Dict ρ (List κ)} (hP : CoverProblem K Y) (rs : List ρ) :
    ∀ (X : Dict κ (List ρ)) (D : Finset κ), Cover.Rep K (Y.map Prod.fst) (colsIn Y) X D →
    (((∀ i ∈ rs, i ∈ Y.map Prod.fst ∧ ∀ j ∈ colsIn Y i, j ∉ D) ∧ rs.Pairwise fun i i' => ∀ j, ¬ (Covers Y i j ∧ Covers Y i' j)) ∧
      ∃ X', selectAll Y rs X = .ok X' ∧ Cover.Rep K (Y.map Prod.fst) (colsIn Y) X' (D ∪ colsAll Y rs)) ∨
    (¬ ((∀ i ∈ rs, i ∈ Y.map Prod.fst ∧ ∀ j ∈ colsIn Y i, j ∉ D) ∧ rs.Pairwise fun i i' => ∀ j, ¬ (Covers Y i j ∧ Covers Y i' j)) ∧
      selectAll Y rs X = .error .KeyError) := by
  have ht := table_eq Y hP.names
  induction rs with
  | nil => intro X D h; exact Or.inl ⟨⟨by simp, List.Pairwise.nil⟩, X, rfl, by simpa [colsAll] using h⟩
  | cons r rs ih =>
    intro X D h
    by_cases hc : r ∈ Y.map Prod.fst ∧ ∀ j ∈ colsIn Y r, j ∉ D
    · obtain ⟨X1, st, e1, r1, -⟩ := Cover.select_ok h hc.1 hc.2
      rw [ht] at e1
      simp only [selectAll, e1]
      have hD : D ∪ colsAll Y (r :: rs) = D ∪ (colsIn Y r).toFinset ∪ colsAll Y rs := by
        ext x; simp [colsAll]
      have hiff : ((∀ i ∈ r :: rs, i ∈ Y.map Prod.fst ∧ ∀ j ∈ colsIn Y i, j ∉ D) ∧
            (r :: rs).Pairwise fun i i' => ∀ j, ¬ (Covers Y i j ∧ Covers Y i' j)) ↔
          ((∀ i ∈ rs, i ∈ Y.map Prod.fst ∧ ∀ j ∈ colsIn Y i, j ∉ D ∪ (colsIn Y r).toFinset) ∧
            rs.Pairwise fun i i' => ∀ j, ¬ (Covers Y i j ∧ Covers Y i' j)) := by
        rw [List.pairwise_cons]
        constructor
        · rintro ⟨h1, h2, h3⟩
          refine ⟨fun i hi => ⟨(h1 i (by simp [hi])).1, fun j hj => ?_⟩, h3⟩
          rw [Finset.mem_union, List.mem_toFinset, not_or]
          refine ⟨(h1 i (by simp [hi])).2 j hj, fun hr => h2 i hi j ⟨?_, ?_⟩⟩
          · exact (covers_of Y hP.names hc.1 j).2 hr
          · exact (covers_of Y hP.names (h1 i (by simp [hi])).1 j).2 hj
        · rintro ⟨h1, h3⟩
          refine ⟨fun i hi => ?_, fun i hi j hj => ?_, h3⟩
          · rcases List.mem_cons.1 hi with rfl | hi
            · exact hc
            · refine ⟨(h1 i hi).1, fun j hj => ?_⟩
              have := (h1 i hi).2 j hj
              rw [Finset.mem_union, not_or] at this
              exact this.1
          · have := (h1 i hi).2 j ((covers_iff Y hP.names i j).1 hj.2).2
            rw [Finset.mem_union, List.mem_toFinset, not_or] at this
            exact this.2 ((covers_iff Y hP.names r j).1 hj.1).2
      rw [hiff, hD]
      exact ih X1 _ r1
    · right
      refine ⟨fun hh => hc (hh.1 r (by simp)), ?_⟩
      have := Cover.select_err h hc
      rw [ht] at this
      simp only [selectAll, this]

private theorem start {K : List κ} {Y : Dict ρ (List κ)} (hP : CoverProblem K Y) {X : Dict κ (List ρ)} (hX : exactCover K Y = .ok X) :
    Cover.Rep K (Y.map Prod.fst) (colsIn Y) X ∅ := by
  obtain ⟨X', e, h⟩ := Cover.exactCover_ok (good_of hP)
  rw [table_eq Y hP.names, hX] at e
  injection e with e
  rw [e]; exact h

/-- **C95** Rows can be selected one after the other if and only if they are there and share no column; otherwise `KeyError` is raised. -/
theorem C95_select (K : List κ) (Y : Dict ρ (List κ)) (hP : CoverProblem K Y) (X : Dict κ (List ρ)) (hX : exactCover K Y = .ok X)
    (rs : List ρ) :
    (Compatible Y rs → ∃ X', selectAll Y rs X = .ok X') ∧ (¬ Compatible Y rs → selectAll Y rs X = .error .KeyError) := by
  rcases selectAll_spec hP rs X ∅ (start hP hX) with ⟨h1, X', e, -⟩ | ⟨h1, e⟩
  · exact ⟨fun _ => ⟨X', e⟩, fun h => absurd ⟨fun i hi => (h1.1 i hi).1, h1.2⟩ h⟩
  · exact ⟨fun h => absurd ⟨fun i hi => ⟨h.1 i hi, by simp⟩, h.2⟩ h1, fun _ => e⟩

private theorem rep_of {K : List κ} {Y : Dict ρ (List κ)} (hP : CoverProblem K Y) {X X' : Dict κ (List ρ)} (hX : exactCover K Y = .ok X)
    {rs : List ρ} (h : selectAll Y rs X = .ok X') :
    Compatible Y rs ∧ Cover.Rep K (Y.map Prod.fst) (colsIn Y) X' (colsAll Y rs) := by
  rcases selectAll_spec hP rs X ∅ (start hP hX) with ⟨h1, X'', e, hr⟩ | ⟨-, e⟩
  · rw [h] at e
    injection e with e
    rw [← e, Finset.empty_union] at hr
    exact ⟨⟨fun i hi => (h1.1 i hi).1, h1.2⟩, hr⟩
  · rw [h] at e; cases e

private theorem mem_colsAll {Y : Dict ρ (List κ)} (hY : (Y.map Prod.fst).Nodup) {rs : List ρ} (hrs : Compatible Y rs) (j : κ) :
    j ∈ colsAll Y rs ↔ ∃ r ∈ rs, Covers Y r j := by
  unfold colsAll
  rw [List.mem_toFinset, List.mem_flatMap]
  exact exists_congr fun r => and_congr_right fun hr => (covers_of Y hY (hrs.1 r hr) j).symm

/-- **C95** After selecting the rows `rs` there are entries for the columns not covered by them: the rows with this column which share
no column with the rows `rs`. -/
theorem C95_rest (K : List κ) (Y : Dict ρ (List κ)) (hP : CoverProblem K Y) (X X' : Dict κ (List ρ)) (hX : exactCover K Y = .ok X)
    (rs : List ρ) (h : selectAll Y rs X = .ok X') :
    (∀ j, (∃ l, Dict.get X' j = .ok l) ↔ j ∈ K ∧ ¬ ∃ r ∈ rs, Covers Y r j) ∧
    ∀ j l, Dict.get X' j = .ok l → l.Nodup ∧
      ∀ i, i ∈ l ↔ Covers Y i j ∧ ∀ k, Covers Y i k → ¬ ∃ r ∈ rs, Covers Y r k := by
  obtain ⟨hrs, hr⟩ := rep_of hP hX h
  refine ⟨fun j => ?_, fun j l hl => ?_⟩
  · simp only [get_iff]
    rw [← mem_colsAll hP.names hrs]
    have := hr.dom j
    cases hl : List.lookup j X' with
    | none => rw [hl] at this; simpa using this
    | some l => rw [hl] at this; simpa using this
  · rw [get_iff] at hl
    refine ⟨hr.nodup j l hl, fun i => ?_⟩
    rw [hr.mem j l hl, covers_iff Y hP.names, and_assoc]
    refine and_congr_right fun hi => and_congr_right fun _ => forall_congr' fun k => ?_
    rw [covers_of Y hP.names hi, mem_colsAll hP.names hrs]

/-- The dicts have the same keys and sets. -/
def SameDict (X X' : Dict κ (List ρ)) : Prop := ∀ j, (List.lookup j X).map List.toFinset = (List.lookup j X').map List.toFinset

private theorem same_of {K : List κ} {L : List ρ} {f : ρ → List κ} {X X' : Dict κ (List ρ)} {D : Finset κ} (h : Cover.Rep K L f X D)
    (h' : Cover.Rep K L f X' D) : SameDict X X' := by
  intro j
  cases hl : List.lookup j X with
  | none => rw [(h'.dom j).2 ((h.dom j).1 hl)]
  | some l =>
    obtain ⟨l', hl'⟩ := h'.key (h.of_key hl).1 (h.of_key hl).2
    rw [hl']
    simp only [Option.map_some, Option.some.injEq]
    ext i
    rw [List.mem_toFinset, List.mem_toFinset, h.mem j l hl, h'.mem j l' hl']

/-- **C95** `deselect` undoes `select`. -/
theorem C95_deselect (K : List κ) (Y : Dict ρ (List κ)) (hP : CoverProblem K Y) (X X₁ X₂ : Dict κ (List ρ))
    (hX : exactCover K Y = .ok X) (rs : List ρ) (h : selectAll Y rs X = .ok X₁) (r : ρ) (cols : List (List ρ))
    (hs : select X₁ Y r = .ok (X₂, cols)) : ∃ X₃, deselect X₂ Y r cols = .ok X₃ ∧ SameDict X₁ X₃ := by
  obtain ⟨hrs, hr⟩ := rep_of hP hX h
  have ht := table_eq Y hP.names
  by_cases hc : r ∈ Y.map Prod.fst ∧ ∀ j ∈ colsIn Y r, j ∉ colsAll Y rs
  · obtain ⟨X', st, e1, r1, s1⟩ := Cover.select_ok hr hc.1 hc.2
    rw [ht, hs] at e1
    injection e1 with e1
    injection e1 with e1 e1'
    subst e1 e1'
    obtain ⟨X₃, e3, r3⟩ := Cover.deselect_ok r1 hc.1 hc.2 s1
    rw [ht] at e3
    exact ⟨X₃, e3, same_of hr r3⟩
  · have := Cover.select_err hr hc
    rw [ht, hs] at this
    cases this

/-- **C95** `solve(X, Y, solution)` after selecting the rows `rs`: whatever the iteration orders, it yields the given list extended by
rows, without repetition; the sets of these rows are pairwise different, and they are exactly the sets of rows sharing no column with
`rs` that cover each column not covered by `rs` exactly once.  In the end `X` is as before.  The recursion is not deeper than the
number of columns plus one. -/
theorem C95_solve_rest (K : List κ) (Y : Dict ρ (List κ)) (hP : CoverProblem K Y) (π : OrdersOf κ ρ) (hπ : π.Ok)
    (X X₁ : Dict κ (List ρ)) (hX : exactCover K Y = .ok X) (rs : List ρ) (h : selectAll Y rs X = .ok X₁) (solution : List ρ)
    (fuel : Nat) (hf : K.dedup.length < fuel) :
    ∃ (exts : List (List ρ)) (X₂ : Dict κ (List ρ)), search π Y fuel X₁ solution = .ok (exts.map (solution ++ ·), X₂) ∧ SameDict X₁ X₂ ∧
      (∀ e ∈ exts, e.Nodup) ∧ (exts.map List.toFinset).Nodup ∧
      ∀ T, T ∈ exts.map List.toFinset ↔ (∀ i ∈ T, ∃ j, Covers Y i j) ∧ (∀ i ∈ T, ∀ j, Covers Y i j → ¬ ∃ r ∈ rs, Covers Y r j) ∧
        ∀ j ∈ K, (¬ ∃ r ∈ rs, Covers Y r j) → ∃! i, i ∈ T ∧ Covers Y i j := by
  obtain ⟨hrs, hr⟩ := rep_of hP hX h
  rcases Cover.search_spec (m := 1) hπ (fun i _ hne => List.length_pos_iff.2 hne) fuel _ X₁ solution hr with
    ⟨⟨exts, X₂, e, r2, n2, m2⟩, -⟩ | ⟨-, hB⟩
  · rw [table_eq Y hP.names] at e
    refine ⟨exts, X₂, e, same_of hr r2, n2.2, n2.1, fun T => ?_⟩
    rw [m2]
    constructor
    · intro hT
      refine ⟨fun i hi => ?_, fun i hi j hj => ?_, fun j hj hn => ?_⟩
      · obtain ⟨j, hj⟩ := List.exists_mem_of_ne_nil _ (hT.ne i hi)
        exact ⟨j, (covers_of Y hP.names (hT.legal i hi) j).2 hj⟩
      · rw [← mem_colsAll hP.names hrs]
        exact hT.disj i hi j ((covers_iff Y hP.names i j).1 hj).2
      · obtain ⟨i, hi, hji⟩ := hT.ex j hj (by rw [mem_colsAll hP.names hrs]; exact hn)
        refine ⟨i, ⟨hi, (covers_of Y hP.names (hT.legal i hi) j).2 hji⟩, fun i' hi' => ?_⟩
        exact hT.uniq i' hi'.1 i hi j ((covers_iff Y hP.names i' j).1 hi'.2).2 hji
    · rintro ⟨h1, h2, h3⟩
      have hleg : ∀ i ∈ T, i ∈ Y.map Prod.fst := fun i hi => by
        obtain ⟨j, hj⟩ := h1 i hi
        exact ((covers_iff Y hP.names i j).1 hj).1
      refine ⟨hleg, fun i hi => ?_, fun i hi k hk => ?_, fun j hj hD => ?_, fun i hi i' hi' j hj hj' => ?_⟩
      · obtain ⟨j, hj⟩ := h1 i hi
        exact List.ne_nil_of_mem ((covers_iff Y hP.names i j).1 hj).2
      · rw [mem_colsAll hP.names hrs]
        exact h2 i hi k ((covers_of Y hP.names (hleg i hi) k).2 hk)
      · obtain ⟨i, ⟨hi, hji⟩, -⟩ := h3 j hj (by rw [← mem_colsAll hP.names hrs]; exact hD)
        exact ⟨i, hi, ((covers_iff Y hP.names i j).1 hji).2⟩
      · have c := (covers_of Y hP.names (hleg i hi) j).2 hj
        have c' := (covers_of Y hP.names (hleg i' hi') j).2 hj'
        exact (h3 j ((good_of hP).sub i (hleg i hi) j hj) (h2 i hi j c)).unique ⟨hi, c⟩ ⟨hi', c'⟩
  · exfalso
    have : (K.toFinset \ colsAll Y rs).card ≤ K.toFinset.card := Finset.card_le_card Finset.sdiff_subset
    rw [List.card_toFinset] at this
    omega

/-- **C95** `solve(*exact_cover(X, Y), [])` yields every exact cover exactly once, as a list without repetition, in whatever order sets
and dicts are iterated. -/
theorem C95_solve (K : List κ) (Y : Dict ρ (List κ)) (hP : CoverProblem K Y) (π : OrdersOf κ ρ) (hπ : π.Ok) (fuel : Nat)
    (hf : K.dedup.length < fuel) :
    ∃ X sols X', exactCover K Y = .ok X ∧ search π Y fuel X [] = .ok (sols, X') ∧ SameDict X X' ∧
      (∀ e ∈ sols, e.Nodup) ∧ (sols.map List.toFinset).Nodup ∧ ∀ T, T ∈ sols.map List.toFinset ↔ ExactCover K Y T := by
  obtain ⟨X, hX, -⟩ := C95_exact_cover K Y hP.sub
  obtain ⟨exts, X', e, h1, h2, h3, h4⟩ := C95_solve_rest K Y hP π hπ X X hX [] rfl [] fuel hf
  refine ⟨X, exts, X', hX, by simpa using e, h1, h2, h3, fun T => ?_⟩
  rw [h4]
  simp [ExactCover]

/-! Knuth's example: seven columns, six rows, one exact cover. -/

/-- The rows. -/
def knuth : Dict Char (List Nat) :=
  [('A', [1, 4, 7]), ('B', [1, 4]), ('C', [4, 5, 7]), ('D', [3, 5, 6]), ('E', [2, 3, 6, 7]), ('F', [2, 7])]

theorem knuth_problem : CoverProblem [1, 2, 3, 4, 5, 6, 7] knuth := ⟨by decide, by decide, by decide⟩

/-- Iteration as stored. -/
def asStored : OrdersOf Nat Char := ⟨fun _ l => l, fun _ l => l⟩

example : asStored.Ok := ⟨fun _ _ => List.Perm.refl _, fun _ _ => List.Perm.refl _⟩

example : ∃ X, exactCover [1, 2, 3, 4, 5, 6, 7] knuth = .ok X ∧
    (match search asStored knuth 8 X [] with | .ok (sols, _) => sols | .error _ => []) = [['B', 'D', 'F']] := ⟨_, rfl, by decide +kernel⟩

example : Compatible knuth ['B', 'D'] ∧ ¬ Compatible knuth ['B', 'C'] := by
  refine ⟨⟨by decide, ?_⟩, fun h => ?_⟩
  · simp [knuth, Covers]
  · have := h.2
    rw [List.pairwise_cons] at this
    exact this.1 'C' (by simp) 4 ⟨⟨[1, 4], by decide, by decide⟩, ⟨[4, 5, 7], by decide, by decide⟩⟩

/-- **C95** The assumption that rows have no column twice is needed: `exact_cover` accepts such a row, `solve` raises `KeyError`. -/
theorem C95_repeated : ∃ X, exactCover [1] [('A', [1, 1])] = .ok X ∧ search asStored [('A', [1, 1])] 9 X [] = .error .KeyError :=
  ⟨_, rfl, rfl⟩

/-- **C95** A row without columns is never part of what `solve` yields, though adding it to an exact cover would leave each column
covered exactly once. -/
theorem C95_empty_row : ∃ X X', exactCover [1] [('A', [1]), ('B', [])] = .ok X ∧
    search asStored [('A', [1]), ('B', [])] 9 X [] = .ok ([['A']], X') := ⟨_, _, rfl, rfl⟩

end Props
