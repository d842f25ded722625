import Verif.Proofs.DlxDict
import Verif.Proofs.UnitSurj
import Verif.Proofs.Solve

set_option autoImplicit false

/-! Helper lemmas: the search yields all exact covers; exact covers are solutions. -/

open Spec

namespace Dlx

variable {R C : Nat}

/-! ### `exact_cover` and the search -/

theorem exactCover_ok : ∃ X, exactCover (columns (R * C)) (matrix R C) = .ok X ∧ Rep R C X ∅ := Cover.exactCover_ok (good R C)

/-- `T` covers each column outside `D` exactly once and touches none inside. -/
abbrev IsCover (R C : Nat) (D : Finset Col) (T : Finset Row) : Prop := Cover.IsCover (columns (R * C)) (rows (R * C)) (colsOf R C) D T

theorem colsOf_ne_nil (i : Row) : ∃ j, j ∈ colsOf R C i := ⟨.rc i.1 i.2.1, by simp [colsOf]⟩

theorem card_rest {D : Finset Col} {r : Row} (hr : Legal R C r) (hd : ∀ k ∈ colsOf R C r, k ∉ D) :
    ((columns (R * C)).toFinset \ (D ∪ (colsOf R C r).toFinset)).card + 4 = ((columns (R * C)).toFinset \ D).card :=
  Cover.card_rest (good R C) hr hd

/-- What `search` delivers for the covered columns `D`, after the rows `sol` have been chosen. -/
abbrev Delivers (R C : Nat) (D : Finset Col) (sol : List Row)
    (res : Except PyErr (List (List Row) × Dict Col (List Row))) : Prop :=
  Cover.Delivers (columns (R * C)) (rows (R * C)) (colsOf R C) D sol res

theorem search_spec {π : Orders} (hπ : π.Ok) (fuel : Nat) (D : Finset Col) (X : Dict Col (List Row)) (sol : List Row)
    (h : Rep R C X D) :
    (Delivers R C D sol (search π (matrix R C) fuel X sol) ∧ ∀ T, IsCover R C D T → T.card < fuel) ∨
    (search π (matrix R C) fuel X sol = .error .RecursionError ∧ 4 * fuel ≤ ((columns (R * C)).toFinset \ D).card) :=
  Cover.search_spec hπ (fun _ _ _ => Nat.le_refl 4) fuel D X sol h

/-! ### the given numbers -/

/-- The columns of a list of rows. -/
def allCols (R C : Nat) (D : Finset Col) : List Row → Finset Col
  | [] => D
  | i :: l => allCols R C (D ∪ (colsOf R C i).toFinset) l

/-- The rows are legal and share no column. -/
def ClueOk (R C : Nat) (D : Finset Col) : List Row → Prop
  | [] => True
  | i :: l => (Legal R C i ∧ ∀ j ∈ colsOf R C i, j ∉ D) ∧ ClueOk R C (D ∪ (colsOf R C i).toFinset) l

/-- The given numbers of `s` in the fields `l`. -/
def clues (s : Sudoku) (l : List Cell) : List Row := (l.filter fun a => s.get a != 0).map fun a => (a.1, a.2, s.get a)

theorem selectGiven_spec (s : Sudoku) (l : List Cell) : ∀ (X : Dict Col (List Row)) (D : Finset Col), Rep R C X D →
    (ClueOk R C D (clues s l) ∧ ∃ X', selectGiven s (matrix R C) l X = .ok (some X') ∧
      Rep R C X' (allCols R C D (clues s l))) ∨
    (¬ ClueOk R C D (clues s l) ∧ selectGiven s (matrix R C) l X = .ok none) := by
  induction l with
  | nil => intro X D h; exact Or.inl ⟨trivial, X, rfl, h⟩
  | cons a l ih =>
    intro X D h
    unfold selectGiven
    by_cases h0 : s.get a = 0
    · have e : clues s (a :: l) = clues s l := by
        unfold clues; rw [List.filter_cons_of_neg (by simp [h0])]
      rw [e]
      simp only [h0, ne_eq, not_true_eq_false, if_false]
      exact ih X D h
    · have e : clues s (a :: l) = (a.1, a.2, s.get a) :: clues s l := by
        unfold clues; rw [List.filter_cons_of_pos (by simp [h0])]; rfl
      rw [e]
      simp only [ne_eq, h0, not_false_eq_true, if_true, ClueOk, allCols]
      by_cases hc : Legal R C (a.1, a.2, s.get a) ∧ ∀ j ∈ colsOf R C (a.1, a.2, s.get a), j ∉ D
      · obtain ⟨X1, st, e1, r1⟩ := select_ok h hc.1 hc.2
        rw [e1]
        simp only [hc, true_and]
        rcases ih X1 _ r1 with ⟨h1, h2⟩ | ⟨h1, h2⟩
        · exact Or.inl ⟨⟨fun j hj => (hc.2 j hj), h1⟩, h2⟩
        · exact Or.inr ⟨fun h => h1 h.2, h2⟩
      · rw [select_err h hc]
        simp only
        exact Or.inr ⟨fun h => hc h.1, trivial⟩

theorem card_allCols (cl : List Row) : ∀ (D : Finset Col), ClueOk R C D cl →
    ((columns (R * C)).toFinset \ allCols R C D cl).card + 4 * cl.length = ((columns (R * C)).toFinset \ D).card := by
  induction cl with
  | nil => intro D _; simp [allCols]
  | cons i cl ih =>
    intro D h
    have h1 := ih _ h.2
    have h2 := card_rest (R := R) (C := C) h.1.1 h.1.2
    simp only [allCols, List.length_cons]
    omega

theorem cover_clues (cl : List Row) : ∀ (D : Finset Col) (T : Finset Row), cl.Nodup →
    ((IsCover R C D T ∧ ∀ i ∈ cl, i ∈ T) ↔ (ClueOk R C D cl ∧ (∀ i ∈ cl, i ∈ T) ∧
      IsCover R C (allCols R C D cl) (T \ cl.toFinset))) := by
  induction cl with
  | nil => intro D T _; simp [ClueOk, allCols]
  | cons i cl ih =>
    intro D T hnd
    have hi : i ∉ cl := (List.nodup_cons.1 hnd).1
    have hsd : T \ (i :: cl).toFinset = T.erase i \ cl.toFinset := by
      ext x; simp; tauto
    rw [hsd]
    simp only [ClueOk, allCols]
    constructor
    · rintro ⟨h, hm⟩
      have hiT := hm i (by simp)
      have := (ih _ _ (List.nodup_cons.1 hnd).2).1 ⟨h.erase hiT, fun x hx =>
        Finset.mem_erase.2 ⟨by rintro rfl; exact hi hx, hm x (by simp [hx])⟩⟩
      exact ⟨⟨⟨h.legal i hiT, h.disj i hiT⟩, this.1⟩, hm, this.2.2⟩
    · rintro ⟨⟨⟨h1, h2⟩, h3⟩, hm, h4⟩
      have hiT := hm i (by simp)
      have := (ih _ _ (List.nodup_cons.1 hnd).2).2 ⟨h3, fun x hx =>
        Finset.mem_erase.2 ⟨by rintro rfl; exact hi hx, hm x (by simp [hx])⟩, h4⟩
      have := (this.1.insert h1 (List.ne_nil_of_mem (colsOf_ne_nil i).choose_spec) h2).2
      rw [Finset.insert_erase hiT] at this
      exact ⟨this, hm⟩

/-! ### grids and covers -/

/-- The fields of the grid as a list. -/
def gridCells (w h : Nat) : List Cell := (Sudoku.new w h).cells

theorem mem_gridCells {w h : Nat} {a : Cell} : a ∈ gridCells w h ↔ InGrid w h a := Sudoku.mem_cells _

/-- The rows of the matrix for the numbers of a grid. -/
def gridRows (w h : Nat) (g : Grid) : Finset Row := ((gridCells w h).map fun a => (a.1, a.2, g a)).toFinset

theorem mem_gridRows {w h : Nat} {g : Grid} {i : Row} :
    i ∈ gridRows w h g ↔ InGrid w h (i.1, i.2.1) ∧ i.2.2 = g (i.1, i.2.1) := by
  unfold gridRows
  simp only [List.mem_toFinset, List.mem_map, mem_gridCells]
  constructor
  · rintro ⟨a, ha, rfl⟩; exact ⟨ha, rfl⟩
  · rintro ⟨h1, h2⟩; exact ⟨_, h1, by rw [← h2]⟩

theorem inGrid_iff {w h : Nat} {a : Cell} : InGrid w h a ↔ a.1 < h * w ∧ a.2 < h * w := by
  unfold InGrid; rw [Nat.mul_comm]

theorem isNumber_iff {w h : Nat} {v : Int} : IsNumber w h v ↔ 1 ≤ v ∧ v ≤ (h * w : Nat) := by
  unfold IsNumber; rw [Nat.mul_comm]

theorem mem_colsOf {i : Row} {j : Col} : j ∈ colsOf R C i ↔
    j = .rc i.1 i.2.1 ∨ j = .rn i.1 i.2.2 ∨ j = .cn i.2.1 i.2.2 ∨ j = .bn (i.1 / R * R + i.2.1 / C) i.2.2 := by
  simp [colsOf]

theorem cover_of_grid {w h : Nat} {g : Grid} (full : ∀ a, InGrid w h a → IsNumber w h (g a)) (valid : NoConflict w h g) :
    IsCover h w ∅ (gridRows w h g) := by
  refine ⟨?_, fun i _ => List.ne_nil_of_mem (colsOf_ne_nil i).choose_spec, by simp, ?_, ?_⟩
  · intro i hi
    obtain ⟨h1, h2⟩ := mem_gridRows.1 hi
    rw [mem_rows]
    have h3 := isNumber_iff.1 (full _ h1)
    rw [← h2] at h3
    rw [inGrid_iff] at h1
    exact ⟨h1.1, h1.2, h3⟩
  · intro j hj _
    have hj' := mem_columns.1 hj
    cases j with
    | rc r c =>
      exact ⟨(r, c, g (r, c)), mem_gridRows.2 ⟨inGrid_iff.2 hj', rfl⟩, by simp [colsOf]⟩
    | rn r n =>
      obtain ⟨c, hc, e⟩ := Geometry.row_surj full valid (r := r) (by rw [Nat.mul_comm]; exact hj'.1)
        (v := n) (isNumber_iff.2 hj'.2)
      exact ⟨(r, c, n), mem_gridRows.2 ⟨⟨by rw [Nat.mul_comm]; exact hj'.1, hc⟩, e.symm⟩, by simp [colsOf]⟩
    | cn c n =>
      obtain ⟨r, hr, e⟩ := Geometry.col_surj full valid (c := c) (by rw [Nat.mul_comm]; exact hj'.1)
        (v := n) (isNumber_iff.2 hj'.2)
      exact ⟨(r, c, n), mem_gridRows.2 ⟨⟨hr, by rw [Nat.mul_comm]; exact hj'.1⟩, e.symm⟩, by simp [colsOf]⟩
    | bn b n =>
      obtain ⟨a, ha, hb, e⟩ := Geometry.box_surj full valid (b := b) (by rw [Nat.mul_comm]; exact hj'.1)
        (v := n) (isNumber_iff.2 hj'.2)
      refine ⟨(a.1, a.2, n), mem_gridRows.2 ⟨ha, e.symm⟩, ?_⟩
      rw [Coordinates.boxAt_eq_div] at hb
      simp [colsOf, hb]
  · intro i hi i' hi' j hj hj'
    obtain ⟨h1, h2⟩ := mem_gridRows.1 hi
    obtain ⟨h3, h4⟩ := mem_gridRows.1 hi'
    by_contra hne
    have hcell : ((i.1, i.2.1) : Cell) ≠ (i'.1, i'.2.1) := by
      intro e
      apply hne
      have e1 : i.1 = i'.1 := (Prod.mk.inj e).1
      have e2 : i.2.1 = i'.2.1 := (Prod.mk.inj e).2
      refine Prod.ext e1 (Prod.ext e2 ?_)
      rw [h2, h4, e]
    have hn0 : g (i.1, i.2.1) ≠ 0 := by have := (full _ h1).1; omega
    have key : SameRow (i.1, i.2.1) (i'.1, i'.2.1) ∨ SameCol (i.1, i.2.1) (i'.1, i'.2.1) ∨
        SameBox w h (i.1, i.2.1) (i'.1, i'.2.1) → i.2.2 = i'.2.2 → False := by
      intro hs e
      exact valid _ _ h1 h3 ⟨hcell, hs⟩ hn0 (by rw [← h2, ← h4, e])
    rw [mem_colsOf] at hj hj'
    rcases hj with rfl | rfl | rfl | rfl
    · simp only [Col.rc.injEq, reduceCtorEq, or_false] at hj'
      exact hcell (Prod.ext hj'.1 hj'.2)
    · simp only [Col.rn.injEq, reduceCtorEq, or_false, false_or] at hj'
      exact key (Or.inl hj'.1) hj'.2
    · simp only [Col.cn.injEq, reduceCtorEq, or_false, false_or] at hj'
      exact key (Or.inr (Or.inl hj'.1)) hj'.2
    · simp only [Col.bn.injEq, reduceCtorEq, false_or] at hj'
      refine key (Or.inr (Or.inr ?_)) hj'.2
      refine (Coordinates.boxAt_eq_iff h1 h3).1 ?_
      rw [Coordinates.boxAt_eq_div, Coordinates.boxAt_eq_div]
      exact hj'.1

theorem grid_of_cover {w h : Nat} {T : Finset Row} (hT : IsCover h w ∅ T) :
    ∃ g : Grid, (∀ a, ¬ InGrid w h a → g a = 0) ∧ (∀ a, InGrid w h a → IsNumber w h (g a)) ∧ NoConflict w h g ∧
      gridRows w h g = T := by
  have hex : ∀ a, InGrid w h a → ∃ n, (a.1, a.2, n) ∈ T := by
    intro a ha
    obtain ⟨i, hi, hm⟩ := hT.ex (.rc a.1 a.2) (mem_columns.2 (inGrid_iff.1 ha)) (by simp)
    rw [mem_colsOf] at hm
    simp only [Col.rc.injEq, reduceCtorEq, or_false] at hm
    exact ⟨i.2.2, by rw [hm.1, hm.2]; exact hi⟩
  classical
  let g : Grid := fun a => if ha : InGrid w h a then (hex a ha).choose else 0
  have hg : ∀ a, InGrid w h a → (a.1, a.2, g a) ∈ T := by
    intro a ha
    simp only [g, dif_pos ha]
    exact (hex a ha).choose_spec
  have hleg : ∀ i ∈ T, InGrid w h (i.1, i.2.1) ∧ IsNumber w h i.2.2 := by
    intro i hi
    have := mem_rows.1 (hT.legal i hi)
    exact ⟨inGrid_iff.2 ⟨this.1, this.2.1⟩, isNumber_iff.2 this.2.2⟩
  refine ⟨g, fun a ha => by simp only [g, dif_neg ha], fun a ha => (hleg _ (hg a ha)).2, ?_, ?_⟩
  · intro a b ha hb hp h0 e
    have ma := hg a ha
    have mb := hg b hb
    have eq : ((a.1, a.2, g a) : Row) = (b.1, b.2, g b) := by
      rcases hp.2 with hs | hs | hs
      · refine hT.uniq _ ma _ mb (.rn a.1 (g a)) (by simp [colsOf]) ?_
        have hs' : a.1 = b.1 := hs
        rw [mem_colsOf]; simp only; rw [hs', e]; simp
      · refine hT.uniq _ ma _ mb (.cn a.2 (g a)) (by simp [colsOf]) ?_
        have hs' : a.2 = b.2 := hs
        rw [mem_colsOf]; simp only; rw [hs', e]; simp
      · refine hT.uniq _ ma _ mb (.bn (a.1 / h * h + a.2 / w) (g a)) (by simp [colsOf]) ?_
        rw [mem_colsOf]; simp only; rw [hs.1, hs.2, e]; simp
    apply hp.1
    simp only [Prod.mk.injEq] at eq
    exact Prod.ext eq.1 eq.2.1
  · ext i
    rw [mem_gridRows]
    constructor
    · rintro ⟨h1, h2⟩
      have := hg _ h1
      rw [← h2] at this
      exact this
    · intro hi
      obtain ⟨h1, _⟩ := hleg i hi
      refine ⟨h1, ?_⟩
      have := hT.uniq i hi _ (hg _ h1) (.rc i.1 i.2.1) (by simp [colsOf]) (by simp [colsOf])
      exact congrArg (fun x : Row => x.2.2) this

/-! ### writing the solutions -/

theorem foldl_rows (sol : List Row) : ∀ (s : Sudoku), (∀ i ∈ sol, ∀ i' ∈ sol, i.1 = i'.1 → i.2.1 = i'.2.1 → i = i') →
    (sol.foldl (fun s (i : Row) => s.setNumber (i.1, i.2.1) i.2.2) s).bw = s.bw ∧
    (sol.foldl (fun s (i : Row) => s.setNumber (i.1, i.2.1) i.2.2) s).bh = s.bh ∧
    (∀ i ∈ sol, (sol.foldl (fun s (i : Row) => s.setNumber (i.1, i.2.1) i.2.2) s).num (i.1, i.2.1) = i.2.2) ∧
    (∀ a : Cell, (∀ i ∈ sol, (i.1, i.2.1) ≠ a) →
      (sol.foldl (fun s (i : Row) => s.setNumber (i.1, i.2.1) i.2.2) s).num a = s.num a) := by
  induction sol with
  | nil => intro s _; simp
  | cons i sol ih =>
    intro s hf
    obtain ⟨h1, h2, h3, h4⟩ := ih (s.setNumber (i.1, i.2.1) i.2.2)
      (fun x hx y hy => hf x (by simp [hx]) y (by simp [hy]))
    rw [List.foldl_cons]
    refine ⟨h1, h2, ?_, ?_⟩
    · intro x hx
      rcases List.mem_cons.1 hx with rfl | hx'
      · by_cases hxs : x ∈ sol
        · exact h3 x hxs
        · rw [h4 (x.1, x.2.1)]
          · simp [Sudoku.setNumber]
          · intro y hy e
            simp only [Prod.mk.injEq] at e
            have := hf y (by simp [hy]) x (by simp) e.1 e.2
            subst this; exact hxs hy
      · exact h3 x hx'
    · intro a ha
      rw [h4 a (fun y hy => ha y (by simp [hy]))]
      have : a ≠ (i.1, i.2.1) := fun e => ha i (by simp) e.symm
      simp [Sudoku.setNumber, this]

theorem gridRows_inj {w h : Nat} {g g' : Grid} (e : gridRows w h g = gridRows w h g') (a : Cell) (ha : InGrid w h a) :
    g a = g' a := by
  have : (a.1, a.2, g a) ∈ gridRows w h g' := by rw [← e]; exact mem_gridRows.2 ⟨ha, rfl⟩
  exact (mem_gridRows.1 this).2

theorem clues_nodup (s : Sudoku) : (clues s s.cells).Nodup := by
  unfold clues
  refine List.Nodup.map ?_ ((Sudoku.nodup_cells s).filter _)
  intro a b e
  simp only [Prod.mk.injEq] at e
  exact Prod.ext e.1 e.2.1

theorem mem_clues {s : Sudoku} {i : Row} : i ∈ clues s s.cells ↔
    InGrid s.bw s.bh (i.1, i.2.1) ∧ s.num (i.1, i.2.1) ≠ 0 ∧ i.2.2 = s.num (i.1, i.2.1) := by
  unfold clues
  simp only [List.mem_map, List.mem_filter, Sudoku.mem_cells, bne_iff_ne, Sudoku.get]
  constructor
  · rintro ⟨a, ⟨h1, h2⟩, rfl⟩; exact ⟨h1, h2, rfl⟩
  · rintro ⟨h1, h2, h3⟩; exact ⟨_, ⟨h1, h2⟩, by rw [← h3]⟩

theorem clues_sub_gridRows {s : Sudoku} {g : Grid} :
    (∀ i ∈ clues s s.cells, i ∈ gridRows s.bw s.bh g) ↔ Extends s.bw s.bh s.num g := by
  constructor
  · intro h a ha h0
    have := h (a.1, a.2, s.num a) (mem_clues.2 ⟨ha, h0, rfl⟩)
    exact (mem_gridRows.1 this).2.symm
  · intro h i hi
    obtain ⟨h1, h2, h3⟩ := mem_clues.1 hi
    exact mem_gridRows.2 ⟨h1, by rw [h3, h _ h1 h2]⟩

open Solve in
theorem writeSolutions_spec (s : Sudoku) (sols : List (List Row)) : ∀ (u : Sudoku), u.bw = s.bw → u.bh = s.bh →
    (∀ a, (¬ InGrid s.bw s.bh a ∨ s.num a ≠ 0) → u.num a = s.num a) →
    (∀ sol ∈ sols, ∃ g, (∀ a, InGrid s.bw s.bh a → IsNumber s.bw s.bh (g a)) ∧ Extends s.bw s.bh s.num g ∧
      sol.toFinset = gridRows s.bw s.bh g \ (clues s s.cells).toFinset) →
    (∀ t ∈ writeSolutions sols u, Canon s.bw s.bh t ∧ ∀ i ∈ clues s s.cells, i ∈ gridRows s.bw s.bh t.num) ∧
    (writeSolutions sols u).map (fun t => gridRows s.bw s.bh t.num \ (clues s s.cells).toFinset) =
      sols.map List.toFinset := by
  induction sols with
  | nil => intro u _ _ _ _; simp [writeSolutions]
  | cons sol sols ih =>
    intro u hw hh hu hall
    obtain ⟨g, hfull, hext, hsol⟩ := hall sol (by simp)
    have hmem : ∀ i, i ∈ sol ↔ InGrid s.bw s.bh (i.1, i.2.1) ∧ i.2.2 = g (i.1, i.2.1) ∧ s.num (i.1, i.2.1) = 0 := by
      intro i
      rw [← List.mem_toFinset, hsol, Finset.mem_sdiff, mem_gridRows, List.mem_toFinset, mem_clues]
      constructor
      · rintro ⟨⟨h1, h2⟩, h3⟩
        refine ⟨h1, h2, ?_⟩
        by_contra h0
        exact h3 ⟨h1, h0, by rw [h2, hext _ h1 h0]⟩
      · rintro ⟨h1, h2, h3⟩
        exact ⟨⟨h1, h2⟩, fun h => h.2.1 h3⟩
    obtain ⟨f1, f2, f3, f4⟩ := foldl_rows sol u (by
      intro i hi i' hi' e1 e2
      have h1 := (hmem i).1 hi
      have h2 := (hmem i').1 hi'
      exact Prod.ext e1 (Prod.ext e2 (by rw [h1.2.1, h2.2.1, e1, e2])))
    set v := sol.foldl (fun s (i : Row) => s.setNumber (i.1, i.2.1) i.2.2) u with hv
    have hvg : ∀ a, InGrid s.bw s.bh a → v.num a = g a := by
      intro a ha
      by_cases h0 : s.num a = 0
      · exact f3 (a.1, a.2, g a) ((hmem _).2 ⟨ha, rfl, h0⟩)
      · rw [f4 a, hu a (Or.inr h0), hext a ha h0]
        rintro i hi rfl
        exact h0 ((hmem i).1 hi).2.2
    have hvo : ∀ a, (¬ InGrid s.bw s.bh a ∨ s.num a ≠ 0) → v.num a = s.num a := by
      intro a ha
      rw [f4 a, hu a ha]
      rintro i hi rfl
      have := (hmem i).1 hi
      rcases ha with h | h
      · exact h this.1
      · exact h this.2.2
    obtain ⟨i1, i2⟩ := ih v (f1.trans hw) (f2.trans hh) hvo (fun x hx => hall x (by simp [hx]))
    have hcopy : gridRows s.bw s.bh v.copy.num = gridRows s.bw s.bh g := by
      ext i
      rw [mem_gridRows, mem_gridRows]
      refine and_congr_right fun h1 => ?_
      rw [Sudoku.copy_eq]
      simp only
      rw [f1, f2, hw, hh, if_pos h1, hvg _ h1]
    have hw' : writeSolutions (sol :: sols) u = v.copy :: writeSolutions sols v := rfl
    rw [hw']
    constructor
    · intro t ht
      rcases List.mem_cons.1 ht with rfl | ht
      · refine ⟨?_, ?_⟩
        · rw [Sudoku.copy_eq]
          refine ⟨f1.trans hw, f2.trans hh, fun a ha => ?_, fun a => by simp⟩
          simp only
          rw [f1, f2, hw, hh, if_neg ha]
        · rw [hcopy, clues_sub_gridRows]; exact hext
      · exact i1 t ht
    · rw [List.map_cons, List.map_cons, i2, hcopy, hsol]

/-! ### the whole -/

theorem copy_bw (s : Sudoku) : s.copy.bw = s.bw := by rw [Sudoku.copy_eq]
theorem copy_bh (s : Sudoku) : s.copy.bh = s.bh := by rw [Sudoku.copy_eq]

theorem canon_ext {w h : Nat} {t t' : Sudoku} (h1 : Solve.Canon w h t) (h2 : Solve.Canon w h t')
    (e : ∀ a, InGrid w h a → t.num a = t'.num a) : t = t' := by
  obtain ⟨a1, a2, a3, a4⟩ := h1
  obtain ⟨b1, b2, b3, b4⟩ := h2
  ext1
  · rw [a1, b1]
  · rw [a2, b2]
  · funext a
    by_cases ha : InGrid w h a
    · exact e a ha
    · rw [a3 a ha, b3 a ha]
  · funext a; rw [a4, b4]

theorem columns_length (N : Nat) : (columns N).length = 4 * (N * N) := by
  unfold columns
  simp [Coordinates.product, List.length_flatMap, List.map_const', numbers]
  omega

theorem solution_copy {s : Sudoku} {g : Grid} :
    IsSolution s.bw s.bh s.copy.num g ↔ IsSolution s.bw s.bh s.num g := by
  have e : ∀ a, InGrid s.bw s.bh a → s.copy.num a = s.num a := by
    intro a ha; rw [Sudoku.copy_eq]; simp [ha]
  constructor
  · intro k
    exact ⟨fun a ha h => (k.keeps a ha (by rw [e a ha]; exact h)).trans (e a ha), k.full, k.valid⟩
  · intro k
    exact ⟨fun a ha h => (k.keeps a ha (by rw [← e a ha]; exact h)).trans (e a ha).symm, k.full, k.valid⟩

theorem length_cells (s : Sudoku) : s.cells.length = s.len := by
  unfold Sudoku.cells Coordinates.product Sudoku.len Sudoku.indices Sudoku.n
  simp [List.length_flatMap, List.map_const']
  rw [← Nat.mul_pow, Nat.pow_two]

theorem length_clues (s : Sudoku) : (clues s s.cells).length + s.empty.length = s.len := by
  rw [← length_cells]
  unfold clues Sudoku.empty
  rw [List.length_map, List.length_eq_length_filter_add (l := s.cells) (fun a => s.get a != 0)]
  congr 2
  refine List.filter_congr fun a _ => ?_
  show (s.get a == 0) = !(!(s.get a == 0))
  rw [Bool.not_not]

theorem card_gridRows (s : Sudoku) (g : Grid) : (gridRows s.bw s.bh g).card = s.len := by
  unfold gridRows
  rw [List.toFinset_card_of_nodup, List.length_map]
  · exact length_cells (Sudoku.new s.bw s.bh)
  · refine List.Nodup.map ?_ (Sudoku.nodup_cells _)
    intro a b e
    simp only [Prod.mk.injEq] at e
    exact Prod.ext e.1 e.2.1

/-- What the whole delivers, with recursion depth `fuel`. -/
def Result (fuel : Nat) (s : Sudoku) (res : Except PyErr (List Sudoku)) : Prop :=
  (∃ sols, res = .ok sols ∧ sols.Nodup ∧
    (∀ t, t ∈ sols ↔ Solve.Canon s.bw s.bh t ∧ IsSolution s.bw s.bh s.num t.num) ∧
    (Solvable s.bw s.bh s.num → s.empty.length < fuel)) ∨
  (res = .error .RecursionError ∧ fuel ≤ s.empty.length)

theorem dlx_result {π : Orders} (hπ : π.Ok) (s : Sudoku) (fuel : Nat) : Result fuel s (dlx π fuel s) := by
  have main : ∀ s : Sudoku, Result fuel s (match exactCover (columns (s.bh * s.bw)) (matrix s.bh s.bw) with
      | .error e => .error e
      | .ok X => match selectGiven s (matrix s.bh s.bw) s.cells X with
        | .error e => .error e
        | .ok none => .ok []
        | .ok (some X) => match search π (matrix s.bh s.bw) fuel X [] with
          | .error e => .error e
          | .ok (sols, _) => .ok (writeSolutions sols s)) := by
    intro s
    obtain ⟨X, e, r⟩ := exactCover_ok (R := s.bh) (C := s.bw)
    rw [e]
    simp only
    rcases selectGiven_spec s s.cells X ∅ r with ⟨hok, X1, e1, r1⟩ | ⟨hno, e1⟩
    · rw [e1]
      simp only
      have hlen : s.len = s.bh * s.bw * (s.bh * s.bw) := by
        unfold Sudoku.len; rw [← Nat.mul_pow, Nat.pow_two, Nat.mul_comm s.bh]
      rcases search_spec hπ fuel _ X1 [] r1 with ⟨⟨exts, X2, e2, -, ⟨n2, -⟩, m2⟩, b2⟩ | ⟨e2, hB⟩
      swap
      · right
        rw [e2]
        refine ⟨rfl, ?_⟩
        have h1 := card_allCols (R := s.bh) (C := s.bw) _ _ hok
        have h2 : ((columns (s.bh * s.bw)).toFinset \ ∅).card ≤ 4 * (s.bh * s.bw * (s.bh * s.bw)) := by
          rw [Finset.sdiff_empty]
          refine le_trans (List.toFinset_card_le _) ?_
          rw [columns_length]
        have h3 := length_clues s
        omega
      left
      rw [e2]
      simp only [List.nil_append, List.map_id']
      have hcov : ∀ T', T' ∈ exts.map List.toFinset → ∃ g, (∀ a, ¬ InGrid s.bw s.bh a → g a = 0) ∧
          IsSolution s.bw s.bh s.num g ∧ T' = gridRows s.bw s.bh g \ (clues s s.cells).toFinset := by
        intro T' hT'
        have h1 := (m2 T').1 hT'
        have hdis : ∀ i ∈ clues s s.cells, i ∉ T' := by
          intro i hi hiT
          obtain ⟨j, hj⟩ := colsOf_ne_nil (R := s.bh) (C := s.bw) i
          refine h1.disj i hiT j hj ?_
          have aux : ∀ (cl : List Row) (D : Finset Col), (j ∈ D ∨ i ∈ cl) → j ∈ allCols s.bh s.bw D cl := by
            intro cl
            induction cl with
            | nil => intro D h; simpa [allCols] using h
            | cons x cl ih =>
              intro D h
              simp only [allCols]
              apply ih
              rcases h with h | h
              · left; simp [h]
              · rcases List.mem_cons.1 h with rfl | h
                · left; simp [hj]
                · right; exact h
          exact aux _ _ (Or.inr hi)
        have hsd : (T' ∪ (clues s s.cells).toFinset) \ (clues s s.cells).toFinset = T' := by
          ext x
          simp only [Finset.mem_sdiff, Finset.mem_union, List.mem_toFinset]
          constructor
          · rintro ⟨h | h, h'⟩
            · exact h
            · exact absurd h h'
          · intro h; exact ⟨Or.inl h, fun h' => hdis x h' h⟩
        have h2 := (cover_clues (R := s.bh) (C := s.bw) (clues s s.cells) ∅ (T' ∪ (clues s s.cells).toFinset)
          (clues_nodup s)).2 ⟨hok, fun i hi => by simp [hi], by rw [hsd]; exact h1⟩
        obtain ⟨g, g0, gf, gv, ge⟩ := grid_of_cover h2.1
        refine ⟨g, g0, ⟨?_, gf, gv⟩, ?_⟩
        · rw [← clues_sub_gridRows, ge]; exact h2.2
        · rw [ge, hsd]
      obtain ⟨w1, w2⟩ := writeSolutions_spec s exts s rfl rfl (fun _ _ => rfl) (by
        intro sol hsol
        obtain ⟨g, g0, gs, ge⟩ := hcov sol.toFinset (List.mem_map_of_mem hsol)
        exact ⟨g, gs.full, gs.keeps, ge⟩)
      have geq : ∀ t t', (∀ i ∈ clues s s.cells, i ∈ gridRows s.bw s.bh t) →
          (∀ i ∈ clues s s.cells, i ∈ gridRows s.bw s.bh t') →
          gridRows s.bw s.bh t \ (clues s s.cells).toFinset = gridRows s.bw s.bh t' \ (clues s s.cells).toFinset →
          gridRows s.bw s.bh t = gridRows s.bw s.bh t' := by
        intro t t' h h' e
        have hs : (clues s s.cells).toFinset ⊆ gridRows s.bw s.bh t := fun i hi => h i (List.mem_toFinset.1 hi)
        have hs' : (clues s s.cells).toFinset ⊆ gridRows s.bw s.bh t' := fun i hi => h' i (List.mem_toFinset.1 hi)
        rw [← Finset.sdiff_union_of_subset hs, ← Finset.sdiff_union_of_subset hs', e]
      refine ⟨_, rfl, ?_, fun t => ?_, ?_⟩
      rotate_right
      · rintro ⟨g, hs⟩
        have hcl := clues_sub_gridRows.2 hs.keeps
        have hc := (cover_clues (R := s.bh) (C := s.bw) (clues s s.cells) ∅ (gridRows s.bw s.bh g) (clues_nodup s)).1
          ⟨cover_of_grid hs.full hs.valid, hcl⟩
        have h1 := b2 _ hc.2.2
        rw [Finset.card_sdiff_of_subset (fun i hi => hcl i (List.mem_toFinset.1 hi)), card_gridRows,
          List.toFinset_card_of_nodup (clues_nodup s)] at h1
        have := length_clues s
        omega
      · rw [← w2] at n2
        exact n2.of_map
      · constructor
        · intro ht
          obtain ⟨c1, c2⟩ := w1 t ht
          refine ⟨c1, ?_⟩
          have : gridRows s.bw s.bh t.num \ (clues s s.cells).toFinset ∈ exts.map List.toFinset := by
            rw [← w2]; exact List.mem_map.2 ⟨t, ht, rfl⟩
          obtain ⟨g, g0, gs, ge⟩ := hcov _ this
          have ee := geq _ _ c2 (clues_sub_gridRows.2 gs.keeps) ge
          have eg : ∀ a, InGrid s.bw s.bh a → t.num a = g a := gridRows_inj ee
          refine ⟨fun a ha h0 => by rw [eg a ha]; exact gs.keeps a ha h0, fun a ha => by rw [eg a ha]; exact gs.full a ha, ?_⟩
          intro a b ha hb hp h0
          rw [eg a ha] at h0 ⊢
          rw [eg b hb]
          exact gs.valid a b ha hb hp h0
        · rintro ⟨c1, hs⟩
          have hcl := clues_sub_gridRows.2 hs.keeps
          have hc := (cover_clues (R := s.bh) (C := s.bw) (clues s s.cells) ∅ (gridRows s.bw s.bh t.num) (clues_nodup s)).1
            ⟨cover_of_grid hs.full hs.valid, hcl⟩
          have hm := (m2 _).2 hc.2.2
          rw [← w2, List.mem_map] at hm
          obtain ⟨t', ht', e'⟩ := hm
          obtain ⟨c1', c2'⟩ := w1 t' ht'
          have := canon_ext c1' c1 (gridRows_inj (geq _ _ c2' hcl e'))
          rw [← this]; exact ht'
    · rw [e1]
      have hnone : ∀ g, ¬ IsSolution s.bw s.bh s.num g := by
        intro g hs
        have hcl := clues_sub_gridRows.2 hs.keeps
        exact hno ((cover_clues (R := s.bh) (C := s.bw) (clues s s.cells) ∅ (gridRows s.bw s.bh g) (clues_nodup s)).1
          ⟨cover_of_grid hs.full hs.valid, hcl⟩).1
      refine Or.inl ⟨[], rfl, by simp, fun t => ?_, fun ⟨g, hg⟩ => absurd hg (hnone g)⟩
      simp only [List.not_mem_nil, false_iff, not_and]
      intro _ hs
      exact hnone _ hs
  have hemp : s.copy.empty.length = s.empty.length := by
    have : s.copy.empty = s.empty := by
      have hc : s.copy.cells = s.cells := by rw [Sudoku.copy_eq]; rfl
      unfold Sudoku.empty
      rw [hc]
      refine List.filter_congr fun a ha => ?_
      have := (Sudoku.mem_cells s).1 ha
      rw [Sudoku.copy_eq]; simp [Sudoku.get, this]
    rw [this]
  have h := main s.copy
  unfold Result Solvable at h ⊢
  simp only [copy_bw, copy_bh, solution_copy, hemp] at h
  have e := rfl (a := dlx π fuel s)
  conv at e => rhs; unfold dlx
  simp only [copy_bw, copy_bh] at e
  rw [e]
  exact h

theorem dlx_spec {π : Orders} (hπ : π.Ok) (s : Sudoku) (fuel : Nat) (hf : s.empty.length < fuel) :
    ∃ sols, dlx π fuel s = .ok sols ∧ sols.Nodup ∧
      ∀ t, t ∈ sols ↔ Solve.Canon s.bw s.bh t ∧ IsSolution s.bw s.bh s.num t.num := by
  rcases dlx_result hπ s fuel with ⟨sols, h1, h2, h3, -⟩ | ⟨-, h⟩
  · exact ⟨sols, h1, h2, h3⟩
  · omega

end Dlx
