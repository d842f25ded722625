import Verif.CallsSpec
import Verif.Proofs.Calls
import Verif.Proofs.RateRun

set_option autoImplicit false

/-! Helper lemmas: forced numbers as columns with one row, and as idle solve steps. -/

open Spec

namespace Dlx

/-- The columns of the numbers of a grid. -/
def Taken (w h : Nat) (t : Grid) (j : Col) : Prop := ∃ b, InGrid w h b ∧ t b ≠ 0 ∧ j ∈ colsOf h w (b.1, b.2, t b)

theorem box_iff {w h : Nat} {a b : Cell} (ha : InGrid w h a) (hb : InGrid w h b) :
    a.1 / h * h + a.2 / w = b.1 / h * h + b.2 / w ↔ SameBox w h a b := by
  rw [← Coordinates.boxAt_eq_iff ha hb, Coordinates.boxAt_eq_div, Coordinates.boxAt_eq_div]

theorem fits_iff {w h : Nat} {t : Grid} {i : Row} :
    (i ∈ rows (h * w) ∧ ∀ j ∈ colsOf h w i, ¬ Taken w h t j) ↔ Fits w h t (i.1, i.2.1) i.2.2 := by
  rw [mem_rows]
  constructor
  · rintro ⟨⟨h1, h2, h3⟩, hj⟩
    have hg : InGrid w h (i.1, i.2.1) := inGrid_iff.2 ⟨h1, h2⟩
    refine ⟨hg, ?_, isNumber_iff.2 h3, fun b hb hp e => ?_⟩
    · by_contra h0
      exact hj (.rc i.1 i.2.1) (by simp [colsOf]) ⟨_, hg, h0, by simp [colsOf]⟩
    · have h0 : t b ≠ 0 := by rw [e]; omega
      rcases hp.2 with hs | hs | hs
      · exact hj (.rn i.1 i.2.2) (by simp [colsOf]) ⟨b, hb, h0, by
          have hs' : i.1 = b.1 := hs
          rw [mem_colsOf]; simp only; rw [hs', e]; simp⟩
      · exact hj (.cn i.2.1 i.2.2) (by simp [colsOf]) ⟨b, hb, h0, by
          have hs' : i.2.1 = b.2 := hs
          rw [mem_colsOf]; simp only; rw [hs', e]; simp⟩
      · exact hj (.bn (i.1 / h * h + i.2.1 / w) i.2.2) (by simp [colsOf]) ⟨b, hb, h0, by
          rw [mem_colsOf]; simp only
          have := (box_iff hg hb).2 hs
          simp only at this
          rw [this, e]; simp⟩
  · rintro ⟨hg, h0, hv, hp⟩
    refine ⟨⟨(inGrid_iff.1 hg).1, (inGrid_iff.1 hg).2, isNumber_iff.1 hv⟩, ?_⟩
    rintro j hj ⟨b, hb, hb0, hjb⟩
    have key : ((i.1, i.2.1) : Cell) ≠ b := by
      rintro rfl; exact hb0 h0
    have key2 : SameRow (i.1, i.2.1) b ∨ SameCol (i.1, i.2.1) b ∨ SameBox w h (i.1, i.2.1) b → i.2.2 = t b → False :=
      fun hs e => hp b hb ⟨key, hs⟩ e.symm
    rw [mem_colsOf] at hj hjb
    rcases hj with rfl | rfl | rfl | rfl
    · simp only [Col.rc.injEq, reduceCtorEq, or_false] at hjb
      exact key (Prod.ext hjb.1 hjb.2)
    · simp only [Col.rn.injEq, reduceCtorEq, or_false, false_or] at hjb
      exact key2 (Or.inl hjb.1) hjb.2
    · simp only [Col.cn.injEq, reduceCtorEq, or_false, false_or] at hjb
      exact key2 (Or.inr (Or.inl hjb.1)) hjb.2
    · simp only [Col.bn.injEq, reduceCtorEq, false_or] at hjb
      exact key2 (Or.inr (Or.inr ((box_iff hg hb).1 hjb.1))) hjb.2

/-- A column with one row left: a field with one number, or a number with one place in a unit. -/
theorem hasAlone_iff {w h : Nat} {t : Grid} {D : Finset Col} (hD : ∀ j, j ∈ D ↔ Taken w h t j) :
    Cover.HasAlone (columns (h * w)) (rows (h * w)) (colsOf h w) D ↔ OneNumber w h t ∨ OneFits w h t := by
  have hfit : ∀ (k : Col) (i : Row), (i ∈ rows (h * w) ∧ k ∈ colsOf h w i ∧ ∀ j ∈ colsOf h w i, j ∉ D) ↔
      k ∈ colsOf h w i ∧ Fits w h t (i.1, i.2.1) i.2.2 := by
    intro k i
    rw [← fits_iff]
    simp only [hD]
    tauto
  have hal : ∀ k r, Cover.Alone (rows (h * w)) (colsOf h w) D k r ↔
      ∀ i : Row, (k ∈ colsOf h w i ∧ Fits w h t (i.1, i.2.1) i.2.2) ↔ i = r := by
    intro k r
    unfold Cover.Alone
    simp only [hfit]
  unfold Cover.HasAlone
  simp only [hal]
  constructor
  · rintro ⟨k, -, r, hr⟩
    obtain ⟨hk, hf⟩ := (hr r).2 rfl
    have hk' := hk
    rw [mem_colsOf] at hk
    rcases hk with rfl | rfl | rfl | rfl
    · refine Or.inl ⟨_, _, hf, fun u hu => ?_⟩
      have := (hr (r.1, r.2.1, u)).1 ⟨by simp [colsOf], hu⟩
      exact congrArg (fun x : Row => x.2.2) this
    · refine Or.inr ⟨_, _, hf, .row, fun b hs hb => ?_⟩
      have hs' : r.1 = b.1 := hs
      have := (hr (b.1, b.2, r.2.2)).1 ⟨by simp [colsOf, hs'], hb⟩
      rw [← this]
    · refine Or.inr ⟨_, _, hf, .column, fun b hs hb => ?_⟩
      have hs' : r.2.1 = b.2 := hs
      have := (hr (b.1, b.2, r.2.2)).1 ⟨by simp [colsOf, hs'], hb⟩
      rw [← this]
    · refine Or.inr ⟨_, _, hf, .box, fun b hs hb => ?_⟩
      have hs' := (box_iff hf.1 hb.1).2 hs
      simp only at hs'
      have := (hr (b.1, b.2, r.2.2)).1 ⟨by simp [colsOf, hs'], hb⟩
      rw [← this]
  · have hcol : ∀ a v, Fits w h t a v → ∀ j ∈ colsOf h w (a.1, a.2, v), j ∈ columns (h * w) := by
      intro a v hf j hj
      exact colsOf_sub (fits_iff (i := (a.1, a.2, v)).2 hf).1 j hj
    rintro (⟨a, v, hf, hu⟩ | ⟨a, v, hf, k, hu⟩)
    · refine ⟨.rc a.1 a.2, hcol a v hf _ (by simp [colsOf]), (a.1, a.2, v), fun i => ⟨?_, ?_⟩⟩
      · rintro ⟨h1, h2⟩
        rw [mem_colsOf] at h1
        simp only [Col.rc.injEq, reduceCtorEq, or_false] at h1
        rw [← h1.1, ← h1.2] at h2
        exact Prod.ext h1.1.symm (Prod.ext h1.2.symm (hu _ h2))
      · rintro rfl; exact ⟨by simp [colsOf], hf⟩
    · cases k with
      | row =>
        refine ⟨.rn a.1 v, hcol a v hf _ (by simp [colsOf]), (a.1, a.2, v), fun i => ⟨?_, ?_⟩⟩
        · rintro ⟨h1, h2⟩
          rw [mem_colsOf] at h1
          simp only [Col.rn.injEq, reduceCtorEq, or_false, false_or] at h1
          rw [← h1.2] at h2
          have := hu (i.1, i.2.1) h1.1 h2
          rw [← this]
          exact Prod.ext rfl (Prod.ext rfl h1.2.symm)
        · rintro rfl; exact ⟨by simp [colsOf], hf⟩
      | column =>
        refine ⟨.cn a.2 v, hcol a v hf _ (by simp [colsOf]), (a.1, a.2, v), fun i => ⟨?_, ?_⟩⟩
        · rintro ⟨h1, h2⟩
          rw [mem_colsOf] at h1
          simp only [Col.cn.injEq, reduceCtorEq, or_false, false_or] at h1
          rw [← h1.2] at h2
          have := hu (i.1, i.2.1) h1.1 h2
          rw [← this]
          exact Prod.ext rfl (Prod.ext rfl h1.2.symm)
        · rintro rfl; exact ⟨by simp [colsOf], hf⟩
      | box =>
        refine ⟨.bn (a.1 / h * h + a.2 / w) v, hcol a v hf _ (by simp [colsOf]), (a.1, a.2, v), fun i => ⟨?_, ?_⟩⟩
        · rintro ⟨h1, h2⟩
          rw [mem_colsOf] at h1
          simp only [Col.bn.injEq, reduceCtorEq, false_or] at h1
          rw [← h1.2] at h2
          have := hu _ ((box_iff hf.1 h2.1).1 h1.1) h2
          rw [← this]
          exact Prod.ext rfl (Prod.ext rfl h1.2.symm)
        · rintro rfl; exact ⟨by simp [colsOf], hf⟩

theorem mem_allCols {R C : Nat} {j : Col} (cl : List Row) : ∀ (D : Finset Col),
    j ∈ allCols R C D cl ↔ j ∈ D ∨ ∃ i ∈ cl, j ∈ colsOf R C i := by
  induction cl with
  | nil => intro D; simp [allCols]
  | cons x cl ih =>
    intro D
    simp only [allCols]
    rw [ih, Finset.mem_union, List.mem_toFinset, or_assoc]
    simp

/-- Whether the search ever has to try two rows, in terms of the sudoku. -/
structure CountG (s : Sudoku) (n : Nat) : Prop where
  ge : ∀ g, IsSolution s.bw s.bh s.num g → s.empty.length + 1 ≤ n
  forced : ∀ g, IsSolution s.bw s.bh s.num g →
    (∀ t, Between s.bw s.bh s.num t g → NotFull s.bw s.bh t → OneNumber s.bw s.bh t ∨ OneFits s.bw s.bh t) → n = s.empty.length + 1
  stuck : ∀ g, IsSolution s.bw s.bh s.num g → ∀ t, Between s.bw s.bh s.num t g → NotFull s.bw s.bh t →
    ¬ (OneNumber s.bw s.bh t ∨ OneFits s.bw s.bh t) → s.empty.length + 2 ≤ n

theorem count_grid {s : Sudoku} {n : Nat}
    (h : Cover.Count (columns (s.bh * s.bw)) (rows (s.bh * s.bw)) (colsOf s.bh s.bw) (allCols s.bh s.bw ∅ (clues s s.cells)) n) : CountG s n := by
  have hcov : ∀ g, IsSolution s.bw s.bh s.num g → IsCover s.bh s.bw (allCols s.bh s.bw ∅ (clues s s.cells))
      (gridRows s.bw s.bh g \ (clues s s.cells).toFinset) ∧
      (gridRows s.bw s.bh g \ (clues s s.cells).toFinset).card = s.empty.length := by
    intro g hs
    have hcl := clues_sub_gridRows.2 hs.keeps
    have hc := (cover_clues (R := s.bh) (C := s.bw) (clues s s.cells) ∅ (gridRows s.bw s.bh g) (clues_nodup s)).1
      ⟨cover_of_grid hs.full hs.valid, hcl⟩
    refine ⟨hc.2.2, ?_⟩
    rw [Finset.card_sdiff_of_subset (fun i hi => hcl i (List.mem_toFinset.1 hi)), card_gridRows,
      List.toFinset_card_of_nodup (clues_nodup s)]
    have := length_clues s
    omega
  have hrow : ∀ {g : Grid} {i : Row}, IsSolution s.bw s.bh s.num g → (i ∈ gridRows s.bw s.bh g \ (clues s s.cells).toFinset ↔
      InGrid s.bw s.bh (i.1, i.2.1) ∧ s.num (i.1, i.2.1) = 0 ∧ i.2.2 = g (i.1, i.2.1)) := by
    intro g i hg
    rw [Finset.mem_sdiff, mem_gridRows, List.mem_toFinset, mem_clues]
    constructor
    · rintro ⟨⟨h1, h2⟩, h3⟩
      refine ⟨h1, ?_, h2⟩
      by_contra h0
      exact h3 ⟨h1, h0, by rw [h2, hg.keeps _ h1 h0]⟩
    · rintro ⟨h1, h2, h3⟩
      exact ⟨⟨h1, h3⟩, fun h4 => h4.2.1 h2⟩
  refine ⟨fun g hg => ?_, fun g hg hF => ?_, fun g hg t ht hnf hst => ?_⟩
  · have := h.ge _ (hcov g hg).1
    rw [(hcov g hg).2] at this
    exact this
  · have := h.forced _ (hcov g hg).1 (fun S hS hne => ?_)
    · rw [(hcov g hg).2] at this
      exact this
    · classical
      let t : Grid := fun a => if s.num a ≠ 0 then s.num a else if (a.1, a.2, g a) ∈ S then g a else 0
      have hT : ∀ j, j ∈ Cover.covS (colsOf s.bh s.bw) (allCols s.bh s.bw ∅ (clues s s.cells)) S ↔ Taken s.bw s.bh t j := by
        intro j
        rw [Cover.mem_covS, mem_allCols]
        simp only [Finset.notMem_empty, false_or]
        constructor
        · rintro (⟨i, hi, hj⟩ | ⟨i, hi, hj⟩)
          · obtain ⟨h1, h2, h3⟩ := mem_clues.1 hi
            have e : t (i.1, i.2.1) = i.2.2 := by simp only [t]; rw [if_pos h2, h3]
            exact ⟨_, h1, by rw [e, h3]; exact h2, by rw [e]; exact hj⟩
          · obtain ⟨h1, h2, h3⟩ := (hrow hg).1 (hS hi)
            have e : t (i.1, i.2.1) = i.2.2 := by
              simp only [t]; rw [if_neg (by simpa using h2), if_pos (by rw [← h3]; exact hi), h3]
            refine ⟨_, h1, ?_, by rw [e]; exact hj⟩
            rw [e, h3]
            have := (hg.full _ h1).1
            omega
        · rintro ⟨b, hb, hb0, hj⟩
          by_cases h0 : s.num b ≠ 0
          · have e : t b = s.num b := by simp only [t]; rw [if_pos h0]
            exact Or.inl ⟨_, mem_clues.2 ⟨hb, h0, e⟩, hj⟩
          · by_cases hm : (b.1, b.2, g b) ∈ S
            · have e : t b = g b := by simp only [t]; rw [if_neg h0, if_pos hm]
              rw [e] at hj
              exact Or.inr ⟨_, hm, hj⟩
            · exact absurd (by simp only [t]; rw [if_neg h0, if_neg hm]) hb0
      rw [hasAlone_iff hT]
      refine hF t (fun a ha => ⟨fun h0 => by simp only [t]; rw [if_pos h0], ?_⟩) ?_
      · simp only [t]
        split
        · rename_i h0; right; exact (hg.keeps a ha h0).symm
        · split
          · right; rfl
          · left; rfl
      · obtain ⟨i, hi, hni⟩ : ∃ i ∈ gridRows s.bw s.bh g \ (clues s s.cells).toFinset, i ∉ S := by
          by_contra hno
          push Not at hno
          exact hne (Finset.Subset.antisymm hS hno)
        obtain ⟨h1, h2, h3⟩ := (hrow hg).1 hi
        refine ⟨_, h1, ?_⟩
        simp only [t]
        rw [if_neg (by simpa using h2), if_neg (by rw [← h3]; exact hni)]
  · have := h.stuck _ (hcov g hg).1 ((gridRows s.bw s.bh g \ (clues s s.cells).toFinset).filter fun i => t (i.1, i.2.1) ≠ 0)
      (Finset.filter_subset _ _) ?_ ?_
    · rw [(hcov g hg).2] at this
      exact this
    · obtain ⟨a, ha, h0⟩ := hnf
      intro e
      have hs0 : s.num a = 0 := by
        by_contra hs0
        rw [(ht a ha).1 hs0] at h0
        exact hs0 h0
      have : ((a.1, a.2, g a) : Row) ∈ gridRows s.bw s.bh g \ (clues s s.cells).toFinset := (hrow hg).2 ⟨ha, hs0, rfl⟩
      rw [← e, Finset.mem_filter] at this
      exact this.2 h0
    · rw [hasAlone_iff (t := t)]
      · exact hst
      · intro j
        rw [Cover.mem_covS, mem_allCols]
        simp only [Finset.notMem_empty, false_or, Finset.mem_filter]
        constructor
        · rintro (⟨i, hi, hj⟩ | ⟨i, ⟨hi, h0⟩, hj⟩)
          · obtain ⟨h1, h2, h3⟩ := mem_clues.1 hi
            have e : t (i.1, i.2.1) = i.2.2 := by rw [(ht _ h1).1 h2, h3]
            exact ⟨_, h1, by rw [e, h3]; exact h2, by rw [e]; exact hj⟩
          · obtain ⟨h1, h2, h3⟩ := (hrow hg).1 hi
            have e : t (i.1, i.2.1) = i.2.2 := by rw [((ht _ h1).2.resolve_left h0), h3]
            exact ⟨_, h1, h0, by rw [e]; exact hj⟩
        · rintro ⟨b, hb, hb0, hj⟩
          by_cases h0 : s.num b ≠ 0
          · exact Or.inl ⟨_, mem_clues.2 ⟨hb, h0, (ht b hb).1 h0⟩, hj⟩
          · exact Or.inr ⟨_, ⟨(hrow hg).2 ⟨hb, by simpa using h0, (ht b hb).2.resolve_left hb0⟩, hb0⟩, hj⟩

theorem copy_empty (s : Sudoku) : s.copy.empty = s.empty := by
  have hc : s.copy.cells = s.cells := by rw [Sudoku.copy_eq]; rfl
  unfold Sudoku.empty
  rw [hc]
  refine List.filter_congr fun a ha => ?_
  have := (Sudoku.mem_cells s).1 ha
  rw [Sudoku.copy_eq]; simp [Sudoku.get, this]

theorem dlxN_count {π : Orders} (hπ : π.Ok) {fuel : Nat} {s : Sudoku} {sols : List Sudoku} {n : Nat}
    (h : dlxN π fuel s = .ok (sols, n)) : CountG s n := by
  have hc : CountG s.copy n := by
    unfold dlxN at h
    simp only at h
    obtain ⟨X, e, r⟩ := exactCover_ok (R := s.copy.bh) (C := s.copy.bw)
    rw [e] at h
    simp only at h
    rcases selectGiven_spec s.copy s.copy.cells X ∅ r with ⟨hok, X1, e1, r1⟩ | ⟨hno, e1⟩
    · rw [e1] at h
      simp only at h
      cases e2 : searchN π (matrix s.copy.bh s.copy.bw) fuel X1 [] with
      | error x => rw [e2] at h; cases h
      | ok q =>
        obtain ⟨a, X', m⟩ := q
        rw [e2] at h
        cases h
        exact count_grid (Cover.searchN_count hπ fuel _ _ _ _ _ _ r1 e2).2
    · have hnone : ∀ g, ¬ IsSolution s.copy.bw s.copy.bh s.copy.num g := by
        intro g hs
        have hcl := clues_sub_gridRows.2 hs.keeps
        exact hno ((cover_clues (R := s.copy.bh) (C := s.copy.bw) (clues s.copy s.copy.cells) ∅ (gridRows s.copy.bw s.copy.bh g) (clues_nodup s.copy)).1
          ⟨cover_of_grid hs.full hs.valid, hcl⟩).1
      exact ⟨fun g hg => absurd hg (hnone g), fun g hg => absurd hg (hnone g), fun g hg => absurd hg (hnone g)⟩
  have hb : ∀ t g, Between s.copy.bw s.copy.bh s.copy.num t g ↔ Between s.bw s.bh s.num t g := by
    intro t g
    unfold Between
    rw [copy_bw, copy_bh]
    refine forall_congr' fun a => forall_congr' fun ha => ?_
    have : s.copy.num a = s.num a := by rw [Sudoku.copy_eq]; simp [ha]
    rw [this]
  refine ⟨fun g hg => ?_, fun g hg hF => ?_, fun g hg t ht => ?_⟩
  · have := hc.ge g (by rw [copy_bw, copy_bh, solution_copy]; exact hg)
    rw [copy_empty] at this; exact this
  · have := hc.forced g (by rw [copy_bw, copy_bh, solution_copy]; exact hg) (fun t ht => by
      rw [copy_bw, copy_bh]; exact hF t ((hb t g).1 ht))
    rw [copy_empty] at this; exact this
  · have := hc.stuck g (by rw [copy_bw, copy_bh, solution_copy]; exact hg) t ((hb t g).2 ht)
    rw [copy_empty, copy_bw, copy_bh] at this; exact this

end Dlx
