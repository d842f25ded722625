import Verif.Proofs.FewTables
import Verif.Props.Reach
import Verif.Props.Store

set_option autoImplicit false

/-!
# Sudokus given by a full grid and the places of the clues
-/

open Spec

namespace Few

/-- A description as grid: 0 stands for 1, ... -/
def gridOf (w h : Nat) (l : List Nat) : Grid := fun a => (l.getD (idx (w * h) a) 0 : Nat) + 1

/-- The sudoku with the clues of `l` at the places `F`. -/
def puzzle (w h : Nat) (l F : List Nat) : Grid := fun a => if idx (w * h) a ∈ F then gridOf w h l a else 0

theorem gridOf_pos (w h : Nat) (l : List Nat) (a : Cell) : gridOf w h l a ≠ 0 := by unfold gridOf; omega

theorem puzzle_ne {w h : Nat} {l F : List Nat} {a : Cell} : puzzle w h l F a ≠ 0 ↔ idx (w * h) a ∈ F := by
  unfold puzzle
  split
  · rename_i H; exact ⟨fun _ => H, fun _ => gridOf_pos _ _ _ _⟩
  · rename_i H; exact ⟨fun h => absurd rfl h, fun h => absurd h H⟩

theorem full_gridOf {w h : Nat} {l : List Nat} (hl : l ∈ grids w h (w * h * (w * h))) : Full w h (gridOf w h l) := by
  obtain ⟨-, h1, h2⟩ := of_mem_grids hl
  refine ⟨fun a ha => ?_, fun a b ha hb hp h0 e => ?_⟩
  · have := h1 _ (idx_lt ha)
    unfold gridOf IsNumber
    omega
  · refine h2 _ (idx_lt ha) _ (idx_lt hb) (by rw [cellAt_idx ha.2, cellAt_idx hb.2]; exact hp) ?_
    unfold gridOf at e
    omega

/-- Every full grid has such a description, too. -/
theorem exists_gridOf {w h : Nat} {g : Grid} (hg : Full w h g) :
    ∃ l ∈ grids w h (w * h * (w * h)), ∀ a, InGrid w h a → g a = gridOf w h l a := by
  refine ⟨(List.range (w * h * (w * h))).map fun i => (g (cellAt (w * h) i) - 1).toNat, mem_grids (fun i hi => ?_) (fun i hi j hj hp e => ?_),
    fun a ha => ?_⟩
  · have := hg.1 _ (inGrid_cellAt hi)
    unfold IsNumber at this
    omega
  · have h1 := hg.1 _ (inGrid_cellAt hi)
    have h2 := hg.1 _ (inGrid_cellAt hj)
    have := hg.2 _ _ (inGrid_cellAt hi) (inGrid_cellAt hj) hp (by unfold IsNumber at h1; omega)
    unfold IsNumber at h1 h2
    omega
  · have h1 := hg.1 a ha
    unfold IsNumber at h1
    have hi := idx_lt ha
    rw [gridOf, List.getD_eq_getElem?_getD, List.getElem?_map, List.getElem?_range hi]
    simp only [Option.map_some, Option.getD_some, cellAt_idx ha.2]
    omega

theorem solution_puzzle {w h : Nat} {l l' F : List Nat} (hl' : l' ∈ grids w h (w * h * (w * h))) (hF : ∀ i ∈ F, l'.getD i 0 = l.getD i 0) :
    IsSolution w h (puzzle w h l F) (gridOf w h l') := by
  refine ⟨fun a ha h0 => ?_, (full_gridOf hl').1, (full_gridOf hl').2⟩
  have hm := puzzle_ne.1 h0
  rw [puzzle, if_pos hm, gridOf, gridOf, hF _ hm]

theorem unique_puzzle {w h : Nat} {l F : List Nat} (hl : l ∈ grids w h (w * h * (w * h))) (hlt : ∀ i ∈ F, i < w * h * (w * h))
    (H : ∀ l' ∈ grids w h (w * h * (w * h)), (∀ i ∈ F, l'.getD i 0 = l.getD i 0) → l' = l) : UniqueSolution w h (puzzle w h l F) := by
  refine ⟨gridOf w h l, solution_puzzle hl fun _ _ => rfl, fun g' hg' a ha => ?_⟩
  obtain ⟨l', hl', h1⟩ := exists_gridOf ⟨hg'.full, hg'.valid⟩
  rw [h1 a ha, H l' hl' fun i hi => ?_]
  have hin := inGrid_cellAt (hlt i hi)
  have hm : idx (w * h) (cellAt (w * h) i) ∈ F := by rw [idx_cellAt]; exact hi
  have h2 := hg'.keeps _ hin (puzzle_ne.2 hm)
  rw [h1 _ hin, puzzle, if_pos hm, gridOf, gridOf, idx_cellAt] at h2
  omega

theorem not_unique_puzzle {w h : Nat} {l l' F : List Nat} (hl : l ∈ grids w h (w * h * (w * h))) (hl' : l' ∈ grids w h (w * h * (w * h)))
    (hne : l' ≠ l) (hF : ∀ i ∈ F, l'.getD i 0 = l.getD i 0) : ¬ UniqueSolution w h (puzzle w h l F) := by
  rintro ⟨g, -, hu⟩
  have h1 := hu _ (solution_puzzle hl fun _ _ => rfl)
  have h2 := hu _ (solution_puzzle hl' hF)
  apply hne
  have hlen := (of_mem_grids hl).1
  have hlen' := (of_mem_grids hl').1
  refine List.ext_getElem (by omega) fun i hi hi' => ?_
  have hin := inGrid_cellAt (w := w) (h := h) (i := i) (by omega)
  have := (h1 _ hin).symm.trans (h2 _ hin)
  rw [gridOf, gridOf, idx_cellAt, List.getD_eq_getElem _ _ hi, List.getD_eq_getElem _ _ hi'] at this
  omega

/-- Only the fields of the grid matter. -/
theorem unique_congr {w h : Nat} {s t : Grid} (hst : SameGrid w h s t) (hs : UniqueSolution w h s) : UniqueSolution w h t := by
  obtain ⟨g, hg, hu⟩ := hs
  have key : ∀ {s t : Grid}, SameGrid w h s t → ∀ g, IsSolution w h s g → IsSolution w h t g := fun hst g hg =>
    ⟨fun a ha h0 => by rw [← hst a ha] at h0 ⊢; exact hg.keeps a ha h0, hg.full, hg.valid⟩
  exact ⟨g, key hst g hg, fun g' hg' => hu g' (key (fun a ha => (hst a ha).symm) g' hg')⟩

/-- If each single clue is needed, nothing can be left out. -/
theorem irreducible_of_single {w h : Nat} {s : Grid} (hs : UniqueSolution w h s)
    (H : ∀ a, InGrid w h a → s a ≠ 0 → ¬ UniqueSolution w h (fun b => if b = a then 0 else s b)) : Props.Irreducible none w h s := by
  rintro D - ⟨a, ha, hD, h0⟩ ⟨g, hg, hu⟩
  obtain ⟨g0, hg0, -⟩ := hs
  have less : ∀ {g'}, IsSolution w h (fun b => if b = a then 0 else s b) g' → IsSolution w h (fun b => if D b = true then 0 else s b) g' := by
    intro g' hg'
    refine ⟨fun b hb hb0 => ?_, hg'.full, hg'.valid⟩
    by_cases hDb : D b = true
    · rw [if_pos hDb] at hb0; exact absurd rfl hb0
    · rw [if_neg hDb] at hb0 ⊢
      have hne : b ≠ a := by rintro rfl; exact hDb hD
      have := hg'.keeps b hb (by rw [if_neg hne]; exact hb0)
      rwa [if_neg hne] at this
  refine H a ha h0 ⟨g0, ⟨fun b hb hb0 => ?_, hg0.full, hg0.valid⟩, fun g' hg' b hb => ?_⟩
  · by_cases e : b = a
    · rw [if_pos e] at hb0; exact absurd rfl hb0
    · rw [if_neg e] at hb0 ⊢; exact hg0.keeps b hb hb0
  · have h1 : IsSolution w h (fun b => if b = a then 0 else s b) g0 := by
      refine ⟨fun b hb hb0 => ?_, hg0.full, hg0.valid⟩
      by_cases e : b = a
      · rw [if_pos e] at hb0; exact absurd rfl hb0
      · rw [if_neg e] at hb0 ⊢; exact hg0.keeps b hb hb0
    exact (hu g0 (less h1) b hb).symm.trans (hu g' (less hg') b hb)

/-- ... and conversely. -/
theorem single_of_irreducible {w h : Nat} {s : Grid} (H : Props.Irreducible none w h s) (a : Cell) (ha : InGrid w h a) (h0 : s a ≠ 0) :
    ¬ UniqueSolution w h (fun b => if b = a then 0 else s b) := by
  have := H (fun b => decide (b = a)) ⟨by simp, by simp, by simp, by simp, by simp⟩ ⟨a, ha, by simp, h0⟩
  simpa using this

theorem count_eq (s : Sudoku) : s.count = (filledIdx s.bw s.bh s.get).length := by
  have hp : s.filled.Perm ((filledIdx s.bw s.bh s.get).map (cellAt (s.bw * s.bh))) := by
    rw [List.perm_ext_iff_of_nodup]
    · intro a
      rw [(Props.C08_empty_filled s).2.2 a, List.mem_map]
      constructor
      · rintro ⟨ha, h0⟩
        exact ⟨_, (mem_filledIdx ha).2 h0, cellAt_idx ha.2⟩
      · rintro ⟨i, hi, rfl⟩
        obtain ⟨h1, h2⟩ := List.mem_filter.1 hi
        exact ⟨inGrid_cellAt (List.mem_range.1 h1), by simpa using h2⟩
    · refine (Props.C08_empty_filled s).2.1.imp fun h e => ?_
      subst e
      unfold Props.RowMajor at h
      omega
    · refine (List.nodup_range.filter _).map fun x y e => ?_
      rw [← idx_cellAt (s.bw * s.bh) x, e, idx_cellAt]
  have := hp.length_eq
  rwa [List.length_map] at this

end Few
