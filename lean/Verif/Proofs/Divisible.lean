import Verif.Proofs.FreeAction
import Verif.Proofs.DlxSearch
import Verif.CountSpec

set_option autoImplicit false

/-! # Exchanging what does not occur among the filled fields -/

open Spec

namespace Divisible

theorem mem_missingNumbers {w h : Nat} {s : Grid} {v : Int} : v ∈ missingNumbers w h s ↔ IsNumber w h v ∧ Missing w h s v := by
  unfold missingNumbers
  rw [Finset.mem_filter, Finset.mem_Icc]
  rfl

theorem mem_emptyRows {w h : Nat} {s : Grid} {b r : Nat} : r ∈ emptyRows w h s b ↔ r < w * h ∧ r / h = b ∧ EmptyRow w h s r := by
  unfold emptyRows
  rw [Finset.mem_filter, Finset.mem_range]

theorem mem_emptyCols {w h : Nat} {s : Grid} {b c : Nat} : c ∈ emptyCols w h s b ↔ c < w * h ∧ c / w = b ∧ EmptyCol w h s c := by
  unfold emptyCols
  rw [Finset.mem_filter, Finset.mem_range]

theorem mem_emptyRowsOfBoxes {w h : Nat} {s : Grid} {b : Nat} :
    b ∈ emptyRowsOfBoxes w h s ↔ (∃ r, r < w * h ∧ r / h = b) ∧ ∀ r, r < w * h → r / h = b → EmptyRow w h s r := by
  unfold emptyRowsOfBoxes
  simp only [Finset.mem_filter, Finset.mem_image, Finset.mem_range]

theorem mem_emptyColumnsOfBoxes {w h : Nat} {s : Grid} {b : Nat} :
    b ∈ emptyColumnsOfBoxes w h s ↔ (∃ c, c < w * h ∧ c / w = b) ∧ ∀ c, c < w * h → c / w = b → EmptyCol w h s c := by
  unfold emptyColumnsOfBoxes
  simp only [Finset.mem_filter, Finset.mem_image, Finset.mem_range]

/-- Everything in the list solves `s`, and each solution is there once. -/
structure AllSolutions (s : Sudoku) (sols : List Sudoku) : Prop where
  nodup : sols.Nodup
  mem : ∀ t, t ∈ sols ↔ Solve.Canon s.bw s.bh t ∧ IsSolution s.bw s.bh s.get t.get

theorem dlx_all {π : Dlx.Orders} (hπ : π.Ok) {fuel : Nat} {s : Sudoku} {sols : List Sudoku} (h : Dlx.dlx π fuel s = .ok sols) : AllSolutions s sols := by
  rcases Dlx.dlx_result hπ s fuel with ⟨sols', h1, h2, h3, -⟩ | ⟨h1, -⟩
  · rw [h1] at h; injection h with h; subst h
    exact ⟨h2, h3⟩
  · rw [h1] at h; cases h

/-- Rows moved together with the boxes through them; rows with a filled field stay. -/
structure RowMove (w h : Nat) (s : Grid) (σ : Nat → Nat) : Prop where
  inj : Function.Injective σ
  lt : ∀ r, r < w * h → σ r < w * h
  box : ∀ r r', r / h = r' / h → σ r / h = σ r' / h
  stay : ∀ a, InGrid w h a → s a ≠ 0 → σ a.1 = a.1

/-- The same for columns. -/
structure ColMove (w h : Nat) (s : Grid) (σ : Nat → Nat) : Prop where
  inj : Function.Injective σ
  lt : ∀ c, c < w * h → σ c < w * h
  box : ∀ c c', c / w = c' / w → σ c / w = σ c' / w
  stay : ∀ a, InGrid w h a → s a ≠ 0 → σ a.2 = a.2

theorem RowMove.moves {w h : Nat} {s : Grid} {σ τ : Nat → Nat} (m : RowMove w h s σ) (n : ColMove w h s τ) : FreeAction.Moves w h s σ τ :=
  ⟨m.inj, n.inj, m.lt, n.lt, m.box, n.box, fun a ha h0 => ⟨m.stay a ha h0, n.stay a ha h0⟩⟩

theorem rowFixed {w h : Nat} (s : Grid) : RowMove w h s fun r => r := ⟨fun _ _ e => e, fun _ h => h, fun _ _ h => h, fun _ _ _ => rfl⟩
theorem colFixed {w h : Nat} (s : Grid) : ColMove w h s fun r => r := ⟨fun _ _ e => e, fun _ h => h, fun _ _ h => h, fun _ _ _ => rfl⟩

theorem emptyRows_div {w h : Nat} {s : Grid} (i r : Nat) (hr : r ∈ emptyRows w h s i) : r / h = i := (mem_emptyRows.1 hr).2.1
theorem emptyCols_div {w h : Nat} {s : Grid} (i r : Nat) (hr : r ∈ emptyCols w h s i) : r / w = i := (mem_emptyCols.1 hr).2.1

theorem rowGroups {w h n : Nat} {s : Grid} (g : FreeAction.Groups n fun i r => r ∈ emptyRows w h s i) : RowMove w h s (g.map h) where
  inj := FreeAction.Groups.map_inj emptyRows_div g
  lt r hr := by
    rcases g.map_or (k := h) r with e | e
    · rwa [e]
    · exact (mem_emptyRows.1 e.2.2).1
  box r r' e := by rw [FreeAction.Groups.map_div emptyRows_div, FreeAction.Groups.map_div emptyRows_div, e]
  stay a ha h0 := by
    rcases g.map_or (k := h) a.1 with e | e
    · exact e
    · exact absurd ((mem_emptyRows.1 e.2.1).2.2 a.2 ha.2) h0

theorem colGroups {w h n : Nat} {s : Grid} (g : FreeAction.Groups n fun i r => r ∈ emptyCols w h s i) : ColMove w h s (g.map w) where
  inj := FreeAction.Groups.map_inj emptyCols_div g
  lt r hr := by
    rcases g.map_or (k := w) r with e | e
    · rwa [e]
    · exact (mem_emptyCols.1 e.2.2).1
  box r r' e := by rw [FreeAction.Groups.map_div emptyCols_div, FreeAction.Groups.map_div emptyCols_div, e]
  stay a ha h0 := by
    rcases g.map_or (k := w) a.2 with e | e
    · exact e
    · exact absurd ((mem_emptyCols.1 e.2.1).2.2 a.1 ha.1) h0

theorem rowBlocks {w h : Nat} {s : Grid} (hh : 0 < h) (σ : Equiv.Perm {b // b ∈ emptyRowsOfBoxes w h s}) : RowMove w h s (FreeAction.blocks h (Equiv.Perm.ofSubtype σ)) where
  inj := FreeAction.blocks_inj hh _
  lt r hr := by
    by_cases hb : r / h ∈ emptyRowsOfBoxes w h s
    · obtain ⟨⟨r', hr', e⟩, -⟩ := mem_emptyRowsOfBoxes.1 ((Equiv.Perm.ofSubtype_apply_mem_iff_mem σ _).2 hb)
      rw [← Nat.div_lt_iff_lt_mul hh] at hr' ⊢
      rwa [FreeAction.blocks_div hh, ← e]
    · rwa [FreeAction.blocks_fix (Equiv.Perm.ofSubtype_apply_of_not_mem σ hb)]
  box r r' e := by rw [FreeAction.blocks_div hh, FreeAction.blocks_div hh, e]
  stay a ha h0 := FreeAction.blocks_fix (Equiv.Perm.ofSubtype_apply_of_not_mem σ fun hb => h0 ((mem_emptyRowsOfBoxes.1 hb).2 a.1 ha.1 rfl a.2 ha.2))

theorem colBlocks {w h : Nat} {s : Grid} (hh : 0 < w) (σ : Equiv.Perm {b // b ∈ emptyColumnsOfBoxes w h s}) :
    ColMove w h s (FreeAction.blocks w (Equiv.Perm.ofSubtype σ)) where
  inj := FreeAction.blocks_inj hh _
  lt r hr := by
    by_cases hb : r / w ∈ emptyColumnsOfBoxes w h s
    · obtain ⟨⟨r', hr', e⟩, -⟩ := mem_emptyColumnsOfBoxes.1 ((Equiv.Perm.ofSubtype_apply_mem_iff_mem σ _).2 hb)
      rw [Nat.mul_comm, ← Nat.div_lt_iff_lt_mul hh] at hr' ⊢
      rwa [FreeAction.blocks_div hh, ← e]
    · rwa [FreeAction.blocks_fix (Equiv.Perm.ofSubtype_apply_of_not_mem σ hb)]
  box r r' e := by rw [FreeAction.blocks_div hh, FreeAction.blocks_div hh, e]
  stay a ha h0 := FreeAction.blocks_fix (Equiv.Perm.ofSubtype_apply_of_not_mem σ fun hb => h0 ((mem_emptyColumnsOfBoxes.1 hb).2 a.2 ha.2 rfl a.1 ha.1))

section
variable {s : Sudoku} {sols : List Sudoku} (hs : AllSolutions s sols)
include hs

theorem AllSolutions.numbers : (missingNumbers s.bw s.bh s.get).card.factorial ∣ sols.length := by
  set p : Int → Prop := fun v => v ∈ missingNumbers s.bw s.bh s.get with hp
  have hcard : Nat.card (Equiv.Perm (Subtype p)) = (missingNumbers s.bw s.bh s.get).card.factorial := by
    rw [Nat.card_eq_fintype_card, Fintype.card_perm]
    simp [hp]
  have h0 : ∀ σ : Equiv.Perm (Subtype p), Equiv.Perm.ofSubtype σ 0 = 0 := fun σ =>
    Equiv.Perm.ofSubtype_apply_of_not_mem σ fun h => by
      have := (mem_missingNumbers.1 h).1
      unfold IsNumber at this
      omega
  rw [← hcard]
  refine FreeAction.dvd sols hs.nodup (fun σ t => { t with num := fun a => Equiv.Perm.ofSubtype σ (t.num a) }) ?_ ?_ ?_ ?_
  · intro σ t ht
    obtain ⟨⟨h1, h2, h3, h4⟩, hg⟩ := (hs.mem t).1 ht
    refine (hs.mem _).2 ⟨⟨h1, h2, fun a ha => ?_, h4⟩, FreeAction.numbers hg (fun v hv => mem_missingNumbers.1 hv) σ⟩
    show Equiv.Perm.ofSubtype σ (t.num a) = 0
    rw [h3 a ha, h0]
  · intro t _
    simp
  · intro σ τ t _
    simp
  · intro σ t ht he
    refine FreeAction.numbers_free ((hs.mem t).1 ht).2 (fun v hv => (mem_missingNumbers.1 hv).1) σ fun a _ => ?_
    exact congrArg (fun u : Sudoku => u.num a) he

/-- Moving rows and columns. -/
theorem AllSolutions.moves {G : Type} [Group G] (f k : G → Nat → Nat) (hm : ∀ g, FreeAction.Moves s.bw s.bh s.get (f g) (k g))
    (f1 : ∀ r, f 1 r = r) (k1 : ∀ r, k 1 r = r) (fm : ∀ g g' r, f (g * g') r = f g (f g' r)) (km : ∀ g g' r, k (g * g') r = k g (k g' r))
    (hfree : ∀ g, ∀ t : Grid, IsSolution s.bw s.bh s.get t → (∀ a, InGrid s.bw s.bh a → t (f g a.1, k g a.2) = t a) → g = 1) : Nat.card G ∣ sols.length := by
  refine FreeAction.dvd sols hs.nodup (fun g t => { t with num := fun a => t.num (f g⁻¹ a.1, k g⁻¹ a.2) }) ?_ ?_ ?_ ?_
  · intro g t ht
    obtain ⟨⟨h1, h2, h3, h4⟩, hg⟩ := (hs.mem t).1 ht
    refine (hs.mem _).2 ⟨⟨h1, h2, fun a ha => ?_, h4⟩, (hm g⁻¹).solution hg⟩
    refine h3 _ fun hin => ha ⟨?_, ?_⟩
    · have := (hm g).rowIn _ hin.1
      rwa [← fm, mul_inv_cancel, f1] at this
    · have := (hm g).colIn _ hin.2
      rwa [← km, mul_inv_cancel, k1] at this
  · intro t _
    simp [f1, k1]
  · intro g g' t _
    simp [fm, km]
  · intro g t ht he
    have := hfree g⁻¹ t.num ((hs.mem t).1 ht).2 fun a _ => congrArg (fun u : Sudoku => u.num a) he
    exact inv_eq_one.1 this

theorem AllSolutions.rows : ∏ b ∈ Finset.range s.bw, (emptyRows s.bw s.bh s.get b).card.factorial ∣ sols.length := by
  rw [← FreeAction.Groups.card]
  refine hs.moves (fun g => g.map s.bh) (fun _ c => c) (fun g => (rowGroups g).moves (colFixed _)) (fun r => FreeAction.Groups.map_one r) (fun _ => rfl)
    (fun g g' r => FreeAction.Groups.map_mul emptyRows_div g g' r) (fun _ _ _ => rfl) ?_
  intro g t ht he
  refine FreeAction.Groups.eq_one emptyRows_div g fun i r hr => ?_
  have hr := (mem_emptyRows.1 hr).1
  exact FreeAction.row_eq ht ((rowGroups g).lt r hr) hr hr (he (r, r) ⟨hr, hr⟩)

theorem AllSolutions.cols : ∏ b ∈ Finset.range s.bh, (emptyCols s.bw s.bh s.get b).card.factorial ∣ sols.length := by
  rw [← FreeAction.Groups.card]
  refine hs.moves (fun _ c => c) (fun g => g.map s.bw) (fun g => (rowFixed _).moves (colGroups g)) (fun _ => rfl) (fun r => FreeAction.Groups.map_one r)
    (fun _ _ _ => rfl) (fun g g' r => FreeAction.Groups.map_mul emptyCols_div g g' r) ?_
  intro g t ht he
  refine FreeAction.Groups.eq_one emptyCols_div g fun i r hr => ?_
  have hr := (mem_emptyCols.1 hr).1
  exact FreeAction.col_eq ht hr ((colGroups g).lt r hr) hr (he (r, r) ⟨hr, hr⟩)

theorem AllSolutions.rows_cols (hclue : ∃ a, InGrid s.bw s.bh a ∧ s.get a ≠ 0) :
    (∏ b ∈ Finset.range s.bw, (emptyRows s.bw s.bh s.get b).card.factorial) * (∏ b ∈ Finset.range s.bh, (emptyCols s.bw s.bh s.get b).card.factorial) ∣ sols.length := by
  rw [← FreeAction.Groups.card, ← FreeAction.Groups.card, ← Nat.card_prod]
  refine hs.moves (fun g => g.1.map s.bh) (fun g => g.2.map s.bw) (fun g => (rowGroups g.1).moves (colGroups g.2)) (fun r => FreeAction.Groups.map_one r)
    (fun r => FreeAction.Groups.map_one r) (fun g g' r => FreeAction.Groups.map_mul emptyRows_div g.1 g'.1 r)
    (fun g g' r => FreeAction.Groups.map_mul emptyCols_div g.2 g'.2 r) ?_
  intro g t ht he
  obtain ⟨a, ha, h0⟩ := hclue
  have hc : ∀ c, c < s.bw * s.bh → g.2.map s.bw c = c := by
    intro c hc
    have := he (a.1, c) ⟨ha.1, hc⟩
    rw [(rowGroups g.1).stay a ha h0] at this
    exact FreeAction.col_eq ht ha.1 ((colGroups g.2).lt c hc) hc this
  refine Prod.ext (FreeAction.Groups.eq_one emptyRows_div g.1 fun i r hr => ?_) (FreeAction.Groups.eq_one emptyCols_div g.2 fun i c hc' => hc c (mem_emptyCols.1 hc').1)
  have hr := (mem_emptyRows.1 hr).1
  have := he (r, r) ⟨hr, hr⟩
  rw [hc r hr] at this
  exact FreeAction.row_eq ht ((rowGroups g.1).lt r hr) hr hr this

theorem AllSolutions.rowsOfBoxes : (emptyRowsOfBoxes s.bw s.bh s.get).card.factorial ∣ sols.length := by
  rcases Nat.eq_zero_or_pos s.bh with hh | hh
  · rw [Finset.card_eq_zero.2 (Finset.eq_empty_iff_forall_notMem.2 fun b hb => ?_)]
    · exact one_dvd _
    · obtain ⟨⟨r, hr, -⟩, -⟩ := mem_emptyRowsOfBoxes.1 hb
      rw [hh] at hr
      omega
  set p : Nat → Prop := fun b => b ∈ emptyRowsOfBoxes s.bw s.bh s.get with hp
  have hcard : Nat.card (Equiv.Perm (Subtype p)) = (emptyRowsOfBoxes s.bw s.bh s.get).card.factorial := by
    rw [Nat.card_eq_fintype_card, Fintype.card_perm]
    simp [hp]
  rw [← hcard]
  refine hs.moves (fun σ => FreeAction.blocks s.bh (Equiv.Perm.ofSubtype σ)) (fun _ c => c) (fun σ => (rowBlocks hh σ).moves (colFixed _))
    (fun r => by rw [map_one, FreeAction.blocks_one]) (fun _ => rfl) (fun σ τ r => by rw [map_mul, FreeAction.blocks_mul hh]) (fun _ _ _ => rfl) ?_
  intro σ t ht he
  refine Equiv.ext fun b => Subtype.ext ?_
  obtain ⟨⟨r, hr, hb⟩, -⟩ := mem_emptyRowsOfBoxes.1 b.2
  have h1 := FreeAction.row_eq ht ((rowBlocks hh σ).lt r hr) hr hr (he (r, r) ⟨hr, hr⟩)
  have h2 := congrArg (· / s.bh) h1
  simp only [FreeAction.blocks_div hh, hb, Equiv.Perm.ofSubtype_apply_coe] at h2
  exact h2

theorem AllSolutions.columnsOfBoxes : (emptyColumnsOfBoxes s.bw s.bh s.get).card.factorial ∣ sols.length := by
  rcases Nat.eq_zero_or_pos s.bw with hh | hh
  · rw [Finset.card_eq_zero.2 (Finset.eq_empty_iff_forall_notMem.2 fun b hb => ?_)]
    · exact one_dvd _
    · obtain ⟨⟨r, hr, -⟩, -⟩ := mem_emptyColumnsOfBoxes.1 hb
      rw [hh] at hr
      omega
  set p : Nat → Prop := fun b => b ∈ emptyColumnsOfBoxes s.bw s.bh s.get with hp
  have hcard : Nat.card (Equiv.Perm (Subtype p)) = (emptyColumnsOfBoxes s.bw s.bh s.get).card.factorial := by
    rw [Nat.card_eq_fintype_card, Fintype.card_perm]
    simp [hp]
  rw [← hcard]
  refine hs.moves (fun _ c => c) (fun σ => FreeAction.blocks s.bw (Equiv.Perm.ofSubtype σ)) (fun σ => (rowFixed _).moves (colBlocks hh σ))
    (fun _ => rfl) (fun r => by rw [map_one, FreeAction.blocks_one]) (fun _ _ _ => rfl) (fun σ τ r => by rw [map_mul, FreeAction.blocks_mul hh]) ?_
  intro σ t ht he
  refine Equiv.ext fun b => Subtype.ext ?_
  obtain ⟨⟨r, hr, hb⟩, -⟩ := mem_emptyColumnsOfBoxes.1 b.2
  have h1 := FreeAction.col_eq ht hr ((colBlocks hh σ).lt r hr) hr (he (r, r) ⟨hr, hr⟩)
  have h2 := congrArg (· / s.bw) h1
  simp only [FreeAction.blocks_div hh, hb, Equiv.Perm.ofSubtype_apply_coe] at h2
  exact h2
end

end Divisible
