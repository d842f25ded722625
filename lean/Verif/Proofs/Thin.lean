import Verif.Proofs.Complement

set_option autoImplicit false

/-! Helper lemmas: empty fields that can be filled one after the other, each being the last of some unit. -/

open Spec

namespace Solvers

theorem share_surj {w h : Nat} {g : Grid} (full : ∀ a, InGrid w h a → IsNumber w h (g a)) (valid : NoConflict w h g) (k : Line) {a : Cell}
    (ha : InGrid w h a) {v : Int} (hv : IsNumber w h v) : ∃ b, InGrid w h b ∧ Share w h k a b ∧ g b = v := by
  obtain ⟨p, hp, e⟩ := unit_surj full valid (unit_of (Sudoku.new w h) (lineIdx k) ha) hv
  have hp' := mem_unitFields.1 ((mem_unitOf (s := Sudoku.new w h) ha).1 hp)
  exact ⟨p, hp'.1, hp'.2, e⟩

/-- Each nonempty set of fields with `P` contains a field that is the only one of the set in one of its units. -/
def ThinSet (w h : Nat) (P : Cell → Prop) : Prop :=
  ∀ D : Finset Cell, D.Nonempty → (∀ a ∈ D, InGrid w h a ∧ P a) → ∃ a ∈ D, ∃ k, ∀ b ∈ D, Share w h k a b → b = a

theorem thin_unique {w h : Nat} {s g g' : Grid} (hth : ThinSet w h fun a => s a = 0) (hg : IsSolution w h s g) (hg' : IsSolution w h s g') :
    SameGrid w h g g' := by
  set D := (fields w h).filter fun a => g a ≠ g' a with hD
  have hmem : ∀ a, a ∈ D ↔ InGrid w h a ∧ g a ≠ g' a := fun a => by rw [hD, Finset.mem_filter, mem_fields]
  by_contra hne
  have hDn : D.Nonempty := by
    unfold SameGrid at hne
    push Not at hne
    obtain ⟨a, ha, h⟩ := hne
    exact ⟨a, (hmem a).2 ⟨ha, h⟩⟩
  obtain ⟨a, ha, k, hk⟩ := hth D hDn fun a ha => by
    obtain ⟨h1, h2⟩ := (hmem a).1 ha
    refine ⟨h1, ?_⟩
    by_contra h0
    exact h2 ((hg.keeps a h1 h0).trans (hg'.keeps a h1 h0).symm)
  obtain ⟨h1, h2⟩ := (hmem a).1 ha
  obtain ⟨b, hb, hs, e⟩ := share_surj hg.full hg.valid k h1 (hg'.full a h1)
  have hba : b ≠ a := by rintro rfl; exact h2 e
  have hbD : b ∉ D := fun h => hba (hk b h hs)
  have hb' : g b = g' b := by
    by_contra h
    exact hbD ((hmem b).2 ⟨hb, h⟩)
  have h0 : g' a ≠ 0 := by have := (hg'.full a h1).1; omega
  exact hg'.valid a b h1 hb (peer_of_share hs hba.symm) h0 (e.symm.trans hb')

theorem thin_single {g : Grid} {t : Sudoku} (hn : Neat g t) (hnum : ∀ a, InGrid t.bw t.bh a → ∀ v ∈ t.cand a, IsNumber t.bw t.bh v)
    (hth : ThinSet t.bw t.bh fun a => t.num a = 0) (he : t.empty ≠ []) : ¬ Idle t .nakedSingle := by
  intro h1
  have hmem : ∀ a, a ∈ t.empty.toFinset ↔ InGrid t.bw t.bh a ∧ t.num a = 0 := by
    intro a
    rw [List.mem_toFinset, Sudoku.empty, List.mem_filter, Sudoku.mem_cells]
    simp [Sudoku.get]
  obtain ⟨a, ha, k, hk⟩ := hth t.empty.toFinset (by
    obtain ⟨x, hx⟩ := List.exists_mem_of_ne_nil _ he
    exact ⟨x, List.mem_toFinset.2 hx⟩) fun a ha => (hmem a).1 ha
  obtain ⟨ha1, ha0⟩ := (hmem a).1 ha
  obtain ⟨v, hv, hne⟩ := Finset.exists_mem_ne (two_cands hn h1 ha1 ha0) (g a)
  have hau : a ∈ unitFields t k a := mem_unitFields.2 ⟨ha1, by cases k <;> [rfl; rfl; exact ⟨rfl, rfl⟩]⟩
  obtain ⟨b, hb, e⟩ := cand_open hn hau ha0 hv (hnum a ha1 v hv)
  obtain ⟨hbu, hb0⟩ := mem_open.1 hb
  have := hk b ((hmem b).2 ⟨inGrid_of_unit hbu, hb0⟩) (mem_unitFields.1 hbu).2
  rw [this] at e
  exact hne e.symm

theorem ThinSet.mono {w h : Nat} {P Q : Cell → Prop} (hP : ThinSet w h P) (hPQ : ∀ a, InGrid w h a → Q a → P a) : ThinSet w h Q :=
  fun D hD hall => hP D hD fun a ha => ⟨(hall a ha).1, hPQ a (hall a ha).1 (hall a ha).2⟩

/-- Three fields are always thin. -/
theorem thin_three {w h : Nat} {P : Cell → Prop} (E : Finset Cell) (hE : ∀ a, InGrid w h a → P a → a ∈ E) (hc : E.card ≤ 3) : ThinSet w h P := by
  intro D hD hall
  by_contra hno
  push Not at hno
  obtain ⟨a, ha⟩ := hD
  obtain ⟨b, hb, hab, hba⟩ := hno a ha .row
  obtain ⟨c, hcD, hac, hca⟩ := hno a ha .column
  obtain ⟨d, hd, hbd, hdb⟩ := hno b hb .column
  change a.1 = b.1 at hab
  change a.2 = c.2 at hac
  change b.2 = d.2 at hbd
  have hba2 : b.2 ≠ a.2 := fun e => hba (Prod.ext hab.symm e)
  have hbc : b ≠ c := by rintro rfl; exact hba2 hac.symm
  have hda : d ≠ a := by rintro rfl; exact hba2 hbd
  have hdc : d ≠ c := by rintro rfl; exact hba2 (hbd.trans hac.symm)
  have hsub : ({a, b, c, d} : Finset Cell) ⊆ E := by
    intro x hx
    simp only [Finset.mem_insert, Finset.mem_singleton] at hx
    rcases hx with rfl | rfl | rfl | rfl
    · exact hE _ (hall _ ha).1 (hall _ ha).2
    · exact hE _ (hall _ hb).1 (hall _ hb).2
    · exact hE _ (hall _ hcD).1 (hall _ hcD).2
    · exact hE _ (hall _ hd).1 (hall _ hd).2
  have h4 : ({a, b, c, d} : Finset Cell).card = 4 := by
    rw [Finset.card_insert_of_notMem, Finset.card_insert_of_notMem, Finset.card_insert_of_notMem, Finset.card_singleton]
    · rw [Finset.mem_singleton]; exact hdc.symm
    · simp only [Finset.mem_insert, Finset.mem_singleton, not_or]; exact ⟨hbc, hdb.symm⟩
    · simp only [Finset.mem_insert, Finset.mem_singleton, not_or]; exact ⟨hba.symm, hca.symm, hda.symm⟩
  have := Finset.card_le_card hsub
  omega

/-- Fields that are each alone in a unit of one kind are thin. -/
theorem thin_line {w h : Nat} {P : Cell → Prop} (k : Line) (hk : ∀ a b, InGrid w h a → InGrid w h b → P a → P b → Share w h k a b → a = b) :
    ThinSet w h P := by
  rintro D ⟨a, ha⟩ hall
  exact ⟨a, ha, k, fun b hb hs => (hk a b (hall a ha).1 (hall b hb).1 (hall a ha).2 (hall b hb).2 hs).symm⟩

end Solvers
