import Verif.Proofs.Units
import Mathlib.Data.Finset.Card
import Mathlib.Order.Interval.Finset.Basic
import Mathlib.Data.Int.Interval
import Mathlib.Data.Finset.Dedup

set_option autoImplicit false

/-! In a solution each unit contains each number. -/

open Spec Geometry

namespace Geometry

theorem unit_surj {w h : Nat} {g : Grid} (full : ∀ a, InGrid w h a → IsNumber w h (g a)) (valid : NoConflict w h g)
    (U : List Cell) (nd : U.Nodup) (len : U.length = w * h) (inG : ∀ a ∈ U, InGrid w h a)
    (peers : ∀ a ∈ U, ∀ b ∈ U, a ≠ b → Peer w h a b) (v : Int) (hv : IsNumber w h v) : ∃ a ∈ U, g a = v := by
  have hsub : U.toFinset.image g ⊆ Finset.Icc 1 ((w * h : Nat) : Int) := by
    intro x hx
    rw [Finset.mem_image] at hx
    obtain ⟨a, ha, rfl⟩ := hx
    rw [List.mem_toFinset] at ha
    exact Finset.mem_Icc.2 (full a (inG a ha))
  have hcard : (U.toFinset.image g).card = w * h := by
    rw [Finset.card_image_of_injOn, List.toFinset_card_of_nodup nd, len]
    intro a ha b hb e
    by_contra hne
    simp only [List.coe_toFinset, Set.mem_ofPred_eq] at ha hb
    exact valid a b (inG a ha) (inG b hb) (peers a ha b hb hne) (by have := (full a (inG a ha)).1; omega) e
  have heq : U.toFinset.image g = Finset.Icc 1 ((w * h : Nat) : Int) := by
    apply Finset.eq_of_subset_of_card_le hsub
    rw [hcard, Int.card_Icc]; omega
  have hv' : v ∈ U.toFinset.image g := by rw [heq]; exact Finset.mem_Icc.2 hv
  rw [Finset.mem_image] at hv'
  obtain ⟨a, ha, e⟩ := hv'
  exact ⟨a, List.mem_toFinset.1 ha, e⟩

/-- The units as lists. -/
theorem row_surj {w h : Nat} {g : Grid} (full : ∀ a, InGrid w h a → IsNumber w h (g a)) (valid : NoConflict w h g)
    {r : Nat} (hr : r < w * h) {v : Int} (hv : IsNumber w h v) : ∃ c, c < w * h ∧ g (r, c) = v := by
  obtain ⟨a, ha, e⟩ := unit_surj full valid ((List.range (w * h)).map fun c => (r, c))
    (List.nodup_range.map fun a b h => by simpa using h) (by simp)
    (by intro a ha; simp only [List.mem_map, List.mem_range] at ha; obtain ⟨c, hc, rfl⟩ := ha; exact ⟨hr, hc⟩)
    (by
      intro a ha b hb hne
      simp only [List.mem_map, List.mem_range] at ha hb
      obtain ⟨c, hc, rfl⟩ := ha
      obtain ⟨d, hd, rfl⟩ := hb
      exact ⟨hne, Or.inl rfl⟩) v hv
  simp only [List.mem_map, List.mem_range] at ha
  obtain ⟨c, hc, rfl⟩ := ha
  exact ⟨c, hc, e⟩

theorem col_surj {w h : Nat} {g : Grid} (full : ∀ a, InGrid w h a → IsNumber w h (g a)) (valid : NoConflict w h g)
    {c : Nat} (hc : c < w * h) {v : Int} (hv : IsNumber w h v) : ∃ r, r < w * h ∧ g (r, c) = v := by
  obtain ⟨a, ha, e⟩ := unit_surj full valid ((List.range (w * h)).map fun r => (r, c))
    (List.nodup_range.map fun a b h => by simpa using h) (by simp)
    (by intro a ha; simp only [List.mem_map, List.mem_range] at ha; obtain ⟨r, hr, rfl⟩ := ha; exact ⟨hr, hc⟩)
    (by
      intro a ha b hb hne
      simp only [List.mem_map, List.mem_range] at ha hb
      obtain ⟨r, hr, rfl⟩ := ha
      obtain ⟨d, hd, rfl⟩ := hb
      exact ⟨hne, Or.inr (Or.inl rfl)⟩) v hv
  simp only [List.mem_map, List.mem_range] at ha
  obtain ⟨r, hr, rfl⟩ := ha
  exact ⟨r, hr, e⟩

theorem box_surj {w h : Nat} {g : Grid} (full : ∀ a, InGrid w h a → IsNumber w h (g a)) (valid : NoConflict w h g)
    {b : Nat} (hb : b < w * h) {v : Int} (hv : IsNumber w h v) :
    ∃ a, InGrid w h a ∧ Coordinates.boxAt a.1 a.2 w h = b ∧ g a = v := by
  have hl := Coordinates.theBox_eq hb
  have hm := Coordinates.mem_theBox hb _ hl
  obtain ⟨a, ha, e⟩ := unit_surj full valid (Coordinates.boxOf (b / h * h) (b % h * w) w h)
    (nodup_boxList _ _ _ _) (length_boxList _ _ _ _)
    (fun a ha => ((hm a).1 ha).1)
    (by
      intro a ha c hc hne
      obtain ⟨a1, a2⟩ := (hm a).1 ha
      obtain ⟨c1, c2⟩ := (hm c).1 hc
      exact ⟨hne, Or.inr (Or.inr ((Coordinates.boxAt_eq_iff a1 c1).1 (a2.trans c2.symm)))⟩) v hv
  exact ⟨a, ((hm a).1 ha).1, ((hm a).1 ha).2, e⟩

end Geometry
