import Verif.Spec
import Mathlib.Logic.Equiv.Basic
import Mathlib.Data.Finset.Card
import Mathlib.Order.Interval.Finset.Nat
import Mathlib.Data.Int.Interval
import Mathlib.Data.Finset.Prod

set_option autoImplicit false

/-! # What a sudoku with one solution must contain -/

open Spec

namespace Clues

variable {w h : Nat} {s g : Grid}

/-- Other symbols for numbers that are not among the clues give another solution. -/
theorem renumber (hg : IsSolution w h s g) (f : Int → Int) (hf : Function.Injective f) (hn : ∀ v, IsNumber w h v → IsNumber w h (f v))
    (hs : ∀ a, InGrid w h a → s a ≠ 0 → f (s a) = s a) : IsSolution w h s fun a => f (g a) where
  keeps a ha h0 := by
    show f (g a) = s a
    rw [hg.keeps a ha h0, hs a ha h0]
  full a ha := hn _ (hg.full a ha)
  valid a b ha hb hp _ he := by
    have := hg.full a ha
    exact hg.valid a b ha hb hp (by unfold IsNumber at this; omega) (hf he)

/-- Moving fields that are not clues gives another solution, if fields that exclude each other still do so. -/
theorem move (hg : IsSolution w h s g) (φ : Cell → Cell) (hin : ∀ a, InGrid w h a → InGrid w h (φ a))
    (hp : ∀ a b, Peer w h a b → Peer w h (φ a) (φ b)) (hs : ∀ a, InGrid w h a → s a ≠ 0 → φ a = a) : IsSolution w h s fun a => g (φ a) where
  keeps a ha h0 := by
    show g (φ a) = s a
    rw [hs a ha h0, hg.keeps a ha h0]
  full a ha := hg.full _ (hin a ha)
  valid a b ha hb hab h0 := hg.valid _ _ (hin a ha) (hin b hb) (hp a b hab) h0

/-- Every number occurs in every solution. -/
theorem occurs (hg : IsSolution w h s g) {v : Int} (hv : IsNumber w h v) : ∃ a, InGrid w h a ∧ g a = v := by
  have hN : 0 < w * h := by unfold IsNumber at hv; omega
  have hsub : (Finset.range (w * h)).image (fun c => g (0, c)) ⊆ Finset.Icc 1 ((w * h : Nat) : Int) := by
    intro x hx
    obtain ⟨c, hc, rfl⟩ := Finset.mem_image.1 hx
    exact Finset.mem_Icc.2 (hg.full (0, c) ⟨hN, Finset.mem_range.1 hc⟩)
  have hcard : ((Finset.range (w * h)).image (fun c => g (0, c))).card = w * h := by
    rw [Finset.card_image_of_injOn, Finset.card_range]
    intro c hc d hd e
    by_contra hne
    have hc := Finset.mem_range.1 hc
    have hd := Finset.mem_range.1 hd
    have := hg.full (0, c) ⟨hN, hc⟩
    exact hg.valid (0, c) (0, d) ⟨hN, hc⟩ ⟨hN, hd⟩ ⟨fun e => hne (congrArg Prod.snd e), Or.inl rfl⟩ (by unfold IsNumber at this; omega) e
  have heq := Finset.eq_of_subset_of_card_le hsub (by rw [hcard, Int.card_Icc]; omega)
  have hmem : v ∈ Finset.Icc 1 ((w * h : Nat) : Int) := Finset.mem_Icc.2 hv
  rw [← heq] at hmem
  obtain ⟨c, hc, he⟩ := Finset.mem_image.1 hmem
  exact ⟨(0, c), ⟨hN, Finset.mem_range.1 hc⟩, he⟩

/-- At most one number is missing. -/
theorem one_missing (hu : UniqueSolution w h s) {u v : Int} (hnu : IsNumber w h u) (hnv : IsNumber w h v) (hsu : ∀ a, InGrid w h a → s a ≠ u)
    (hsv : ∀ a, InGrid w h a → s a ≠ v) : u = v := by
  obtain ⟨g, hg, hall⟩ := hu
  obtain ⟨a, ha, hga⟩ := occurs hg hnu
  have h1 := hall _ (renumber hg (Equiv.swap u v) (Equiv.injective _) (fun x hx => by
      rw [Equiv.swap_apply_def]
      split
      · exact hnv
      · split
        · exact hnu
        · exact hx) (fun a ha _ => Equiv.swap_apply_of_ne_of_ne (hsu a ha) (hsv a ha))) a ha
  rw [hga, Equiv.swap_apply_left] at h1
  exact h1

/-- A permutation of the rows that keeps bands together. -/
theorem rows_move (hu : UniqueSolution w h s) (σ : Nat → Nat) (hσ : Function.Injective σ) (hin : ∀ r, r < w * h → σ r < w * h)
    (hb : ∀ r r', r / h = r' / h → σ r / h = σ r' / h) (hs : ∀ a, InGrid w h a → s a ≠ 0 → σ a.1 = a.1) {r : Nat} (hr : r < w * h) : σ r = r := by
  obtain ⟨g, hg, hall⟩ := hu
  have hsol := move hg (fun a => (σ a.1, a.2)) (fun a ha => ⟨hin _ ha.1, ha.2⟩)
    (fun a b ⟨hne, h⟩ => ⟨fun e => hne (by
        rw [Prod.mk.injEq] at e
        exact Prod.ext (hσ e.1) e.2), by
      rcases h with h | h | h
      · exact Or.inl (congrArg σ h)
      · exact Or.inr (Or.inl h)
      · exact Or.inr (Or.inr ⟨hb _ _ h.1, h.2⟩)⟩)
    (fun a ha h0 => Prod.ext (hs a ha h0) rfl)
  have h1 := hall _ hsol (r, r) ⟨hr, hr⟩
  by_contra hne
  refine hg.valid (r, r) (σ r, r) ⟨hr, hr⟩ ⟨hin r hr, hr⟩ ⟨fun e => hne (congrArg Prod.fst e).symm, Or.inr (Or.inl rfl)⟩ ?_ h1
  have := hg.full (r, r) ⟨hr, hr⟩
  unfold IsNumber at this; omega

/-- A permutation of the columns that keeps stacks together. -/
theorem cols_move (hu : UniqueSolution w h s) (σ : Nat → Nat) (hσ : Function.Injective σ) (hin : ∀ r, r < w * h → σ r < w * h)
    (hb : ∀ r r', r / w = r' / w → σ r / w = σ r' / w) (hs : ∀ a, InGrid w h a → s a ≠ 0 → σ a.2 = a.2) {r : Nat} (hr : r < w * h) : σ r = r := by
  obtain ⟨g, hg, hall⟩ := hu
  have hsol := move hg (fun a => (a.1, σ a.2)) (fun a ha => ⟨ha.1, hin _ ha.2⟩)
    (fun a b ⟨hne, h⟩ => ⟨fun e => hne (by
        rw [Prod.mk.injEq] at e
        exact Prod.ext e.1 (hσ e.2)), by
      rcases h with h | h | h
      · exact Or.inl h
      · exact Or.inr (Or.inl (congrArg σ h))
      · exact Or.inr (Or.inr ⟨h.1, hb _ _ h.2⟩)⟩)
    (fun a ha h0 => Prod.ext rfl (hs a ha h0))
  have h1 := hall _ hsol (r, r) ⟨hr, hr⟩
  by_contra hne
  refine hg.valid (r, r) (r, σ r) ⟨hr, hr⟩ ⟨hr, hin r hr⟩ ⟨fun e => hne (congrArg Prod.snd e).symm, Or.inl rfl⟩ ?_ h1
  have := hg.full (r, r) ⟨hr, hr⟩
  unfold IsNumber at this; omega

/-- Exchanging two rows of a group of `k` rows. -/
theorem swap_group {k r1 r2 : Nat} (h : r1 / k = r2 / k) (r : Nat) : Equiv.swap r1 r2 r / k = r / k := by
  rw [Equiv.swap_apply_def]
  split
  · rename_i e; rw [e, h]
  · split
    · rename_i e; rw [e, h]
    · rfl

theorem swap_lt {n r1 r2 : Nat} (h1 : r1 < n) (h2 : r2 < n) (r : Nat) (hr : r < n) : Equiv.swap r1 r2 r < n := by
  rw [Equiv.swap_apply_def]
  split
  · exact h2
  · split
    · exact h1
    · exact hr

/-- Exchanging two groups of `k` rows. -/
def swapGroups (k b1 b2 r : Nat) : Nat := Equiv.swap b1 b2 (r / k) * k + r % k

theorem swapGroups_div {k b1 b2 r : Nat} (hk : 0 < k) : swapGroups k b1 b2 r / k = Equiv.swap b1 b2 (r / k) := by
  unfold swapGroups
  rw [Nat.mul_comm, Nat.mul_add_div hk, Nat.div_eq_of_lt (Nat.mod_lt _ hk), Nat.add_zero]

theorem swapGroups_mod {k b1 b2 r : Nat} : swapGroups k b1 b2 r % k = r % k := by
  unfold swapGroups
  rw [Nat.mul_comm, Nat.mul_add_mod, Nat.mod_mod]

theorem swapGroups_inj {k b1 b2 : Nat} (hk : 0 < k) : Function.Injective (swapGroups k b1 b2) := by
  intro r r' e
  have h1 := congrArg (· / k) e
  have h2 := congrArg (· % k) e
  simp only [swapGroups_div hk, swapGroups_mod] at h1 h2
  have h1 := (Equiv.injective _) h1
  rw [← Nat.div_add_mod r k, ← Nat.div_add_mod r' k, h1, h2]

theorem swapGroups_lt {k m b1 b2 : Nat} (hk : 0 < k) (h1 : b1 < m) (h2 : b2 < m) (r : Nat) (hr : r < m * k) : swapGroups k b1 b2 r < m * k := by
  rw [← Nat.div_lt_iff_lt_mul hk, swapGroups_div hk]
  exact swap_lt h1 h2 _ ((Nat.div_lt_iff_lt_mul hk).2 hr)

/-- If at most one number is missing among the clues, there are at least as many clues as numbers, less one. -/
theorem clues_le (F : Finset Cell) (hF : ∀ a, InGrid w h a → s a ≠ 0 → a ∈ F)
    (hone : ∀ u v, IsNumber w h u → IsNumber w h v → (∀ a, InGrid w h a → s a ≠ u) → (∀ a, InGrid w h a → s a ≠ v) → u = v) :
    w * h - 1 ≤ F.card := by
  classical
  set I := Finset.Icc 1 ((w * h : Nat) : Int) with hI
  have hle : (I \ F.image s).card ≤ 1 := by
    refine Finset.card_le_one.2 fun u hu v hv => ?_
    rw [Finset.mem_sdiff, hI, Finset.mem_Icc] at hu hv
    refine hone u v hu.1 hv.1 (fun a ha e => ?_) (fun a ha e => ?_)
    · exact hu.2 (Finset.mem_image.2 ⟨a, hF a ha (by omega), e⟩)
    · exact hv.2 (Finset.mem_image.2 ⟨a, hF a ha (by omega), e⟩)
  have h1 := Finset.le_card_sdiff (F.image s) I
  have h2 : (F.image s).card ≤ F.card := Finset.card_image_le
  have h3 : I.card = w * h := by rw [hI, Int.card_Icc]; omega
  omega

end Clues
