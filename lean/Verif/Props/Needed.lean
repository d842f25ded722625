import Verif.Proofs.Needed
import Verif.Props.Generate
import Verif.Props.Store

set_option autoImplicit false

/-!
# C122: how many clues there can be without a superfluous one
-/

open Spec Generate

namespace Props

/-- Every row, column and box has an empty field. -/
def EmptyEverywhere (w h : Nat) (s : Grid) : Prop :=
  (∀ r, r < w * h → ∃ c, c < w * h ∧ s (r, c) = 0) ∧ (∀ c, c < w * h → ∃ r, r < w * h ∧ s (r, c) = 0) ∧
  ∀ b, InGrid w h b → ∃ a, InGrid w h a ∧ SameBox w h a b ∧ s a = 0

theorem needed_of {w h : Nat} {s g : Grid} (hg : IsSolution w h s g) (hu : ∀ g', IsSolution w h s g' → SameGrid w h g g')
    (H : ∀ a, InGrid w h a → s a ≠ 0 → ¬ UniqueSolution w h fun b => if b = a then 0 else s b) : Needed.AllNeeded w h s g := by
  intro a ha h0
  have hsol : IsSolution w h (fun b => if b = a then 0 else s b) g := by
    refine ⟨fun b hb hb0 => ?_, hg.full, hg.valid⟩
    by_cases e : b = a
    · exact absurd (if_pos e) hb0
    · rw [if_neg e] at hb0 ⊢; exact hg.keeps b hb hb0
  have hno := H a ha h0
  have : ∃ g', IsSolution w h (fun b => if b = a then 0 else s b) g' ∧ ¬ SameGrid w h g g' := by
    by_contra hall
    push Not at hall
    exact hno ⟨g, hsol, hall⟩
  obtain ⟨g', k1, k2⟩ := this
  have keep : ∀ b, InGrid w h b → b ≠ a → s b ≠ 0 → g' b = g b := by
    intro b hb hne hb0
    have := k1.keeps b hb (by rw [if_neg hne]; exact hb0)
    rw [if_neg hne] at this
    rw [this, hg.keeps b hb hb0]
  refine ⟨g', ⟨fun _ _ k => absurd rfl k, k1.full, k1.valid⟩, fun e => k2 (hu g' ⟨fun b hb hb0 => ?_, k1.full, k1.valid⟩), keep⟩
  by_cases hne : b = a
  · rw [hne, e]; exact hg.keeps a ha h0
  · rw [keep b hb hne hb0]; exact hg.keeps b hb hb0

theorem sparse {s : Sudoku} (hN : 0 < s.bw * s.bh) {g : Grid} (hg : IsSolution s.bw s.bh s.get g)
    (H : Needed.AllNeeded s.bw s.bh s.get g) : EmptyEverywhere s.bw s.bh s.get ∧ s.count ≤ (s.bw * s.bh - 1) ^ 2 := by
  refine ⟨⟨fun r hr => Needed.some_empty hg H hN (Needed.unit_row hr), fun c hc => Needed.some_empty hg H hN (Needed.unit_col hc), ?_⟩, ?_⟩
  · rintro ⟨r, c⟩ ⟨hr, hc⟩
    have hw : 0 < s.bw := Nat.pos_of_mul_pos_right hN
    have hh : 0 < s.bh := Nat.pos_of_mul_pos_left hN
    have hq : r / s.bh < s.bw := by rw [Nat.div_lt_iff_lt_mul hh]; exact hr
    have hp : c / s.bw < s.bh := by rw [Nat.div_lt_iff_lt_mul hw, Nat.mul_comm]; exact hc
    have hU := Needed.unit_box hq hp
    obtain ⟨i, hi, e⟩ := Needed.some_empty hg H hN hU
    refine ⟨_, hU.inGrid i hi, ⟨?_, ?_⟩, e⟩
    · show (s.bh * (r / s.bh) + i / s.bw) / s.bh = r / s.bh
      have : i / s.bw < s.bh := by rw [Nat.div_lt_iff_lt_mul hw, Nat.mul_comm]; exact hi
      rw [Nat.mul_add_div hh, Nat.div_eq_of_lt this, Nat.add_zero]
    · show (s.bw * (c / s.bw) + i % s.bw) / s.bw = c / s.bw
      rw [Nat.mul_add_div hw, Nat.div_eq_of_lt (Nat.mod_lt i hw), Nat.add_zero]
  · have h1 := Needed.many_empty hg H hN (E := s.empty) fun a ha h0 => ((C08_empty_filled s).1.2 a).2 ⟨ha, h0⟩
    have h2 := (C08_count s).2
    have h3 : s.len = (s.bw * s.bh) ^ 2 := by unfold Sudoku.len; rw [Nat.mul_pow]
    rw [h3] at h2
    revert h1 h2
    obtain ⟨k, hk⟩ : ∃ k, s.bw * s.bh = k + 1 := ⟨s.bw * s.bh - 1, by omega⟩
    rw [hk, Nat.add_sub_cancel, Nat.pow_two, Nat.pow_two]
    have e : (k + 1) * (k + 1) = k * k + 2 * k + 1 := by rw [Nat.mul_succ, Nat.succ_mul]; omega
    rw [e]
    omega

theorem sparse_boxes {s : Sudoku} (hw : 2 ≤ s.bw) (hh : 2 ≤ s.bh) {g : Grid} (hg : IsSolution s.bw s.bh s.get g)
    (H : Needed.AllNeeded s.bw s.bh s.get g) : s.count ≤ s.bw * s.bh * (s.bw * s.bh - 2) := by
  have h1 := Needed.many_empty_boxes hg H hw hh (E := s.empty) fun a ha h0 => ((C08_empty_filled s).1.2 a).2 ⟨ha, h0⟩
  have h2 := (C08_count s).2
  have h3 : s.len = (s.bw * s.bh) ^ 2 := by unfold Sudoku.len; rw [Nat.mul_pow]
  rw [h3, Nat.pow_two] at h2
  rw [Nat.mul_sub]
  omega

theorem needed_unique (π : Dlx.Orders) (hπ : π.Ok) (fuel : Nat) (s : Sudoku) (hf : (s.bw * s.bh) ^ 2 < fuel)
    (hu : Dlx.isUnique π fuel s = .ok true)
    (hn : ∀ a, InGrid s.bw s.bh a → s.get a ≠ 0 → Dlx.isUnique π fuel (s.setNumber a 0) = .ok false) :
    ∃ g, IsSolution s.bw s.bh s.get g ∧ Needed.AllNeeded s.bw s.bh s.get g := by
  obtain ⟨b, h1, h2⟩ := C22_is_unique π hπ fuel s (lt_of_le_of_lt (length_empty_le s) hf)
  rw [hu] at h1
  obtain ⟨g, hg, hall⟩ := h2.1 (Except.ok.inj h1).symm
  refine ⟨g, hg, needed_of hg hall fun a ha h0 hu' => ?_⟩
  obtain ⟨b, h3, h4⟩ := C22_is_unique π hπ fuel (s.setNumber a 0) (lt_of_le_of_lt (length_empty_le _) hf)
  rw [hn a ha h0] at h3
  cases Except.ok.inj h3
  exact absurd (h4.2 hu') (by decide)

/-- **C122** If `is_unique` is true for `s`, but false for `s` with any clue removed, then every row, column and box has an empty field, and
there are at most `(N - 1)²` clues. -/
theorem C122_is_unique (π : Dlx.Orders) (hπ : π.Ok) (fuel : Nat) (s : Sudoku) (hN : 0 < s.bw * s.bh) (hf : (s.bw * s.bh) ^ 2 < fuel)
    (hu : Dlx.isUnique π fuel s = .ok true)
    (hn : ∀ a, InGrid s.bw s.bh a → s.get a ≠ 0 → Dlx.isUnique π fuel (s.setNumber a 0) = .ok false) :
    EmptyEverywhere s.bw s.bh s.get ∧ s.count ≤ (s.bw * s.bh - 1) ^ 2 := by
  obtain ⟨g, hg, H⟩ := needed_unique π hπ fuel s hf hu hn
  exact sparse hN hg H

theorem needed_generate {w h : Nat} (e : Env w h) (minCount : Int) (t : Sudoku) (ht : e.generate minCount none = .ok (some t))
    (hc : minCount < t.count) : 0 < w * h ∧ ∃ g, IsSolution w h t.get g ∧ Needed.AllNeeded w h t.get g := by
  obtain ⟨⟨h1, h2, -, -⟩, sol, -, h3, h4⟩ := C35_unique e minCount none t ht
  have hir := C38_min_count e minCount none t ht (by rw [show groupSize none = 1 from rfl]; omega)
  have hN : 0 < w * h := Nat.mul_pos (lt_of_le_of_lt (Nat.zero_le _) e.hc.col) (lt_of_le_of_lt (Nat.zero_le _) e.hc.row)
  subst h1 h2
  refine ⟨hN, sol.get, h3, needed_of h3 h4 fun a ha h0 => ?_⟩
  have := hir (fun b => decide (b = a)) ⟨by simp, by simp, by simp, by simp, by simp⟩ ⟨a, ha, by simp, h0⟩
  simpa using this

/-- **C122** The same for the results of `generate` without symmetry that have more than `min_count` clues. -/
theorem C122_generate {w h : Nat} (e : Env w h) (minCount : Int) (t : Sudoku) (ht : e.generate minCount none = .ok (some t))
    (hc : minCount < t.count) : EmptyEverywhere w h t.get ∧ t.count ≤ (w * h - 1) ^ 2 := by
  obtain ⟨⟨h1, h2, -, -⟩, -⟩ := C35_unique e minCount none t ht
  obtain ⟨hN, g, hg, H⟩ := needed_generate e minCount t ht hc
  subst h1 h2
  exact sparse hN hg H

/-- **C122** So `generate` returns at most `max(min_count, (N - 1)²)` clues, ... -/
theorem C122_at_most {w h : Nat} (e : Env w h) (minCount : Int) (t : Sudoku) (ht : e.generate minCount none = .ok (some t)) :
    (t.count : Int) ≤ max minCount (((w * h - 1) ^ 2 : Nat) : Int) := by
  by_cases hc : minCount < t.count
  · have := (C122_generate e minCount t ht hc).2
    exact le_max_of_le_right (by exact_mod_cast this)
  · exact le_max_of_le_left (not_lt.1 hc)

/-- **C122** ... and exactly `min_count` if this is at least `(N - 1)²`. -/
theorem C122_exactly {w h : Nat} (e : Env w h) (minCount : Int) (hm : (((w * h - 1) ^ 2 : Nat) : Int) ≤ minCount) (t : Sudoku)
    (ht : e.generate minCount none = .ok (some t)) : (t.count : Int) = minCount := by
  refine le_antisymm ?_ (C36_min_count e minCount none t ht)
  have := C122_at_most e minCount t ht
  rwa [max_eq_left hm] at this

/-- **C122** If there are at least two rows and columns of boxes, there are at most `N (N - 2)` clues: 63 for 9x9 sudokus. -/
theorem C122_boxes (π : Dlx.Orders) (hπ : π.Ok) (fuel : Nat) (s : Sudoku) (hw : 2 ≤ s.bw) (hh : 2 ≤ s.bh) (hf : (s.bw * s.bh) ^ 2 < fuel)
    (hu : Dlx.isUnique π fuel s = .ok true)
    (hn : ∀ a, InGrid s.bw s.bh a → s.get a ≠ 0 → Dlx.isUnique π fuel (s.setNumber a 0) = .ok false) :
    s.count ≤ s.bw * s.bh * (s.bw * s.bh - 2) := by
  obtain ⟨g, hg, H⟩ := needed_unique π hπ fuel s hf hu hn
  exact sparse_boxes hw hh hg H

/-- **C122** So `generate` returns at most `max(min_count, N (N - 2))` clues, and exactly `min_count` if this is at least `N (N - 2)`. -/
theorem C122_boxes_generate {w h : Nat} (hw : 2 ≤ w) (hh : 2 ≤ h) (e : Env w h) (minCount : Int) (t : Sudoku)
    (ht : e.generate minCount none = .ok (some t)) : (t.count : Int) ≤ max minCount ((w * h * (w * h - 2) : Nat) : Int) ∧
      (((w * h * (w * h - 2) : Nat) : Int) ≤ minCount → (t.count : Int) = minCount) := by
  have h1 : (t.count : Int) ≤ max minCount ((w * h * (w * h - 2) : Nat) : Int) := by
    by_cases hc : minCount < t.count
    · obtain ⟨⟨k1, k2, -, -⟩, -⟩ := C35_unique e minCount none t ht
      obtain ⟨-, g, hg, H⟩ := needed_generate e minCount t ht hc
      subst k1 k2
      exact le_max_of_le_right (by exact_mod_cast sparse_boxes hw hh hg H)
    · exact le_max_of_le_left (not_lt.1 hc)
  refine ⟨h1, fun hm => le_antisymm ?_ (C36_min_count e minCount none t ht)⟩
  rwa [max_eq_left hm] at h1

/-! ## Samples -/

/-- The largest number occurs for 2x2 sudokus: one clue that cannot be left out. -/
example : (Dlx.isUnique plainOrders 5 ((Sudoku.new 2 1).setNumber (1, 0) 1)).toOption = some true ∧
    (Dlx.isUnique plainOrders 5 (((Sudoku.new 2 1).setNumber (1, 0) 1).setNumber (1, 0) 0)).toOption = some false ∧
    ((Sudoku.new 2 1).setNumber (1, 0) 1).count = (2 * 1 - 1) ^ 2 := by decide +kernel
/-- A generated 2x2 sudoku with one clue, and one with exactly three. -/
example : (((plainEnv 2 1 (by decide) (by decide)).generate 0 none).toOption.map fun t => t.map Sudoku.count) = some (some 1) := by
  decide +kernel
example : (((plainEnv 2 1 (by decide) (by decide)).generate 3 none).toOption.map fun t => t.map Sudoku.count) = some (some 3) := by
  decide +kernel
/-- A 9x9 sudoku with `min_count` 63. -/
example : ∃ t, (plainEnv 3 3 (by decide) (by decide)).generate 63 none = .ok (some t) ∧ (t.count : Int) = 63 := by
  obtain ⟨t, ht⟩ := (C39_value_error (plainEnv 3 3 (by decide) (by decide)) 63 none).2 (by decide)
  exact ⟨t, ht, (C122_boxes_generate (by decide) (by decide) _ 63 t ht).2 (by decide)⟩
/-- For 9x9 sudokus the bound is 63. -/
example : 3 * 3 * (3 * 3 - 2) = 63 := rfl
/-- With symmetry the number of clues can be larger than `min_count` and the bound (C38_stops_early): here 9 clues, `min_count` 8. -/
example : (((plainEnv 3 1 (by decide) (by decide)).generate 8 (some "rotate-180")).toOption.map fun t => t.map Sudoku.count) =
    some (some 9) := by decide +kernel

end Props
