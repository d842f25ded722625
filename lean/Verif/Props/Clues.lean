import Verif.Proofs.Clues
import Verif.CountSpec
import Verif.Props.Solve
import Verif.Props.Generate

set_option autoImplicit false

/-!
# What sudokus with one solution look like (C102)

Consequences for `is_unique`, `generate` and `generate_from_template`: there are templates for which no try can ever succeed.
-/

open Spec Generate

namespace Props

/-- Where the filled fields are: among the `h` rows through one row of boxes at most one is empty, likewise among the `w` columns
through one column of boxes; at most one row of boxes is all empty, and at most one column of boxes. -/
structure Spread (w h : Nat) (s : Grid) : Prop where
  rows : ∀ r r', r < w * h → r' < w * h → r / h = r' / h → EmptyRow w h s r → EmptyRow w h s r' → r = r'
  cols : ∀ c c', c < w * h → c' < w * h → c / w = c' / w → EmptyCol w h s c → EmptyCol w h s c' → c = c'
  rowsOfBoxes : ∀ r r', r < w * h → r' < w * h → (∀ x, x / h = r / h → EmptyRow w h s x) → (∀ x, x / h = r' / h → EmptyRow w h s x) → r / h = r' / h
  columnsOfBoxes : ∀ c c', c < w * h → c' < w * h → (∀ x, x / w = c / w → EmptyCol w h s x) → (∀ x, x / w = c' / w → EmptyCol w h s x) → c / w = c' / w

/-- ... and at most one number is missing. -/
structure Pinned (w h : Nat) (s : Grid) : Prop extends Spread w h s where
  numbers : ∀ u v, IsNumber w h u → IsNumber w h v → Missing w h s u → Missing w h s v → u = v

theorem pinned {w h : Nat} {s : Grid} (hu : UniqueSolution w h s) : Pinned w h s where
  numbers u v hnu hnv h1 h2 := Clues.one_missing hu hnu hnv h1 h2
  rows r r' hr hr' hb h1 h2 := by
    have := Clues.rows_move hu (Equiv.swap r r') (Equiv.injective _) (Clues.swap_lt hr hr')
      (fun x y e => by rw [Clues.swap_group hb, Clues.swap_group hb, e])
      (fun a ha h0 => Equiv.swap_apply_of_ne_of_ne (fun e => h0 (by rw [← h1 a.2 ha.2, ← e])) (fun e => h0 (by rw [← h2 a.2 ha.2, ← e]))) hr
    rw [Equiv.swap_apply_left] at this
    exact this.symm
  cols r r' hr hr' hb h1 h2 := by
    have := Clues.cols_move hu (Equiv.swap r r') (Equiv.injective _) (Clues.swap_lt hr hr')
      (fun x y e => by rw [Clues.swap_group hb, Clues.swap_group hb, e])
      (fun a ha h0 => Equiv.swap_apply_of_ne_of_ne (fun e => h0 (by rw [← h1 a.1 ha.1, ← e])) (fun e => h0 (by rw [← h2 a.1 ha.1, ← e]))) hr
    rw [Equiv.swap_apply_left] at this
    exact this.symm
  rowsOfBoxes r r' hr hr' h1 h2 := by
    have hh : 0 < h := by rcases Nat.eq_zero_or_pos h with rfl | hh <;> [simp at hr; exact hh]
    have := Clues.rows_move hu (Clues.swapGroups h (r / h) (r' / h)) (Clues.swapGroups_inj hh)
      (Clues.swapGroups_lt hh ((Nat.div_lt_iff_lt_mul hh).2 hr) ((Nat.div_lt_iff_lt_mul hh).2 hr'))
      (fun x y e => by rw [Clues.swapGroups_div hh, Clues.swapGroups_div hh, e])
      (fun a ha h0 => by
        unfold Clues.swapGroups
        rw [Equiv.swap_apply_of_ne_of_ne (fun e => h0 (h1 a.1 e a.2 ha.2)) (fun e => h0 (h2 a.1 e a.2 ha.2)), Nat.div_add_mod']) hr
    have h3 := congrArg (· / h) this
    simp only [Clues.swapGroups_div hh, Equiv.swap_apply_left] at h3
    exact h3.symm
  columnsOfBoxes r r' hr hr' h1 h2 := by
    have hw : 0 < w := by rcases Nat.eq_zero_or_pos w with rfl | hh <;> [simp at hr; exact hh]
    have hlt : ∀ {x}, x < w * h → x / w < h := fun hx => (Nat.div_lt_iff_lt_mul hw).2 (by rwa [Nat.mul_comm])
    have := Clues.cols_move hu (Clues.swapGroups w (r / w) (r' / w)) (Clues.swapGroups_inj hw)
      (fun x hx => by rw [Nat.mul_comm] at hx ⊢; exact Clues.swapGroups_lt hw (hlt hr) (hlt hr') x hx)
      (fun x y e => by rw [Clues.swapGroups_div hw, Clues.swapGroups_div hw, e])
      (fun a ha h0 => by
        unfold Clues.swapGroups
        rw [Equiv.swap_apply_of_ne_of_ne (fun e => h0 (h1 a.2 e a.1 ha.1)) (fun e => h0 (h2 a.2 e a.1 ha.1)), Nat.div_add_mod']) hr
    have h3 := congrArg (· / w) this
    simp only [Clues.swapGroups_div hw, Equiv.swap_apply_left] at h3
    exact h3.symm

theorem of_unique {s : Sudoku} (hu : UniqueSolution s.bw s.bh s.get) : Pinned s.bw s.bh s.get ∧ s.bw * s.bh - 1 ≤ s.count := by
  refine ⟨pinned hu, (Clues.clues_le s.filled.toFinset (fun a ha h0 => ?_) (pinned hu).numbers).trans (List.toFinset_card_le _)⟩
  rw [List.mem_toFinset]
  exact List.mem_filter.2 ⟨(Sudoku.mem_cells _).2 ha, by simpa using h0⟩

/-- No try with such a template succeeds. -/
theorem fails {template : Sudoku} (e : TryEnv template)
    (hbad : ¬ (Spread template.bw template.bh template.get ∧ template.bw * template.bh - 1 ≤ template.count)) (k : Nat) : Fails e k := by
  obtain ⟨sol, hsol, -, his⟩ := createSolution_spec (e.hcreate k) (e.hchoices k) e.hf
  refine ⟨sol, hsol, fun hu => hbad ?_⟩
  have hz : ∀ a, InGrid template.bw template.bh a → ((if template.get a = 0 then 0 else sol.get a) = 0 ↔ template.get a = 0) := by
    intro a ha
    have := his.full a ha
    unfold IsNumber at this
    split <;> omega
  have hp := pinned hu
  refine ⟨⟨?_, ?_, ?_, ?_⟩, ?_⟩
  · exact fun r r' h1 h2 h3 h4 h5 => hp.rows r r' h1 h2 h3 (fun c hc => (hz _ ⟨h1, hc⟩).2 (h4 c hc)) (fun c hc => (hz _ ⟨h2, hc⟩).2 (h5 c hc))
  · exact fun r r' h1 h2 h3 h4 h5 => hp.cols r r' h1 h2 h3 (fun c hc => (hz _ ⟨hc, h1⟩).2 (h4 c hc)) (fun c hc => (hz _ ⟨hc, h2⟩).2 (h5 c hc))
  · refine fun r r' h1 h2 h4 h5 => hp.rowsOfBoxes r r' h1 h2 (fun x hx c hc => ?_) (fun x hx c hc => ?_)
    · show (if _ then _ else _) = _
      rw [if_pos (h4 x hx c hc)]
    · show (if _ then _ else _) = _
      rw [if_pos (h5 x hx c hc)]
  · refine fun r r' h1 h2 h4 h5 => hp.columnsOfBoxes r r' h1 h2 (fun x hx c hc => ?_) (fun x hx c hc => ?_)
    · show (if _ then _ else _) = _
      rw [if_pos (h4 x hx c hc)]
    · show (if _ then _ else _) = _
      rw [if_pos (h5 x hx c hc)]
  · refine (Clues.clues_le template.filled.toFinset (fun a ha h0 => ?_) hp.numbers).trans (List.toFinset_card_le _)
    rw [List.mem_toFinset]
    refine List.mem_filter.2 ⟨(Sudoku.mem_cells _).2 ha, ?_⟩
    have := mt (hz a ha).2 h0
    simpa using this

/-- **C102** If `is_unique` says `True`: at most one of the numbers is missing among the filled fields, among the rows (columns) through
one row (column) of boxes at most one is empty, at most one row (column) of boxes is empty, and at least `N - 1` fields are filled. -/
theorem C102_is_unique (π : Dlx.Orders) (hπ : π.Ok) (fuel : Nat) (s : Sudoku) (hf : s.empty.length < fuel) (hu : Dlx.isUnique π fuel s = .ok true) :
    Pinned s.bw s.bh s.get ∧ s.bw * s.bh - 1 ≤ s.count := by
  obtain ⟨b, h1, h2⟩ := C22_is_unique π hπ fuel s hf
  rw [hu] at h1
  exact of_unique (h2.1 (Except.ok.inj h1).symm)

/-- **C102** So has everything that `generate` returns, whatever `min_count` and `symmetry` are. -/
theorem C102_generate {w h : Nat} (e : Env w h) (minCount : Int) (symmetry : Option String) (t : Sudoku)
    (ht : e.generate minCount symmetry = .ok (some t)) : Pinned w h t.get ∧ w * h - 1 ≤ t.count := by
  obtain ⟨⟨h1, h2, -, -⟩, sol, -, h3, h4⟩ := C35_unique e minCount symmetry t ht
  have := of_unique (s := t) (by rw [h1, h2]; exact ⟨sol.get, h3, h4⟩)
  rwa [h1, h2] at this

/-- **C102** With a template whose filled fields are not spread like this, or are fewer than `N - 1`, no try succeeds: after `tries >= 0` tries
`RuntimeError` is raised, ... -/
theorem C102_template_error (template : Sudoku) (e : TryEnv template) (rounds tries : Nat) (hr : tries < rounds)
    (hbad : ¬ (Spread template.bw template.bh template.get ∧ template.bw * template.bh - 1 ≤ template.count)) :
    generateFromTemplate e.fuel rounds e.f template tries = .error .RuntimeError :=
  (C40_gives_up template e rounds tries hr).2 fun k _ => fails e hbad k

/-- **C102** ... and with `tries < 0` the call goes on for ever. -/
theorem C102_template_endless (template : Sudoku) (e : TryEnv template) (rounds : Nat) (tries : Int) (ht : tries < 0)
    (hbad : ¬ (Spread template.bw template.bh template.get ∧ template.bw * template.bh - 1 ≤ template.count)) :
    generateFromTemplate e.fuel rounds e.f template tries = .ok none :=
  C40_endless template e rounds tries ht fun k _ => fails e hbad k

/-! ## Samples -/

/-- The least number of filled fields occurs: one in a 2x2 sudoku, two in a 3x3 sudoku. -/
def oneClue : Sudoku := (Sudoku.new 2 1).setNumber (1, 0) 1
example : (Dlx.isUnique plainOrders 5 oneClue).toOption = some true ∧ oneClue.count = 1 := by decide +kernel
def diagonalClues : Sudoku := ((Sudoku.new 3 1).setNumber (0, 0) 1).setNumber (1, 1) 2
example : (Dlx.isUnique plainOrders 10 diagonalClues).toOption = some true ∧ diagonalClues.count = 2 := by decide +kernel

/-- `generate` returns sudokus with this least number. -/
example : (((plainEnv 2 1 (by decide) (by decide)).generate 0 none).toOption.map fun t => t.map Sudoku.count) = some (some 1) := by
  decide +kernel

/-- Half of the fields are filled, but both rows through the upper boxes are empty. -/
def lowerHalf : Sudoku := (List.range 4).foldl (fun s c => (s.setNumber (2, c) 1).setNumber (3, c) 1) (Sudoku.new 2 2)
example : lowerHalf.count = 8 ∧ ¬ (Spread lowerHalf.bw lowerHalf.bh lowerHalf.get ∧ lowerHalf.bw * lowerHalf.bh - 1 ≤ lowerHalf.count) := by
  refine ⟨by decide +kernel, fun h => ?_⟩
  exact absurd (h.1.rows 0 1 (by decide) (by decide) (by decide) (by decide +kernel) (by decide +kernel)) (by decide)
example : TryEnv lowerHalf := plainTries lowerHalf (by decide) (by decide)

/-- A single filled field among 16 is too few. -/
example : ¬ (Spread 2 2 ((Sudoku.new 2 2).setNumber (0, 0) 1).get ∧ 2 * 2 - 1 ≤ ((Sudoku.new 2 2).setNumber (0, 0) 1).count) :=
  fun h => absurd h.2 (by decide +kernel)

end Props
