import Verif.Proofs.Divisible
import Verif.Props.Solve
import Verif.Props.Clues

set_option autoImplicit false

/-!
# The number of solutions (C113)

What does not occur among the filled fields can be exchanged: numbers, rows through the same row of boxes, columns through the same column
of boxes, whole rows or columns of boxes.  So the number of solutions that `dlx` and `bruteforce` find is a multiple of certain products.
-/

open Spec Generate

namespace Props

/-- `n` is a multiple of `k!` for each of these `k`: how many numbers are missing; how many rows (columns) of boxes are empty; and of the
product of the `k!` for the empty rows (columns) through each row (column) of boxes.  If some field is filled, also of both products multiplied. -/
structure Multiple (w h : Nat) (s : Grid) (n : Nat) : Prop where
  numbers : (missingNumbers w h s).card.factorial ∣ n
  rowsOfBoxes : (emptyRowsOfBoxes w h s).card.factorial ∣ n
  columnsOfBoxes : (emptyColumnsOfBoxes w h s).card.factorial ∣ n
  rows : ∏ b ∈ Finset.range w, (emptyRows w h s b).card.factorial ∣ n
  cols : ∏ b ∈ Finset.range h, (emptyCols w h s b).card.factorial ∣ n
  both : (∃ a, InGrid w h a ∧ s a ≠ 0) →
    (∏ b ∈ Finset.range w, (emptyRows w h s b).card.factorial) * (∏ b ∈ Finset.range h, (emptyCols w h s b).card.factorial) ∣ n

/-- **C113** The number of solutions yielded by `dlx`. -/
theorem C113_dlx (π : Dlx.Orders) (hπ : π.Ok) (fuel : Nat) (s : Sudoku) (sols : List Sudoku) (h : Dlx.dlx π fuel s = .ok sols) :
    Multiple s.bw s.bh s.get sols.length :=
  have hs := Divisible.dlx_all hπ h
  ⟨hs.numbers, hs.rowsOfBoxes, hs.columnsOfBoxes, hs.rows, hs.cols, hs.rows_cols⟩

/-- **C113** The number of solutions yielded by `bruteforce`, if all filled fields have numbers from `1` to `N`. -/
theorem C113_bruteforce (π : Solve.SetOrder) (hπ : π.Ok) (fuel : Nat) (s : Sudoku) (hf : s.empty.length < fuel) (hl : LegalClues s.bw s.bh s.get) :
    ∃ sols, Solve.bruteforce π fuel s = some sols ∧ Multiple s.bw s.bh s.get sols.length := by
  have hpl : plainOrders.Ok := ⟨fun _ _ => List.Perm.refl _, fun _ _ => List.Perm.refl _⟩
  obtain ⟨sols, sols', h1, h2, hp⟩ := C21_agree π hπ plainOrders hpl fuel s hf hl
  exact ⟨sols, h1, hp.length_eq ▸ C113_dlx _ hpl fuel s sols' h2⟩

/-- The rows are `7 8 0`, `8 9 7` and `9 7 8`. -/
def illegalNumbers : Sudoku :=
  { bw := 3, bh := 1, cand := fun _ => ∅, num := fun a => match a with
      | (0, 0) => 7 | (0, 1) => 8 | (1, 0) => 8 | (1, 1) => 9 | (1, 2) => 7 | (2, 0) => 9 | (2, 1) => 7 | (2, 2) => 8 | _ => 0 }

/-- **C113** Without that condition it fails for `bruteforce`: none of the three numbers occurs here, and there are three solutions. -/
theorem C113_illegal (π : Solve.SetOrder) (hπ : π.Ok) (fuel : Nat) (hf : 1 < fuel) :
    (missingNumbers 3 1 illegalNumbers.get).card = 3 ∧ ∃ sols, Solve.bruteforce π fuel illegalNumbers = some sols ∧ sols.length = 3 := by
  refine ⟨by decide +kernel, ?_⟩
  obtain ⟨sols, h1, h2, h3, h4, -⟩ := C20_bruteforce π hπ fuel illegalNumbers (by rw [show illegalNumbers.empty.length = 1 by decide +kernel]; exact hf)
  refine ⟨sols, h1, ?_⟩
  have hfix : ∀ a, InGrid 3 1 a → a = (0, 2) ∨ illegalNumbers.get a ≠ 0 := by
    rintro ⟨r, c⟩ ⟨hr, hc⟩
    have hr' : r < 3 := hr
    have hc' : c < 3 := hc
    interval_cases r <;> interval_cases c <;> decide
  have hnd : (sols.map fun t => t.get (0, 2)).Nodup := by
    rw [List.Nodup, List.pairwise_map]
    refine h2.imp_of_mem fun {t t'} ht ht' hne he => hne fun a ha => ?_
    rcases hfix a ha with rfl | h0
    · exact he
    · rw [(h3 t ht).2.keeps a ha h0, (h3 t' ht').2.keeps a ha h0]
  have hset : (sols.map fun t => t.get (0, 2)).toFinset = {1, 2, 3} := by
    ext v
    rw [List.mem_toFinset, List.mem_map]
    constructor
    · rintro ⟨t, ht, rfl⟩
      have : 1 ≤ t.get (0, 2) ∧ t.get (0, 2) ≤ (3 : Nat) := (h3 t ht).2.full (0, 2) (by decide) (by decide)
      simp only [Finset.mem_insert, Finset.mem_singleton]
      omega
    · intro hv
      have hc : ∀ v ∈ ({1, 2, 3} : Finset Int), IsCompletion 3 1 illegalNumbers.get ((illegalNumbers.setNumber (0, 2) v).get) := by
        decide +kernel
      obtain ⟨t, ht, he⟩ := h4 _ (hc v hv)
      exact ⟨t, ht, (he (0, 2) (by decide)).trans rfl⟩
  have := congrArg Finset.card hset
  rwa [List.toFinset_card_of_nodup hnd, List.length_map] at this

/-! ## Samples -/

/-- Only the first row of a 4x4 sudoku is filled: 12 solutions; the two rows below the first boxes can be exchanged, ... -/
def firstRow : Sudoku := (List.range 4).foldl (fun s c => s.setNumber (0, c) (c + 1)) (Sudoku.new 2 2)
example : (Dlx.dlx plainOrders 20 firstRow).toOption.map List.length = some 12 := by decide +kernel
example : (List.range 2).map (fun b => (emptyRows 2 2 firstRow.get b).card) = [1, 2] := by decide +kernel
/-- All of an empty 3x3 sudoku with one row in each box can be exchanged: 12 solutions, a multiple of `3!`. -/
example : (Dlx.dlx plainOrders 20 (Sudoku.new 3 1)).toOption.map List.length = some 12 := by decide +kernel
example : (missingNumbers 3 1 (Sudoku.new 3 1).get).card = 3 ∧ (emptyRowsOfBoxes 3 1 (Sudoku.new 3 1).get).card = 3 ∧
    (emptyCols 3 1 (Sudoku.new 3 1).get 0).card = 3 := by decide +kernel
/-- One filled field: 4 solutions, 2 empty columns through the one column of boxes. -/
def oneOfNine : Sudoku := (Sudoku.new 3 1).setNumber (1, 0) 2
example : (Dlx.dlx plainOrders 20 oneOfNine).toOption.map List.length = some 4 ∧ (emptyCols 3 1 oneOfNine.get 0).card = 2 ∧
    (missingNumbers 3 1 oneOfNine.get).card = 2 ∧ (emptyRowsOfBoxes 3 1 oneOfNine.get).card = 2 := by decide +kernel

end Props
