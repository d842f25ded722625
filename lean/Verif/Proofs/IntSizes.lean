import Verif.Model.IntSizes
import Verif.Proofs.IntCoordinates
import Verif.Proofs.ExactCover

set_option autoImplicit false

/-! # Helper lemmas for C103 -/

open Spec

namespace IntSizes

open IntCoordinates (ICell pyRemove ints)

theorem rng_nat (n : Nat) : rng (n : Int) = IntCoordinates.rng n := by
  unfold rng IntCoordinates.rng
  rw [Int.toNat_natCast]

theorem rng_eq (n : Int) : rng n = IntCoordinates.rng n.toNat := rfl

theorem rng_nonpos {n : Int} (h : n ≤ 0) : rng n = [] := by
  unfold rng
  rw [Int.toNat_of_nonpos h]; rfl

theorem rng1_nonpos {n : Int} (h : n ≤ 0) : rng1 n = [] := by
  unfold rng1
  rw [Int.toNat_of_nonpos h]; rfl

theorem mem_rng {n i : Int} : i ∈ rng n ↔ 0 ≤ i ∧ i < n := by
  rw [rng_eq, IntCoordinates.mem_rng]
  constructor <;> rintro ⟨h1, h2⟩ <;> exact ⟨h1, by omega⟩

theorem mem_rng1 {n i : Int} : i ∈ rng1 n ↔ 1 ≤ i ∧ i ≤ n := by
  unfold rng1
  rw [List.mem_map]
  constructor
  · rintro ⟨k, hk, rfl⟩; rw [List.mem_range] at hk; omega
  · rintro ⟨h1, h2⟩
    exact ⟨(i - 1).toNat, by rw [List.mem_range]; omega, by omega⟩

theorem length_rng (n : Int) : (rng n).length = n.toNat := by
  unfold rng; simp

theorem fmod_nat (a : Int) (w : Nat) : Int.fmod a w = a % w := Int.fmod_eq_emod_of_nonneg _ (by omega)

theorem fdiv_nat (a : Int) (w : Nat) : Int.fdiv a w = a / w := Int.fdiv_eq_ediv_of_nonneg _ (by omega)

theorem mem_product {α β : Type} {xs : List α} {ys : List β} {p : α × β} : p ∈ Coordinates.product xs ys ↔ p.1 ∈ xs ∧ p.2 ∈ ys := by
  unfold Coordinates.product
  simp only [List.mem_flatMap, List.mem_map]
  constructor
  · rintro ⟨x, hx, y, hy, rfl⟩; exact ⟨hx, hy⟩
  · rintro ⟨h1, h2⟩; exact ⟨p.1, h1, p.2, h2, rfl⟩

theorem product_nil_left {α β : Type} (ys : List β) : Coordinates.product ([] : List α) ys = [] := rfl

/-- With negative sizes there is nothing in the box. -/
theorem quad_nil {width height : Int} (hw : width < 0) (hh : height < 0) (row col : Int) :
    boxWithoutRowAndColumnOf row col width height = .ok [] := by
  unfold boxWithoutRowAndColumnOf
  rw [if_neg (by omega), if_neg (by omega)]
  simp only [rng_nonpos (show height ≤ 0 by omega), product_nil_left, List.filter_nil, List.map_nil]

/-- With boxes of height 1 there is nothing in the box outside of the row. -/
theorem quad_one {n : Int} (hn : n ≠ 0) (row col : Int) : boxWithoutRowAndColumnOf row col n 1 = .ok [] := by
  unfold boxWithoutRowAndColumnOf
  rw [if_neg hn, if_neg (by omega)]
  simp only
  congr 1
  rw [List.map_eq_nil_iff, List.filter_eq_nil_iff]
  intro p hp
  have h := (mem_product.1 hp).1
  rw [mem_rng] at h
  have e : p.1 = 0 := by omega
  simp [e]

theorem surrounding_eq {width height : Int} (hw : width < 0) (hh : height < 0) (row col : Int) (incl : Bool) :
    surroundingOf row col width height incl = surroundingOf row col (width * height) 1 incl := by
  unfold surroundingOf rowOf columnOf
  have hn : width * height ≠ 0 := by
    have := Int.mul_pos_of_neg_of_neg hw hh
    omega
  rw [quad_nil hw hh, quad_one hn, Int.mul_one]

/-- A sudoku whose boxes are the rows, with the same numbers. -/
def latin (s : ISudoku) : Sudoku := { bw := s.n, bh := 1, num := s.num, cand := fun _ => ∅ }

theorem latin_n (s : ISudoku) : (latin s).n = s.n := by unfold latin Sudoku.n; simp

theorem n_eq (s : ISudoku) : s.n = (s.w * s.h).toNat := length_rng _

theorem number_latin (s : ISudoku) (a : ICell) : s.number a = IntCoordinates.number (latin s) a := by
  unfold ISudoku.number IntCoordinates.number
  rw [latin_n]
  rfl

theorem discard_latin (s : ISudoku) (l : List ICell) (cs : Finset Int) : s.discardAll l cs = IntCoordinates.discardAll (latin s) l cs := by
  induction l generalizing cs with
  | nil => rfl
  | cons b l ih =>
    unfold ISudoku.discardAll IntCoordinates.discardAll
    rw [number_latin]
    split
    · rename_i h; rw [h]
    · rename_i h; rw [h, ih]

theorem with_latin (s : ISudoku) (a : ICell) (v : Int) (l : List ICell) :
    s.conflictsWith a v l = IntCoordinates.conflictsWith (latin s) a v l := by
  induction l with
  | nil => rfl
  | cons b l ih =>
    unfold ISudoku.conflictsWith IntCoordinates.conflictsWith
    rw [number_latin]
    split
    · rename_i h; rw [h]
    · rename_i h; rw [h, ih]

theorem quad_nat (row col : Int) (w h : Nat) :
    boxWithoutRowAndColumnOf row col w h = IntCoordinates.boxWithoutRowAndColumnOf row col w h := by
  unfold boxWithoutRowAndColumnOf IntCoordinates.boxWithoutRowAndColumnOf
  simp only [fmod_nat, rng_nat, Int.natCast_eq_zero]

theorem surrounding_nat (row col : Int) (w h : Nat) (incl : Bool) :
    surroundingOf row col w h incl = IntCoordinates.surroundingOf row col w h incl := by
  unfold surroundingOf IntCoordinates.surroundingOf rowOf columnOf IntCoordinates.rowOf IntCoordinates.columnOf
  rw [quad_nat, ← Int.natCast_mul, rng_nat]
  rfl

theorem surrounding_latin {s : ISudoku} (hw : s.w < 0) (hh : s.h < 0) (row col : Int) (incl : Bool) :
    surroundingOf row col s.w s.h incl = IntCoordinates.surroundingOf row col (latin s).bw (latin s).bh incl := by
  have hp := Int.mul_pos_of_neg_of_neg hw hh
  have e : s.w * s.h = (s.n : Int) := by rw [n_eq]; omega
  rw [surrounding_eq hw hh, e]
  exact surrounding_nat row col s.n 1 incl

theorem numbers_latin (s : ISudoku) : rng1 (s.w * s.h) = (latin s).numbers := by
  unfold Sudoku.numbers
  rw [latin_n, n_eq]
  rfl

theorem cells_latin (s : ISudoku) : s.cells = (latin s).cells.map ints := by
  unfold ISudoku.cells Sudoku.cells Sudoku.indices
  rw [latin_n, n_eq]
  unfold rng Coordinates.product ints
  simp [List.map_flatMap, List.flatMap_map, Function.comp_def]

theorem at_latin {s : ISudoku} (hw : s.w < 0) (hh : s.h < 0) (a : ICell) : s.conflictsAt a = IntCoordinates.conflictsAt (latin s) a := by
  unfold ISudoku.conflictsAt IntCoordinates.conflictsAt
  rw [number_latin, surrounding_latin hw hh]
  cases IntCoordinates.number (latin s) a with
  | error e => rfl
  | ok v =>
    simp only
    split
    · rfl
    · cases IntCoordinates.surroundingOf a.1 a.2 (latin s).bw (latin s).bh false with
      | error e => rfl
      | ok l => exact with_latin s a v l

theorem loop_latin {s : ISudoku} (hw : s.w < 0) (hh : s.h < 0) (l : List ICell) :
    s.conflictsLoop l = IntCoordinates.conflictsLoop (latin s) l := by
  induction l with
  | nil => rfl
  | cons a l ih =>
    unfold ISudoku.conflictsLoop IntCoordinates.conflictsLoop
    rw [at_latin hw hh, ih]
    rfl

end IntSizes
