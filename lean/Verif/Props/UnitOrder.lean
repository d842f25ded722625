import Verif.Props.Geometry
import Verif.Props.Store

set_option autoImplicit false

/-!
# The order of the fields in the lists of coordinates.py (C01, C02, C03)
-/

open Spec

namespace Props

private theorem pairwise_block (x y m n : Nat) :
    ((List.range m).flatMap fun i => (List.range n).map fun j => (x + i, y + j)).Pairwise RowMajor := by
  rw [List.pairwise_flatMap]
  refine ⟨fun i _ => ?_, ?_⟩
  · rw [List.pairwise_map]
    exact List.pairwise_lt_range.imp fun h => Or.inr ⟨rfl, by simpa using h⟩
  · refine List.pairwise_lt_range.imp fun h p hp q hq => ?_
    obtain ⟨_, -, rfl⟩ := List.mem_map.1 hp
    obtain ⟨_, -, rfl⟩ := List.mem_map.1 hq
    exact Or.inl (by simpa using h)

/-- **C01** The lists are in row-major order. -/
theorem C01_order (w h : Nat) (a : Cell) (incl : Bool) :
    (Coordinates.rowOf a.1 a.2 w h incl).Pairwise RowMajor ∧ (Coordinates.columnOf a.1 a.2 w h incl).Pairwise RowMajor ∧
    (Coordinates.boxOf a.1 a.2 w h incl).Pairwise RowMajor := by
  refine ⟨?_, ?_, ?_⟩
  · unfold Coordinates.rowOf
    rw [List.pairwise_map]
    exact (List.pairwise_lt_range.filter _).imp fun h => Or.inr ⟨rfl, h⟩
  · unfold Coordinates.columnOf
    rw [List.pairwise_map]
    exact (List.pairwise_lt_range.filter _).imp fun h => Or.inl h
  · unfold Coordinates.boxOf
    simp only
    split
    · exact (pairwise_block _ _ _ _).sublist List.erase_sublist
    · exact pairwise_block _ _ _ _

/-- **C02** `surrounding_of` lists the others in the row, then those in the column (with the field itself, if it is to be included, at its place in the
column), then what remains of the box. -/
theorem C02_order (w h : Nat) (a : Cell) (ha : InGrid w h a) (incl : Bool) :
    ∃ rest, Coordinates.surroundingOf a.1 a.2 w h incl =
      Coordinates.rowOf a.1 a.2 w h false ++ Coordinates.columnOf a.1 a.2 w h incl ++ rest ∧
      rest.Pairwise RowMajor ∧ ∀ b, b ∈ rest ↔ InGrid w h b ∧ SameBox w h a b ∧ ¬ SameRow a b ∧ ¬ SameCol a b := by
  have hbox : Coordinates.boxWithoutRowAndColumnOf a.1 a.2 w h =
      (Coordinates.boxOf a.1 a.2 w h true).filter fun b => b.1 != a.1 && b.2 != a.2 := by
    unfold Coordinates.boxWithoutRowAndColumnOf Coordinates.boxOf Coordinates.product
    simp only [Bool.not_true, Bool.false_eq_true, if_false]
    rw [show ((List.range h).flatMap fun i => (List.range w).map fun j => (a.1 - a.1 % h + i, a.2 - a.2 % w + j)) =
      ((List.range h).flatMap fun i => (List.range w).map fun j => (i, j)).map fun p => (a.1 - a.1 % h + p.1, a.2 - a.2 % w + p.2) by
        rw [List.map_flatMap]; simp only [List.map_map]; rfl, List.filter_map]
    rfl
  have hrow : (Coordinates.rowOf a.1 a.2 w h true).erase a = Coordinates.rowOf a.1 a.2 w h false := by
    have hn : (Coordinates.rowOf a.1 a.2 w h true).Nodup := (C01_row_of w h a ha).1.1
    rw [hn.erase_eq_filter]
    unfold Coordinates.rowOf
    rw [List.filter_map, List.filter_filter]
    congr 1
    refine List.filter_congr fun j _ => ?_
    obtain ⟨r, c⟩ := a
    by_cases hj : j = c <;> simp [bne, hj]
  refine ⟨_, ?_, ((C01_order w h a true).2.2.filter fun b => b.1 != a.1 && b.2 != a.2), fun b => ?_⟩
  · unfold Coordinates.surroundingOf
    simp only [hbox]
    cases incl
    · rfl
    · rw [if_pos rfl, List.append_assoc, List.erase_append_left _ (by
        exact ((C01_row_of w h a ha).1.2 a).2 ⟨ha, rfl⟩), hrow, List.append_assoc]
  · rw [List.mem_filter, (C01_box_of w h a ha).1.2]
    simp only [SameRow, SameCol, and_assoc, Bool.and_eq_true, bne_iff_ne, ne_eq, eq_comm (a := b.1), eq_comm (a := b.2)]

private theorem pairwise_strided (x y m n s t : Nat) (hs : 0 < s) (ht : 0 < t) :
    ((List.range m).flatMap fun i => (List.range n).map fun j => (x + i * s, y + j * t)).Pairwise RowMajor := by
  rw [List.pairwise_flatMap]
  refine ⟨fun i _ => ?_, ?_⟩
  · rw [List.pairwise_map]
    exact List.pairwise_lt_range.imp fun h => Or.inr ⟨rfl, by simpa using Nat.mul_lt_mul_of_pos_right h ht⟩
  · refine List.pairwise_lt_range.imp fun h p hp q hq => ?_
    obtain ⟨_, -, rfl⟩ := List.mem_map.1 hp
    obtain ⟨_, -, rfl⟩ := List.mem_map.1 hq
    exact Or.inl (by simpa using Nat.mul_lt_mul_of_pos_right h hs)

/-- **C03** The lists are in row-major order. -/
theorem C03_order (w h : Nat) (k : Int) (l : List Cell)
    (hl : Coordinates.theRow k w h = .ok l ∨ Coordinates.theColumn k w h = .ok l ∨ Coordinates.theBox k w h = .ok l ∨
      Coordinates.thePart k w h = .ok l) : l.Pairwise RowMajor := by
  rcases hl with hl | hl | hl | hl
  · unfold Coordinates.theRow at hl
    split at hl
    · simp at hl
    · cases hl
      rw [List.pairwise_map]
      exact List.pairwise_lt_range.imp fun h => Or.inr ⟨rfl, h⟩
  · unfold Coordinates.theColumn at hl
    split at hl
    · simp at hl
    · cases hl
      rw [List.pairwise_map]
      exact List.pairwise_lt_range.imp fun h => Or.inl h
  · unfold Coordinates.theBox at hl
    split at hl
    · simp at hl
    · cases hl
      exact pairwise_block _ _ _ _
  · unfold Coordinates.thePart at hl
    split at hl
    · simp at hl
    · rename_i hk
      cases hl
      have : 0 < w * h := by omega
      exact pairwise_strided _ _ _ _ _ _ (Nat.pos_of_mul_pos_left this) (Nat.pos_of_mul_pos_right this)

example : Coordinates.surroundingOf 1 1 2 2 true = [(1, 0), (1, 2), (1, 3), (0, 1), (1, 1), (2, 1), (3, 1), (0, 0)] := by decide

end Props
