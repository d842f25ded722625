import Verif.Proofs.Geometry

set_option autoImplicit false

/-! Helper lemmas about `coordinates.py`. -/

open Spec Geometry

namespace Coordinates

theorem rowOf_eq (s : Sudoku) (a : Cell) (incl : Bool) : s.rowOf a incl = rowOf a.1 a.2 s.bw s.bh incl := rfl
theorem columnOf_eq (s : Sudoku) (a : Cell) (incl : Bool) : s.columnOf a incl = columnOf a.1 a.2 s.bw s.bh incl := rfl
theorem boxOf_eq (s : Sudoku) (a : Cell) (incl : Bool) : s.boxOf a incl = boxOf a.1 a.2 s.bw s.bh incl := rfl
theorem surroundingOf_eq (s : Sudoku) (a : Cell) (incl : Bool) :
    s.surroundingOf a incl = surroundingOf a.1 a.2 s.bw s.bh incl := rfl
theorem boxAt_eq (s : Sudoku) (row col : Nat) : s.boxAt row col = boxAt row col s.bw s.bh := rfl

/-- `box_at` in quotient form. -/
theorem boxAt_eq_div (row col w h : Nat) : boxAt row col w h = (row / h) * h + col / w := by
  have h1 := Nat.div_add_mod row h
  have h2 := Nat.mul_comm h (row / h)
  have h3 := Nat.mod_le row h
  unfold boxAt; generalize col / w = q; omega

theorem boxAt_div {row col w h : Nat} (ha : InGrid w h (row, col)) : boxAt row col w h / h = row / h := by
  obtain ⟨hw, hh⟩ := inGrid_pos ha
  have : col / w < h := (Nat.div_lt_iff_lt_mul hw).2 (by rw [Nat.mul_comm]; exact ha.2)
  rw [boxAt_eq_div, Nat.mul_comm, Nat.mul_add_div hh, Nat.div_eq_of_lt this, Nat.add_zero]

theorem boxAt_mod {row col w h : Nat} (ha : InGrid w h (row, col)) : boxAt row col w h % h = col / w := by
  obtain ⟨hw, hh⟩ := inGrid_pos ha
  have : col / w < h := (Nat.div_lt_iff_lt_mul hw).2 (by rw [Nat.mul_comm]; exact ha.2)
  rw [boxAt_eq_div, Nat.mul_comm, Nat.mul_add_mod, Nat.mod_eq_of_lt this]

theorem boxAt_lt {row col w h : Nat} (ha : InGrid w h (row, col)) : boxAt row col w h < w * h := by
  obtain ⟨hw, hh⟩ := inGrid_pos ha
  have h1 : row / h < w := (Nat.div_lt_iff_lt_mul hh).2 ha.1
  rw [← boxAt_div ha] at h1
  exact (Nat.div_lt_iff_lt_mul hh).1 h1

theorem boxAt_eq_iff {w h : Nat} {a b : Cell} (ha : InGrid w h a) (hb : InGrid w h b) :
    boxAt a.1 a.2 w h = boxAt b.1 b.2 w h ↔ SameBox w h a b := by
  constructor
  · intro e
    exact ⟨by rw [← boxAt_div (col := a.2) ha, ← boxAt_div (col := b.2) hb, e],
      by rw [← boxAt_mod (row := a.1) ha, ← boxAt_mod (row := b.1) hb, e]⟩
  · rintro ⟨h1, h2⟩; rw [boxAt_eq_div, boxAt_eq_div, h1, h2]

/-- The top left corner of box `b`. -/
theorem corner_inGrid {w h b : Nat} (hb : b < w * h) : InGrid w h (b / h * h, b % h * w) := by
  have hh : 0 < h := by
    rcases Nat.eq_zero_or_pos h with h0 | h0
    · subst h0; simp at hb
    · exact h0
  have hw : 0 < w := by
    rcases Nat.eq_zero_or_pos w with h0 | h0
    · subst h0; simp at hb
    · exact h0
  constructor
  · have : b / h < w := (Nat.div_lt_iff_lt_mul hh).2 hb
    exact Nat.mul_lt_mul_of_pos_right this hh
  · have : b % h < h := Nat.mod_lt _ hh
    have := Nat.mul_lt_mul_of_pos_right this hw
    simp only; rw [Nat.mul_comm w h]; exact this

theorem boxAt_corner {w h b : Nat} (hb : b < w * h) : boxAt (b / h * h) (b % h * w) w h = b := by
  obtain ⟨hw, hh⟩ := inGrid_pos (corner_inGrid hb)
  rw [boxAt_eq_div, Nat.mul_div_cancel _ hh, Nat.mul_div_cancel _ hw, Nat.mul_comm]
  exact Nat.div_add_mod b h

theorem theBox_eq {w h b : Nat} (hb : b < w * h) :
    theBox b w h = .ok (boxOf (b / h * h) (b % h * w) w h true) := by
  obtain ⟨hw, hh⟩ := inGrid_pos (corner_inGrid hb)
  unfold theBox boxOf
  rw [if_neg (by simp; exact_mod_cast hb)]
  simp

theorem mem_theBox {w h b : Nat} (hb : b < w * h) (l : List Cell) (hl : theBox b w h = .ok l) (a : Cell) :
    a ∈ l ↔ InGrid w h a ∧ boxAt a.1 a.2 w h = b := by
  rw [theBox_eq hb] at hl
  injection hl with hl; subst hl
  have hc := corner_inGrid hb
  have := Sudoku.mem_boxOf (Sudoku.new w h) (a := (b / h * h, b % h * w)) (b := a) hc
  rw [boxOf_eq] at this
  simp only [Sudoku.new_bw, Sudoku.new_bh] at this
  rw [this]
  constructor
  · intro hs
    have ha := sameBox_inGrid hc hs
    refine ⟨ha, ?_⟩
    rw [← (boxAt_eq_iff hc ha).2 hs, boxAt_corner hb]
  · rintro ⟨ha, e⟩
    rw [← boxAt_eq_iff hc ha, boxAt_corner hb, e]

/-- The part number of a field: its position within its box, see notation.py:400. -/
def partAt (row col width height : Nat) : Nat := col % width + row % height * width

theorem partAt_lt {row col w h : Nat} (hw : 0 < w) (hh : 0 < h) : partAt row col w h < w * h := by
  unfold partAt
  have h1 := Nat.mod_lt col hw
  have h2 := Nat.mod_lt row hh
  calc col % w + row % h * w < w + row % h * w := by omega
    _ = (row % h + 1) * w := by rw [Nat.succ_mul, Nat.add_comm]
    _ ≤ h * w := Nat.mul_le_mul_right _ h2
    _ = w * h := Nat.mul_comm _ _

theorem partAt_mod {row col w h : Nat} (_hw : 0 < w) : partAt row col w h % w = col % w := by
  unfold partAt; rw [Nat.add_mul_mod_self_right, Nat.mod_mod]

theorem partAt_div {row col w h : Nat} (hw : 0 < w) : partAt row col w h / w = row % h := by
  unfold partAt
  rw [Nat.add_mul_div_right _ _ hw, Nat.div_eq_of_lt (Nat.mod_lt _ hw), Nat.zero_add]

theorem partAt_eq_iff {w h : Nat} {a b : Cell} (hw : 0 < w) :
    partAt a.1 a.2 w h = partAt b.1 b.2 w h ↔ a.1 % h = b.1 % h ∧ a.2 % w = b.2 % w := by
  constructor
  · intro e
    exact ⟨by rw [← partAt_div (col := a.2) hw, ← partAt_div (col := b.2) hw, e],
      by rw [← partAt_mod (row := a.1) (h := h) hw, e, partAt_mod hw]⟩
  · rintro ⟨h1, h2⟩; unfold partAt; rw [h1, h2]

theorem mem_thePart {w h p : Nat} (hp : p < w * h) (l : List Cell) (hl : thePart p w h = .ok l) (a : Cell) :
    a ∈ l ↔ InGrid w h a ∧ partAt a.1 a.2 w h = p := by
  have hh : 0 < h := (inGrid_pos (corner_inGrid hp)).2
  have hw : 0 < w := (inGrid_pos (corner_inGrid hp)).1
  unfold thePart at hl
  rw [if_neg (by simp; exact_mod_cast hp)] at hl
  simp only [Int.toNat_natCast, Except.ok.injEq] at hl
  subst hl
  have hrow : p / w < h := (Nat.div_lt_iff_lt_mul hw).2 (by rw [Nat.mul_comm]; exact hp)
  have hcol : p % w < w := Nat.mod_lt _ hw
  obtain ⟨a1, a2⟩ := a
  simp only [List.mem_flatMap, List.mem_map, List.mem_range, Prod.mk.injEq]
  constructor
  · rintro ⟨i, hi, j, hj, rfl, rfl⟩
    refine ⟨⟨?_, ?_⟩, ?_⟩
    · calc p / w + i * h < h + i * h := by omega
        _ = (i + 1) * h := by rw [Nat.succ_mul, Nat.add_comm]
        _ ≤ w * h := Nat.mul_le_mul_right _ hi
    · calc p % w + j * w < w + j * w := by omega
        _ = (j + 1) * w := by rw [Nat.succ_mul, Nat.add_comm]
        _ ≤ h * w := Nat.mul_le_mul_right _ hj
        _ = w * h := Nat.mul_comm _ _
    · unfold partAt
      rw [Nat.add_mul_mod_self_right, Nat.add_mul_mod_self_right, Nat.mod_eq_of_lt hrow, Nat.mod_mod, Nat.mul_comm,
        Nat.add_comm]
      exact Nat.div_add_mod p w
  · rintro ⟨⟨h1, h2⟩, e⟩
    simp only at h1 h2 e
    refine ⟨a1 / h, (Nat.div_lt_iff_lt_mul hh).2 h1, a2 / w,
      (Nat.div_lt_iff_lt_mul hw).2 (by rw [Nat.mul_comm]; exact h2), ?_, ?_⟩
    · rw [← e, partAt_div hw, Nat.mul_comm, Nat.add_comm]; exact Nat.div_add_mod a1 h
    · rw [← e, partAt_mod hw, Nat.mul_comm, Nat.add_comm]; exact Nat.div_add_mod a2 w

theorem nodup_thePart {w h : Nat} {p : Int} (l : List Cell) (hl : thePart p w h = .ok l) : l.Nodup := by
  unfold thePart at hl
  split at hl
  · cases hl
  · rename_i hp
    simp only [Except.ok.injEq] at hl
    subst hl
    have hp' : 0 < w * h := by omega
    have hh : 0 < h := (inGrid_pos (corner_inGrid hp')).2
    have hw : 0 < w := (inGrid_pos (corner_inGrid hp')).1
    have e : ((List.range w).flatMap fun i => (List.range h).map fun j =>
        (p.toNat / w + i * h, p.toNat % w + j * w))
      = (product (List.range w) (List.range h)).map fun q => (p.toNat / w + q.1 * h, p.toNat % w + q.2 * w) := by
      simp [product, List.map_flatMap, Function.comp_def]
    rw [e]
    refine (nodup_product List.nodup_range List.nodup_range).map ?_
    rintro ⟨a, b⟩ ⟨c, d⟩ hcd
    simp only [Prod.mk.injEq, Nat.add_left_cancel_iff] at hcd ⊢
    exact ⟨Nat.eq_of_mul_eq_mul_right hh hcd.1, Nat.eq_of_mul_eq_mul_right hw hcd.2⟩

end Coordinates
