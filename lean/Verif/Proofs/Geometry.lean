import Mathlib.Data.List.Nodup
import Mathlib.Tactic.Tauto
import Mathlib.Data.List.Perm.Basic
import Verif.Model.Sudoku

set_option autoImplicit false

/-! Helper lemmas about coordinates. -/

open Spec

namespace Geometry

theorem mem_product {α β : Type} {xs : List α} {ys : List β} {p : α × β} :
    p ∈ Coordinates.product xs ys ↔ p.1 ∈ xs ∧ p.2 ∈ ys := by
  obtain ⟨a, b⟩ := p
  simp [Coordinates.product]

theorem nodup_product {α β : Type} {xs : List α} {ys : List β} (hx : xs.Nodup) (hy : ys.Nodup) :
    (Coordinates.product xs ys).Nodup := by
  unfold Coordinates.product
  rw [List.nodup_flatMap]
  refine ⟨fun x _ => hy.map (fun a b h => by simpa using h), ?_⟩
  refine hx.imp ?_
  intro a b hab
  simp only [Function.onFun, List.disjoint_left, List.mem_map]
  rintro p ⟨y, _, rfl⟩ ⟨z, _, h⟩
  exact hab (by simpa using (congrArg Prod.fst h).symm)

theorem flatMap_range_eq_product (h w y x : Nat) :
    ((List.range h).flatMap fun i => (List.range w).map fun j => (y + i, x + j))
      = (Coordinates.product (List.range h) (List.range w)).map fun p => (y + p.1, x + p.2) := by
  simp [Coordinates.product, List.map_flatMap, Function.comp_def]

/-- Numbers with the same quotient form an interval. -/
theorem div_eq_iff_interval {a b h : Nat} (hh : 0 < h) :
    b / h = a / h ↔ ∃ i, i < h ∧ a - a % h + i = b := by
  have e : a - a % h = h * (a / h) := by have := Nat.div_add_mod a h; omega
  rw [e]
  constructor
  · intro hq
    refine ⟨b % h, Nat.mod_lt _ hh, ?_⟩
    rw [← hq]; exact Nat.div_add_mod b h
  · rintro ⟨i, hi, rfl⟩
    rw [Nat.mul_add_div hh, Nat.div_eq_of_lt hi, Nat.add_zero]

theorem mem_boxList {w h : Nat} (hw : 0 < w) (hh : 0 < h) (a b : Cell) :
    b ∈ ((List.range h).flatMap fun i => (List.range w).map fun j => (a.1 - a.1 % h + i, a.2 - a.2 % w + j))
      ↔ b.1 / h = a.1 / h ∧ b.2 / w = a.2 / w := by
  rw [div_eq_iff_interval hh, div_eq_iff_interval hw]
  obtain ⟨b1, b2⟩ := b
  simp only [List.mem_flatMap, List.mem_map, List.mem_range, Prod.mk.injEq]
  constructor
  · rintro ⟨i, hi, j, hj, h1, h2⟩; exact ⟨⟨i, hi, h1⟩, ⟨j, hj, h2⟩⟩
  · rintro ⟨⟨i, hi, h1⟩, ⟨j, hj, h2⟩⟩; exact ⟨i, hi, j, hj, h1, h2⟩

theorem nodup_boxList (y x w h : Nat) :
    ((List.range h).flatMap fun i => (List.range w).map fun j => (y + i, x + j)).Nodup := by
  rw [flatMap_range_eq_product]
  refine (nodup_product List.nodup_range List.nodup_range).map ?_
  rintro ⟨a, b⟩ ⟨c, d⟩ hcd
  simp only [Prod.mk.injEq] at hcd ⊢
  omega

theorem length_boxList (y x w h : Nat) :
    ((List.range h).flatMap fun i => (List.range w).map fun j => (y + i, x + j)).length = w * h := by
  simp [List.length_flatMap, Nat.mul_comm]

theorem inGrid_pos {w h : Nat} {a : Cell} (ha : InGrid w h a) : 0 < w ∧ 0 < h := by
  have := ha.1
  constructor
  · rcases Nat.eq_zero_or_pos w with h0 | h0
    · subst h0; simp at this
    · exact h0
  · rcases Nat.eq_zero_or_pos h with h0 | h0
    · subst h0; simp at this
    · exact h0

theorem sameBox_inGrid {w h : Nat} {a b : Cell} (ha : InGrid w h a) (hb : SameBox w h a b) : InGrid w h b := by
  obtain ⟨hw, hh⟩ := inGrid_pos ha
  obtain ⟨h1, h2⟩ := hb
  have a1 : a.1 / h < w := (Nat.div_lt_iff_lt_mul hh).2 ha.1
  have a2 : a.2 / w < h := (Nat.div_lt_iff_lt_mul hw).2 (by rw [Nat.mul_comm]; exact ha.2)
  constructor
  · exact (Nat.div_lt_iff_lt_mul hh).1 (h1 ▸ a1)
  · have := (Nat.div_lt_iff_lt_mul hw).1 (h2 ▸ a2); rwa [Nat.mul_comm] at this

theorem peer_symm {w h : Nat} {a b : Cell} : Peer w h a b ↔ Peer w h b a := by
  unfold Peer SameRow SameCol SameBox
  constructor <;> rintro ⟨h1, h2⟩ <;> refine ⟨Ne.symm h1, ?_⟩ <;>
    rcases h2 with h | h | h <;> simp [h]

theorem peer_symm' {w h : Nat} {a b : Cell} : Peer w h a b → Peer w h b a := peer_symm.1

end Geometry

open Geometry

namespace Sudoku

variable (s : Sudoku)

@[simp] theorem setNumber_bw (a v) : (s.setNumber a v).bw = s.bw := rfl
@[simp] theorem setNumber_bh (a v) : (s.setNumber a v).bh = s.bh := rfl
@[simp] theorem setCandidates_bw (a v) : (s.setCandidates a v).bw = s.bw := rfl
@[simp] theorem setCandidates_bh (a v) : (s.setCandidates a v).bh = s.bh := rfl
@[simp] theorem removeCandidates_bw (a v) : (s.removeCandidates a v).bw = s.bw := rfl
@[simp] theorem removeCandidates_bh (a v) : (s.removeCandidates a v).bh = s.bh := rfl
@[simp] theorem new_bw (w h) : (Sudoku.new w h).bw = w := rfl
@[simp] theorem new_bh (w h) : (Sudoku.new w h).bh = h := rfl
@[simp] theorem new_num (w h a) : (Sudoku.new w h).num a = 0 := rfl
@[simp] theorem new_cand (w h a) : (Sudoku.new w h).cand a = ∅ := rfl

theorem mem_cells {a : Cell} : a ∈ s.cells ↔ InGrid s.bw s.bh a := by
  simp [cells, mem_product, indices, n, InGrid]

theorem nodup_cells : s.cells.Nodup := nodup_product List.nodup_range List.nodup_range

theorem mem_numbers {v : Int} : v ∈ s.numbers ↔ IsNumber s.bw s.bh v := by
  simp only [numbers, List.mem_map, List.mem_range, IsNumber, n]
  constructor
  · rintro ⟨i, hi, rfl⟩; omega
  · rintro ⟨h1, h2⟩; exact ⟨(v - 1).toNat, by omega, by omega⟩

theorem nodup_numbers : s.numbers.Nodup :=
  List.nodup_range.map (fun a b h => by have h : (a : Int) + 1 = b + 1 := h; omega)

theorem length_numbers : s.numbers.length = s.bw * s.bh := by simp [numbers, n]

theorem mem_rowOf {a b : Cell} {incl : Bool} :
    b ∈ s.rowOf a incl ↔ b.1 = a.1 ∧ b.2 < s.bw * s.bh ∧ (incl = true ∨ b.2 ≠ a.2) := by
  obtain ⟨b1, b2⟩ := b
  simp [rowOf, indices, n]
  tauto

theorem mem_columnOf {a b : Cell} {incl : Bool} :
    b ∈ s.columnOf a incl ↔ b.2 = a.2 ∧ b.1 < s.bw * s.bh ∧ (incl = true ∨ b.1 ≠ a.1) := by
  obtain ⟨b1, b2⟩ := b
  simp [columnOf, indices, n]
  tauto

theorem nodup_rowOf {a : Cell} {incl : Bool} : (s.rowOf a incl).Nodup :=
  (List.nodup_range.filter _).map (fun a b h => by simpa using h)

theorem nodup_columnOf {a : Cell} {incl : Bool} : (s.columnOf a incl).Nodup :=
  (List.nodup_range.filter _).map (fun a b h => by simpa using h)

theorem mem_boxOf {a b : Cell} (ha : InGrid s.bw s.bh a) :
    b ∈ s.boxOf a true ↔ SameBox s.bw s.bh a b := by
  obtain ⟨hw, hh⟩ := inGrid_pos ha
  have := mem_boxList hw hh a b
  simp only [boxOf, Bool.not_true, Bool.false_eq_true, if_false]
  rw [this]; unfold SameBox; constructor <;> rintro ⟨h1, h2⟩ <;> exact ⟨h1.symm, h2.symm⟩

theorem nodup_boxOf {a : Cell} {incl : Bool} : (s.boxOf a incl).Nodup := by
  unfold boxOf; simp only; split
  · exact (nodup_boxList _ _ _ _).erase _
  · exact nodup_boxList _ _ _ _

theorem mem_boxOf_false {a b : Cell} (ha : InGrid s.bw s.bh a) :
    b ∈ s.boxOf a false ↔ b ≠ a ∧ SameBox s.bw s.bh a b := by
  rw [← mem_boxOf s ha]
  simp only [boxOf, Bool.not_true, Bool.not_false, Bool.false_eq_true, if_false, if_true]
  exact (nodup_boxList _ _ _ _).mem_erase_iff

theorem mem_quad {a b : Cell} (ha : InGrid s.bw s.bh a) :
    b ∈ s.quadWithoutRowAndColumnOf a ↔ SameBox s.bw s.bh a b ∧ b.1 ≠ a.1 ∧ b.2 ≠ a.2 := by
  rw [← mem_boxOf s ha]
  simp only [quadWithoutRowAndColumnOf, boxOf, flatMap_range_eq_product, Bool.not_true, Bool.false_eq_true, if_false,
    List.mem_map, List.mem_filter]
  constructor
  · rintro ⟨p, ⟨h1, h2⟩, rfl⟩; simp at h2; exact ⟨⟨p, h1, rfl⟩, h2⟩
  · rintro ⟨⟨p, h1, rfl⟩, h2⟩; exact ⟨p, ⟨h1, by simpa using h2⟩, rfl⟩

theorem nodup_quad {a : Cell} : (s.quadWithoutRowAndColumnOf a).Nodup := by
  refine ((nodup_product List.nodup_range List.nodup_range).filter _).map ?_
  rintro ⟨a, b⟩ ⟨c, d⟩ hcd
  simp only [Prod.mk.injEq] at hcd ⊢
  omega

/-- The fields other than `a` in row, column and box of `a`. -/
theorem mem_surroundingOf_false {a b : Cell} (ha : InGrid s.bw s.bh a) :
    b ∈ s.surroundingOf a false ↔ InGrid s.bw s.bh b ∧ Peer s.bw s.bh a b := by
  simp only [surroundingOf, Bool.false_eq_true, if_false, List.mem_append, mem_rowOf, mem_columnOf, mem_quad s ha,
    false_or]
  constructor
  · rintro ((⟨h1, h2, h3⟩ | ⟨h1, h2, h3⟩) | ⟨h1, h2, h3⟩)
    · exact ⟨⟨h1 ▸ ha.1, h2⟩, fun h => h3 (h ▸ rfl), Or.inl h1.symm⟩
    · exact ⟨⟨h2, h1 ▸ ha.2⟩, fun h => h3 (h ▸ rfl), Or.inr (Or.inl h1.symm)⟩
    · exact ⟨sameBox_inGrid ha h1, fun h => h3 (h ▸ rfl), Or.inr (Or.inr h1)⟩
  · rintro ⟨hb, hne, h⟩
    by_cases e1 : b.1 = a.1
    · refine Or.inl (Or.inl ⟨e1, hb.2, fun e2 => hne (Prod.ext e1.symm e2.symm)⟩)
    · by_cases e2 : b.2 = a.2
      · exact Or.inl (Or.inr ⟨e2, hb.1, e1⟩)
      · rcases h with h | h | h
        · exact absurd h.symm e1
        · exact absurd h.symm e2
        · exact Or.inr ⟨h, e1, e2⟩

theorem nodup_surroundingOf_false {a : Cell} (ha : InGrid s.bw s.bh a) : (s.surroundingOf a false).Nodup := by
  simp only [surroundingOf, Bool.false_eq_true, if_false]
  rw [List.nodup_append', List.nodup_append']
  refine ⟨⟨s.nodup_rowOf, s.nodup_columnOf, ?_⟩, s.nodup_quad, ?_⟩
  · intro b h1 h2
    rw [mem_rowOf] at h1; rw [mem_columnOf] at h2
    simp at h1 h2
    exact h1.2.2 h2.1
  · intro b h1 h2
    rw [mem_quad s ha] at h2
    rw [List.mem_append, mem_rowOf, mem_columnOf] at h1
    rcases h1 with h1 | h1
    · exact h2.2.1 h1.1
    · exact h2.2.2 h1.1

theorem surroundingOf_true_perm {a : Cell} (ha : InGrid s.bw s.bh a) :
    (s.surroundingOf a true).Perm (a :: s.surroundingOf a false) := by
  have hr : (s.rowOf a true).Perm (a :: s.rowOf a false) := by
    rw [List.perm_ext_iff_of_nodup s.nodup_rowOf]
    · intro b; simp only [List.mem_cons, mem_rowOf]
      constructor
      · rintro ⟨h1, h2, -⟩
        by_cases e : b.2 = a.2
        · exact Or.inl (Prod.ext h1 e)
        · exact Or.inr ⟨h1, h2, Or.inr e⟩
      · rintro (rfl | ⟨h1, h2, -⟩)
        · exact ⟨rfl, ha.2, Or.inl trivial⟩
        · exact ⟨h1, h2, Or.inl trivial⟩
    · rw [List.nodup_cons]; exact ⟨by simp [mem_rowOf], s.nodup_rowOf⟩
  have hc : (s.columnOf a true).Perm (a :: s.columnOf a false) := by
    rw [List.perm_ext_iff_of_nodup s.nodup_columnOf]
    · intro b; simp only [List.mem_cons, mem_columnOf]
      constructor
      · rintro ⟨h1, h2, -⟩
        by_cases e : b.1 = a.1
        · exact Or.inl (Prod.ext e h1)
        · exact Or.inr ⟨h1, h2, Or.inr e⟩
      · rintro (rfl | ⟨h1, h2, -⟩)
        · exact ⟨rfl, ha.1, Or.inl trivial⟩
        · exact ⟨h1, h2, Or.inl trivial⟩
    · rw [List.nodup_cons]; exact ⟨by simp [mem_columnOf], s.nodup_columnOf⟩
  simp only [surroundingOf, Bool.false_eq_true, if_false, if_true]
  have := (((hr.append hc).append_right (s.quadWithoutRowAndColumnOf a)).erase a)
  refine this.trans ?_
  simp only [List.cons_append, List.erase_cons_head]
  rw [List.append_assoc, List.append_assoc]
  exact List.perm_middle

end Sudoku
