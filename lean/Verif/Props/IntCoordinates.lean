import Verif.Proofs.IntCoordinates
import Verif.Props.Solve

set_option autoImplicit false

/-!
# Arbitrary integers as coordinates (C98)

`GoodCell n a`: both numbers are indices that Python accepts for lists of length `n`, i.e. between `-n` and `n - 1`;
`fieldOf n a`: the field meant by them (negative ones count from the end), see `C05_last_write`.
-/

open Spec IntCoordinates

namespace Props

/-- What `GoodCell` and `fieldOf` mean. -/
theorem fieldOf_iff (n : Nat) (a : ICell) (b : Cell) : (GoodCell n a ∧ fieldOf n a = b) ↔
    (b.1 < n ∧ b.2 < n) ∧ (a.1 = b.1 ∨ a.1 = (b.1 : Int) - n) ∧ (a.2 = b.2 ∨ a.2 = (b.2 : Int) - n) := by
  obtain ⟨i, j⟩ := a
  obtain ⟨k, l⟩ := b
  unfold GoodCell fieldOf wrap
  simp only [Prod.mk.injEq]
  constructor
  · rintro ⟨h, h1, h2⟩
    split at h1 <;> split at h2 <;> omega
  · rintro ⟨h, h1, h2⟩
    refine ⟨by omega, ?_, ?_⟩
    · split <;> omega
    · split <;> omega

/-! ## Coordinates -/

/-- **C98** For fields of the grid the functions are those of `C01` to `C04`. -/
theorem C98_same (s : Sudoku) (a : Cell) (ha : InGrid s.bw s.bh a) (incl : Bool) :
    boxAt a.1 a.2 s.bw s.bh = .ok (s.boxAt a.1 a.2 : Nat) ∧
    rowOf a.1 a.2 s.bw s.bh incl = (s.rowOf a incl).map ints ∧
    columnOf a.1 a.2 s.bw s.bh incl = (s.columnOf a incl).map ints ∧
    boxOf a.1 a.2 s.bw s.bh incl = .ok ((s.boxOf a incl).map ints) ∧
    surroundingOf a.1 a.2 s.bw s.bh incl = .ok ((s.surroundingOf a incl).map ints) := by
  obtain ⟨hw, hh⟩ := Geometry.inGrid_pos ha
  have hrow : rowOf a.1 a.2 s.bw s.bh incl = (s.rowOf a incl).map ints := by
    unfold rowOf rng Sudoku.rowOf Sudoku.indices
    rw [List.filter_map, List.map_map, List.map_map]
    congr 1
    refine List.filter_congr fun j _ => ?_
    rw [Bool.eq_iff_iff]; simp
  have hcol : columnOf a.1 a.2 s.bw s.bh incl = (s.columnOf a incl).map ints := by
    unfold columnOf rng Sudoku.columnOf Sudoku.indices
    rw [List.filter_map, List.map_map, List.map_map]
    congr 1
    refine List.filter_congr fun j _ => ?_
    rw [Bool.eq_iff_iff]; simp
  have hm1 : ((a.1 : Int) - (a.1 : Int) % s.bh) = ((a.1 - a.1 % s.bh : Nat) : Int) := by
    rw [Int.natCast_sub (Nat.mod_le _ _)]; simp
  have hm2 : ((a.2 : Int) - (a.2 : Int) % s.bw) = ((a.2 - a.2 % s.bw : Nat) : Int) := by
    rw [Int.natCast_sub (Nat.mod_le _ _)]; simp
  have hprod : Coordinates.product (rng s.bh) (rng s.bw) = (Coordinates.product (List.range s.bh) (List.range s.bw)).map ints := by
    unfold Coordinates.product rng ints
    simp [List.map_flatMap, List.flatMap_map, Function.comp_def]
  have hbox : boxList (a.1 - a.1 % s.bh : Nat) (a.2 - a.2 % s.bw : Nat) s.bw s.bh = (s.boxOf a true).map ints := by
    rw [boxList_eq, hprod, List.map_map]
    unfold Sudoku.boxOf
    rw [if_neg (by simp), Geometry.flatMap_range_eq_product, List.map_map]
    refine List.map_congr_left fun p _ => ?_
    simp [ints]
  have hquad : quadList a.1 a.2 s.bw s.bh = (s.quadWithoutRowAndColumnOf a).map ints := by
    unfold quadList Sudoku.quadWithoutRowAndColumnOf
    rw [hm1, hm2, boxList_eq, hprod, List.map_map, List.filter_map, List.map_map]
    congr 1
    · refine List.filter_congr fun p _ => ?_
      rw [Bool.eq_iff_iff]
      simp only [Function.comp_apply, ints, Bool.and_eq_true, bne_iff_ne, ne_eq]
      constructor <;> rintro ⟨h1, h2⟩ <;> exact ⟨fun e => h1 (by omega), fun e => h2 (by omega)⟩
  refine ⟨?_, hrow, hcol, ?_, ?_⟩
  · unfold boxAt Sudoku.boxAt
    rw [if_neg (by omega), if_neg (by omega)]
    have : a.1 % s.bh ≤ a.2 / s.bw + a.1 := (Nat.mod_le _ _).trans (Nat.le_add_left _ _)
    rw [Int.natCast_sub this]
    simp
  · rw [boxOf_eq hw hh, hm1, hm2, hbox]
    cases incl
    · unfold Sudoku.boxOf
      simp only [Bool.not_true, Bool.false_eq_true, if_false, Bool.not_false, if_true, Bool.false_or]
      rw [List.map_erase cast_injective, List.Nodup.erase_eq_filter]
      · rfl
      · have := s.nodup_boxOf (a := a) (incl := true)
        unfold Sudoku.boxOf at this
        rw [if_neg (by simp)] at this
        exact this.map cast_injective
    · simp
  · cases incl
    · rw [surroundingOf_false hw hh, around, hrow, hcol, hquad]
      unfold Sudoku.surroundingOf
      simp
    · rw [surroundingOf_true hw hh, around, hrow, hcol, hquad]
      unfold Sudoku.surroundingOf
      simp only [if_true]
      rw [List.map_erase cast_injective, List.map_append, List.map_append]
      rw [pyRemove, if_pos]
      · rfl
      · refine List.mem_append_left _ (List.mem_append_left _ ?_)
        rw [List.mem_map]
        refine ⟨a, ?_, rfl⟩
        rw [Sudoku.mem_rowOf]
        unfold InGrid at ha
        simp [ha]

/-- **C98** Boxes of size 0 are a `ZeroDivisionError`. -/
theorem C98_zero (w h : Nat) (hz : w = 0 ∨ h = 0) (row col : Int) (incl : Bool) :
    boxAt row col w h = .error .ZeroDivisionError ∧ boxOf row col w h incl = .error .ZeroDivisionError ∧
    surroundingOf row col w h incl = .error .ZeroDivisionError ∧ rowOf row col w h incl = [] ∧ columnOf row col w h incl = [] := by
  have e : w * h = 0 := by rcases hz with rfl | rfl <;> simp
  refine ⟨?_, ?_, ?_, ?_, ?_⟩
  · unfold boxAt; split <;> first | rfl | (rw [if_pos (by omega)])
  · unfold boxOf; split <;> first | rfl | (rw [if_pos (by omega)])
  · unfold surroundingOf boxWithoutRowAndColumnOf
    by_cases hw : w = 0
    · simp [hw]
    · have : h = 0 := by omega
      simp [hw, this]
  · unfold rowOf; rw [e]; rfl
  · unfold columnOf; rw [e]; rfl

/-- **C98** The box of any pair of integers: the plane is divided into boxes, also outside of the grid. -/
theorem C98_box (w h : Nat) (hw : 0 < w) (hh : 0 < h) (row col : Int) (incl : Bool) :
    ∃ l, boxOf row col w h incl = .ok l ∧ l.Nodup ∧
      ∀ a, a ∈ l ↔ (a.1 / h = row / h ∧ a.2 / w = col / w) ∧ (incl = true ∨ a ≠ (row, col)) := by
  refine ⟨_, boxOf_eq hw hh row col incl, (nodup_boxList _ _ _ _).filter _, fun a => ?_⟩
  rw [List.mem_filter, mem_boxList, sameQuot hh, sameQuot hw]
  simp only [Bool.or_eq_true, bne_iff_ne]
  constructor
  · rintro ⟨⟨a, b, c, d⟩, e⟩; exact ⟨⟨⟨a, b⟩, c, d⟩, e⟩
  · rintro ⟨⟨⟨a, b⟩, c, d⟩, e⟩; exact ⟨⟨a, b, c, d⟩, e⟩

/-- Row and column within the grid and the box, without the field itself. -/
def Around (w h : Nat) (row col : Int) (a : ICell) : Prop :=
  (a.1 = row ∧ a.2 ≠ col ∧ 0 ≤ a.2 ∧ a.2 < (w * h : Nat)) ∨ (a.2 = col ∧ a.1 ≠ row ∧ 0 ≤ a.1 ∧ a.1 < (w * h : Nat)) ∨
    (a.1 ≠ row ∧ a.2 ≠ col ∧ a.1 / h = row / h ∧ a.2 / w = col / w)

/-- **C98** `surrounding_of(..., include=False)` for any integers: never an exception. -/
theorem C98_surrounding (w h : Nat) (hw : 0 < w) (hh : 0 < h) (row col : Int) :
    ∃ l, surroundingOf row col w h false = .ok l ∧ l.Nodup ∧ ∀ a, a ∈ l ↔ Around w h row col a := by
  refine ⟨_, surroundingOf_false hw hh row col, nodup_around_false _ _ hw hh, fun a => ?_⟩
  unfold around Around
  rw [List.mem_append, List.mem_append, mem_rowOf, mem_columnOf, mem_quadList hw hh]
  simp only [Bool.false_eq_true, false_or]
  constructor
  · rintro ((⟨a, b, c, d⟩ | ⟨a, b, c, d⟩) | ⟨⟨a, b⟩, c, d⟩)
    · exact Or.inl ⟨a, d, b, c⟩
    · exact Or.inr (Or.inl ⟨a, d, b, c⟩)
    · exact Or.inr (Or.inr ⟨c, d, a, b⟩)
  · rintro (⟨a, d, b, c⟩ | ⟨a, d, b, c⟩ | ⟨c, d, a, b⟩)
    · exact Or.inl (Or.inl ⟨a, b, c, d⟩)
    · exact Or.inl (Or.inr ⟨a, b, c, d⟩)
    · exact Or.inr ⟨⟨a, b⟩, c, d⟩

/-- **C98** `surrounding_of(..., include=True)`: a `ValueError` if row and column both are outside of the grid; if exactly one of them is,
the field itself is left out. -/
theorem C98_surrounding_include (w h : Nat) (hw : 0 < w) (hh : 0 < h) (row col : Int) :
    (¬ (0 ≤ row ∧ row < (w * h : Nat)) → ¬ (0 ≤ col ∧ col < (w * h : Nat)) →
      surroundingOf row col w h true = .error .ValueError) ∧
    ((0 ≤ row ∧ row < (w * h : Nat)) ∨ (0 ≤ col ∧ col < (w * h : Nat)) →
      ∃ l, surroundingOf row col w h true = .ok l ∧ l.Nodup ∧
        ∀ a, a ∈ l ↔ Around w h row col a ∨ (a = (row, col) ∧ (0 ≤ row ∧ row < (w * h : Nat)) ∧ 0 ≤ col ∧ col < (w * h : Nat))) := by
  rw [surroundingOf_true hw hh]
  have hmem : (row, col) ∈ around row col w h true ↔ (0 ≤ row ∧ row < (w * h : Nat)) ∨ (0 ≤ col ∧ col < (w * h : Nat)) := by
    unfold around
    rw [List.mem_append, List.mem_append, mem_rowOf, mem_columnOf, mem_quadList hw hh]
    simp only [true_and, and_true, ne_eq, not_true_eq_false, and_false, or_false]
    exact or_comm
  refine ⟨fun h1 h2 => ?_, fun h12 => ⟨_, by rw [pyRemove, if_pos (hmem.2 h12)], ?_⟩⟩
  · rw [pyRemove, if_neg (by rw [hmem]; tauto)]
  · -- how often each coordinate is in the list
    have cnt : ∀ a, (around row col w h true).count a = (if a.1 = row ∧ 0 ≤ a.2 ∧ a.2 < (w * h : Nat) then 1 else 0) +
        (if a.2 = col ∧ 0 ≤ a.1 ∧ a.1 < (w * h : Nat) then 1 else 0) +
        if (a.1 / h = row / h ∧ a.2 / w = col / w) ∧ a.1 ≠ row ∧ a.2 ≠ col then 1 else 0 := by
      intro a
      unfold around
      rw [List.count_append, List.count_append, (nodup_rowOf _ _ _ _ _).count, (nodup_columnOf _ _ _ _ _).count,
        (nodup_quadList _ _ _ _).count]
      simp only [mem_rowOf, mem_columnOf, mem_quadList hw hh, true_or, and_true]
    classical
    have cnt' : ∀ a, ((around row col w h true).erase (row, col)).count a = if Around w h row col a ∨
        (a = (row, col) ∧ (0 ≤ row ∧ row < (w * h : Nat)) ∧ 0 ≤ col ∧ col < (w * h : Nat)) then 1 else 0 := by
      rintro ⟨i, j⟩
      rw [List.count_erase, cnt]
      unfold Around
      by_cases h1 : i = row
      · by_cases h2 : j = col
        · subst h1 h2
          simp only [true_and, ne_eq, not_true_eq_false, and_false, false_and, if_false, Nat.add_zero, false_or, beq_self_eq_true, if_true]
          by_cases g1 : 0 ≤ i ∧ i < (w * h : Nat) <;> by_cases g2 : 0 ≤ j ∧ j < (w * h : Nat)
          · simp only [g1, g2, and_self, if_true]
          · simp only [g1, g2, and_false, if_true, if_false, and_self]
          · simp only [g1, g2, if_true, if_false, and_self, false_and]
          · simp only [g1, g2, and_false, if_false]
        · subst h1
          have hne : ((i, col) == (i, j)) = false := by
            rw [beq_eq_false_iff_ne]; intro e; exact h2 (congrArg Prod.snd e).symm
          simp only [true_and, h2, ne_eq, not_true_eq_false, not_false_eq_true, false_and, and_false, if_false, Nat.add_zero, or_false,
            Prod.mk.injEq, hne, Nat.sub_zero, Bool.false_eq_true]
      · have hne : ((row, col) == (i, j)) = false := by
          rw [beq_eq_false_iff_ne]; intro e; exact h1 (congrArg Prod.fst e).symm
        by_cases h2 : j = col
        · subst h2
          simp only [true_and, h1, ne_eq, not_true_eq_false, not_false_eq_true, false_and, and_false, if_false, Nat.add_zero, or_false,
            Prod.mk.injEq, hne, Nat.sub_zero, Nat.zero_add, false_or, Bool.false_eq_true]
        · simp only [true_and, h1, h2, ne_eq, not_false_eq_true, false_and, and_true, if_false, Nat.add_zero, or_false,
            Prod.mk.injEq, hne, Nat.sub_zero, Nat.zero_add, false_or, Bool.false_eq_true]
    refine ⟨?_, fun a => ?_⟩
    · rw [List.nodup_iff_count_le_one]
      intro a
      rw [cnt']; split <;> omega
    · rw [← List.count_pos_iff, cnt']
      split <;> simp_all

/-! ## `calc_candidates` -/

/-- **C98** `calc_candidates` works for negative coordinates that Python accepts; others are an `IndexError`. -/
theorem C98_calc (s : Sudoku) (row col : Int) :
    (GoodCell s.n (row, col) → calcCandidates s row col = .ok (Solve.calcCandidates s (fieldOf s.n (row, col)))) ∧
    (¬ GoodCell s.n (row, col) → calcCandidates s row col = .error .IndexError) := by
  constructor
  · intro ha
    unfold calcCandidates Solve.calcCandidates
    rw [number_good ha]
    simp only
    split
    · rfl
    · rename_i h0
      rw [surroundingOf_false (good_pos ha).1 (good_pos ha).2]
      simp only
      rw [discardAll_eq (around_good ha), ← filter_around s ha]
      congr 1
      ext v
      rw [Solve.mem_foldl_erase, Solve.mem_foldl_erase]
      refine and_congr_right fun hv => ⟨fun h b hb => h b (List.mem_of_mem_filter hb), fun h b hb => ?_⟩
      by_cases e : b = fieldOf s.n (row, col)
      · rw [List.mem_toFinset, Sudoku.mem_numbers] at hv
        rw [e]
        have : s.get (fieldOf s.n (row, col)) = 0 := by simpa using h0
        rw [this]
        have := hv.1
        omega
      · exact h b (List.mem_filter.2 ⟨hb, by simpa using e⟩)
  · intro ha
    unfold calcCandidates
    rw [number_bad ha]

/-! ## `find_conflicts` -/

/-- The fields meant in a reported conflict. -/
def meant (n : Nat) (t : ICell × ICell × Int) : Cell × Cell × Int := (fieldOf n t.1, fieldOf n t.2.1, t.2.2)

/-- **C98** `find_conflicts` for coordinates that Python accepts: no exception.  Besides the conflicts of the fields that are meant ... -/
theorem C98_conflicts (s : Sudoku) (coords : List ICell) (hne : coords ≠ []) (hg : ∀ a ∈ coords, GoodCell s.n a) :
    let r := findConflicts s coords
    r.2 = none ∧ (r.1.map (meant s.n)).filter (fun t => t.1 != t.2.1) = Solve.findConflicts s (coords.map (fieldOf s.n)) := by
  intro r
  have hr : r = (coords.flatMap fun a => (conflictsAt s a).1, none) := by
    show findConflicts s coords = _
    unfold findConflicts
    rw [if_neg (by simpa using hne), conflictsLoop_good hg]
  rw [hr]
  refine ⟨rfl, ?_⟩
  unfold Solve.findConflicts
  rw [if_neg (by simpa using hne)]
  simp only
  rw [List.map_flatMap, List.filter_flatMap, List.flatMap_map]
  refine List.flatMap_congr fun a ha => ?_
  rw [conflictsAt_good (hg a ha)]
  simp only
  split
  · rfl
  · rw [← filter_around s (hg a ha), List.filter_map, List.filter_map, List.map_map, List.filter_filter,
      List.filter_map, List.filter_map, List.map_map, List.filter_filter]
    congr 1
    refine List.filter_congr fun b _ => ?_
    rw [Bool.eq_iff_iff]
    simp only [Function.comp_apply, meant, Bool.and_eq_true, bne_iff_ne, ne_eq, beq_iff_eq]
    constructor
    · rintro ⟨h1, h2⟩; exact ⟨h2, fun e => h1 e.symm⟩
    · rintro ⟨h1, h2⟩; exact ⟨fun e => h2 e.symm, h1⟩

/-- **C98** ... each negative coordinate of a filled field makes it report a conflict of the field with itself. -/
theorem C98_self (s : Sudoku) (a : ICell) (ha : GoodCell s.n a) (h0 : s.get (fieldOf s.n a) ≠ 0) :
    (((findConflicts s [a]).1.map (meant s.n)).filter fun t => t.1 == t.2.1).length =
      (if a.1 < 0 then 1 else 0) + if a.2 < 0 then 1 else 0 := by
  have hr : findConflicts s [a] = ((conflictsAt s a).1, none) := by
    unfold findConflicts
    rw [if_neg (by simp), conflictsLoop_good (by simpa using ha)]
    simp
  rw [hr, conflictsAt_good ha, if_neg h0, ← self_around s ha]
  simp only
  rw [List.map_map, List.filter_map, List.filter_map, List.length_map, List.length_map, List.filter_filter]
  congr 1
  refine List.filter_congr fun b _ => ?_
  rw [Bool.eq_iff_iff]
  simp only [Function.comp_apply, meant, Bool.and_eq_true, beq_iff_eq]
  constructor
  · rintro ⟨h1, -⟩; exact h1.symm
  · intro h1; exact ⟨h1.symm, by rw [h1]⟩

/-- **C98** Other coordinates raise an `IndexError`, after the conflicts of the coordinates before them. -/
theorem C98_conflicts_bad (s : Sudoku) (l r : List ICell) (a : ICell) (hl : ∀ b ∈ l, GoodCell s.n b) (ha : ¬ GoodCell s.n a) :
    findConflicts s (l ++ a :: r) = (if l = [] then [] else (findConflicts s l).1, some .IndexError) := by
  unfold findConflicts
  rw [if_neg (by simp), conflictsLoop_bad hl ha]
  split
  · rename_i e; subst e; rfl
  · rename_i e
    rw [if_neg (by simpa using e)]

/-- **C98** Without coordinates all fields are searched. -/
theorem C98_conflicts_all (s : Sudoku) :
    findConflicts s [] = ((Solve.findConflicts s).map fun t => (ints t.1, ints t.2.1, t.2.2), none) := by
  have hg : ∀ a ∈ s.cells.map ints, GoodCell s.n a := by
    intro a ha
    obtain ⟨b, hb, rfl⟩ := List.mem_map.1 ha
    rw [Sudoku.mem_cells] at hb
    unfold InGrid at hb
    unfold GoodCell ints Sudoku.n
    simp only
    omega
  show conflictsLoop s (s.cells.map ints) = _
  rw [conflictsLoop_good hg, List.flatMap_map]
  unfold Solve.findConflicts
  simp only [List.isEmpty_nil, if_true]
  rw [List.map_flatMap]
  congr 1
  refine List.flatMap_congr fun a ha => ?_
  have hga := hg _ (List.mem_map_of_mem ha)
  have hf : fieldOf s.n (ints a) = a := by unfold fieldOf ints; simp only [wrap_nat]
  rw [Sudoku.mem_cells] at ha
  rw [conflictsAt_good hga, hf]
  simp only
  split
  · rfl
  · have h := (C98_same s a ha false).2.2.2.2
    rw [surroundingOf_false (good_pos hga).1 (good_pos hga).2] at h
    have h' : around (ints a).1 (ints a).2 s.bw s.bh false = (s.surroundingOf a false).map ints := by
      injection h
    rw [h', List.filter_map, List.map_map, List.map_map]
    congr 1

/-! ## Samples -/

-- a full sudoku without conflicts, and the coordinates (-1, -1) of its last field
example : Solve.findConflicts solved4 = [] ∧
    findConflicts solved4 [(-1, -1)] = ([((-1, -1), (-1, 3), solved4.get (3, 3)), ((-1, -1), (3, -1), solved4.get (3, 3))], none) := by
  decide +kernel
example : findConflicts solved4 [(0, 0), (0, 4)] = ([], some .IndexError) := by decide +kernel
example : calcCandidates solved4 (-4) 0 = .ok {solved4.get (0, 0)} ∧ calcCandidates solved4 4 0 = .error .IndexError := by decide +kernel
example : calcCandidates (solved4.setNumber (3, 3) 0) (-1) (-1) = .ok {solved4.get (3, 3)} := by decide +kernel
example : boxOf (-1) 2 2 3 = .ok [(-3, 2), (-3, 3), (-2, 2), (-2, 3), (-1, 2), (-1, 3)] := by decide +kernel
example : surroundingOf (-1) 4 2 2 true = .error .ValueError ∧
    surroundingOf (-1) 0 2 2 true = .ok [(-1, 1), (-1, 2), (-1, 3), (0, 0), (1, 0), (2, 0), (3, 0), (-2, 1)] := by decide +kernel

end Props
