import Verif.Proofs.IntSizes
import Verif.Props.IntCoordinates

set_option autoImplicit false

/-!
# Any integers as box sizes (C103)

Model/IntSizes has `coordinates.py`, `calc_candidates`, `find_conflicts`, `is_solved` and `dlx` for all integers as box sizes.
-/

open Spec IntSizes
open IntCoordinates (ICell ints)

namespace Props

/-- **C103** For natural numbers as sizes these are the functions of `C98` (and so for fields of the grid those of `C01` to `C04`). -/
theorem C103_same (w h : Nat) (row col : Int) (incl : Bool) :
    boxAt row col w h = IntCoordinates.boxAt row col w h ∧
    boxOf row col w h incl = IntCoordinates.boxOf row col w h incl ∧
    columnOf row col w h incl = IntCoordinates.columnOf row col w h incl ∧
    rowOf row col w h incl = IntCoordinates.rowOf row col w h incl ∧
    surroundingOf row col w h incl = IntCoordinates.surroundingOf row col w h incl := by
  refine ⟨?_, ?_, ?_, ?_, surrounding_nat row col w h incl⟩
  · unfold boxAt IntCoordinates.boxAt
    simp only [fmod_nat, fdiv_nat, Int.natCast_eq_zero]
  · unfold boxOf IntCoordinates.boxOf
    simp only [fmod_nat, rng_nat, Int.natCast_eq_zero]
  · unfold columnOf IntCoordinates.columnOf
    rw [← Int.natCast_mul, rng_nat]
  · unfold rowOf IntCoordinates.rowOf
    rw [← Int.natCast_mul, rng_nat]

/-- **C103** The same for `the_box`, `the_column`, `the_part` and `the_row`, see `C03`. -/
theorem C103_same_units (w h : Nat) (i : Int) :
    theBox i w h = (Coordinates.theBox i w h).map (List.map ints) ∧
    theColumn i w h = (Coordinates.theColumn i w h).map (List.map ints) ∧
    thePart i w h = (Coordinates.thePart i w h).map (List.map ints) ∧
    theRow i w h = (Coordinates.theRow i w h).map (List.map ints) := by
  have hc : (0 ≤ i ∧ i < ((w * h : Nat) : Int)) ↔ 0 ≤ i ∧ i < (w : Int) * h := by rw [Int.natCast_mul]
  by_cases hi : 0 ≤ i ∧ i < (w : Int) * h
  · obtain ⟨k, rfl⟩ : ∃ k : Nat, i = k := ⟨i.toNat, by omega⟩
    refine ⟨?_, ?_, ?_, ?_⟩
    · unfold theBox Coordinates.theBox
      rw [if_neg (not_not.2 hi), if_neg (not_not.2 (hc.2 hi))]
      simp only [Except.map, fmod_nat, fdiv_nat, Int.toNat_natCast, Except.ok.injEq, rng_nat]
      unfold IntCoordinates.rng ints
      simp [List.map_flatMap, List.flatMap_map, Function.comp_def]
    · unfold theColumn Coordinates.theColumn
      rw [if_neg (not_not.2 hi), if_neg (not_not.2 (hc.2 hi)), ← Int.natCast_mul]
      simp only [Except.map, Int.toNat_natCast, Except.ok.injEq, rng_nat]
      unfold IntCoordinates.rng ints
      simp [Function.comp_def]
    · unfold thePart Coordinates.thePart
      rw [if_neg (not_not.2 hi), if_neg (not_not.2 (hc.2 hi))]
      simp only [Except.map, fmod_nat, fdiv_nat, Int.toNat_natCast, Except.ok.injEq, rng_nat]
      unfold IntCoordinates.rng ints
      simp [List.map_flatMap, List.flatMap_map, Function.comp_def]
    · unfold theRow Coordinates.theRow
      rw [if_neg (not_not.2 hi), if_neg (not_not.2 (hc.2 hi)), ← Int.natCast_mul]
      simp only [Except.map, Int.toNat_natCast, Except.ok.injEq, rng_nat]
      unfold IntCoordinates.rng ints
      simp [Function.comp_def]
  · unfold theBox theColumn thePart theRow Coordinates.theBox Coordinates.theColumn Coordinates.thePart Coordinates.theRow
    rw [if_pos hi, if_pos hi, if_pos hi, if_pos hi, if_pos (mt hc.1 hi), if_pos (mt hc.1 hi), if_pos (mt hc.1 hi), if_pos (mt hc.1 hi)]
    exact ⟨rfl, rfl, rfl, rfl⟩

/-- **C103** If one of the sizes is negative and the other positive (or one is 0), there are no fields, although `len` is the square of the product. -/
theorem C103_no_fields (s : ISudoku) (hs : s.w * s.h ≤ 0) :
    s.cells = [] ∧ s.len = (s.w * s.h) ^ 2 ∧ (∀ a, s.number a = .error .IndexError) ∧ s.findConflicts [] = ([], none) ∧
    s.isSolved = .ok true ∧
    ∀ i, theRow i s.w s.h = .error .ValueError ∧ theColumn i s.w s.h = .error .ValueError ∧ theBox i s.w s.h = .error .ValueError ∧
      thePart i s.w s.h = .error .ValueError := by
  have hc : s.cells = [] := by unfold ISudoku.cells; rw [rng_nonpos hs]; rfl
  have hf : s.findConflicts [] = ([], none) := by unfold ISudoku.findConflicts; simp [hc, ISudoku.conflictsLoop]
  refine ⟨hc, (Int.mul_pow ..).symm, fun a => ?_, hf, ?_, fun i => ?_⟩
  · have h0 : s.n = 0 := by rw [n_eq]; omega
    unfold ISudoku.number Store.pyIdx
    rw [h0, if_neg (by omega), if_neg (by omega)]
  · unfold ISudoku.isSolved
    have : s.empty = [] := by unfold ISudoku.empty; rw [hc]; rfl
    rw [this, hf]; rfl
  · unfold theRow theColumn theBox thePart
    have : ¬ (0 ≤ i ∧ i < s.w * s.h) := by omega
    simp [this]

/-- **C103** If both sizes are negative, rows and columns are as usual, also in `surrounding_of`, and the boxes are empty: everything is as with one box for
each row. -/
theorem C103_rows (w h : Int) (hw : w < 0) (hh : h < 0) (row col : Int) (incl : Bool) :
    rowOf row col w h incl = rowOf row col (w * h) 1 incl ∧
    columnOf row col w h incl = columnOf row col (w * h) 1 incl ∧
    surroundingOf row col w h incl = surroundingOf row col (w * h) 1 incl ∧
    boxOf row col w h incl = if incl then .ok [] else .error .ValueError := by
  refine ⟨?_, ?_, surrounding_eq hw hh row col incl, ?_⟩
  · unfold rowOf; rw [Int.mul_one]
  · unfold columnOf; rw [Int.mul_one]
  · unfold boxOf
    rw [if_neg (by omega), if_neg (by omega)]
    simp only [rng_nonpos (show h ≤ 0 by omega), List.flatMap_nil]
    cases incl <;> simp [IntCoordinates.pyRemove]

/-- **C103** The numbered units: the same. -/
theorem C103_units (w h : Int) (hw : w < 0) (hh : h < 0) (i : Int) (hi : 0 ≤ i ∧ i < w * h) :
    theRow i w h = theRow i (w * h) 1 ∧ theColumn i w h = theColumn i (w * h) 1 ∧ theBox i w h = .ok [] ∧ thePart i w h = .ok [] := by
  unfold theRow theColumn theBox thePart
  simp [hi, rng_nonpos (show h ≤ 0 by omega), rng_nonpos (show w ≤ 0 by omega)]

/-- **C103** So the candidates are the numbers that are not yet in the row and the column, and the conflicts are those of rows and columns. -/
theorem C103_calc (s : ISudoku) (hw : s.w < 0) (hh : s.h < 0) (row col : Nat) (hr : (row : Int) < s.w * s.h) (hc : (col : Int) < s.w * s.h)
    (h0 : s.num (row, col) = 0) :
    ∃ cs, s.calcCandidates row col = .ok cs ∧ ∀ v, v ∈ cs ↔ (1 ≤ v ∧ v ≤ s.w * s.h) ∧
      (∀ j : Nat, (j : Int) < s.w * s.h → s.num (row, j) ≠ v) ∧ ∀ i : Nat, (i : Int) < s.w * s.h → s.num (i, col) ≠ v := by
  have hp := Int.mul_pos_of_neg_of_neg hw hh
  have e : s.w * s.h = (s.n : Int) := by rw [n_eq]; omega
  have h1 : s.calcCandidates row col = IntCoordinates.calcCandidates (latin s) row col := by
    unfold ISudoku.calcCandidates IntCoordinates.calcCandidates
    rw [number_latin, surrounding_latin hw hh, numbers_latin]
    cases IntCoordinates.number (latin s) (row, col) with
    | error e => rfl
    | ok v =>
      simp only
      split
      · rfl
      · cases IntCoordinates.surroundingOf row col (latin s).bw (latin s).bh false with
        | error e => rfl
        | ok l => exact discard_latin s l _
  have hg : IntCoordinates.GoodCell (latin s).n ((row : Int), (col : Int)) := by
    unfold IntCoordinates.GoodCell; rw [latin_n]; simp only; omega
  have hf : IntCoordinates.fieldOf (latin s).n ((row : Int), (col : Int)) = (row, col) := by
    unfold IntCoordinates.fieldOf; simp only [IntCoordinates.wrap_nat]
  refine ⟨_, h1.trans ((C98_calc (latin s) row col).1 hg), fun v => ?_⟩
  rw [hf]
  have hin : InGrid (latin s).bw (latin s).bh (row, col) := by
    unfold InGrid latin; simp only; omega
  rw [C13_empty _ _ hin h0, e]
  unfold IsNumber InGrid Peer SameRow SameCol SameBox latin Sudoku.get
  simp only [Nat.mul_one, Nat.div_one]
  constructor
  · rintro ⟨h1, h2⟩
    refine ⟨h1, fun j hj ej => ?_, fun i hi ei => ?_⟩
    · by_cases hjc : j = col
      · subst hjc; omega
      · exact h2 (row, j) ⟨by simp only; omega, by simp only; omega⟩ ⟨by simp [Ne.symm hjc], by simp⟩ ej
    · by_cases hir : i = row
      · subst hir; omega
      · exact h2 (i, col) ⟨by simp only; omega, by simp only; omega⟩ ⟨by simp [Ne.symm hir], by simp⟩ ei
  · rintro ⟨h1, h2, h3⟩
    refine ⟨h1, ?_⟩
    rintro ⟨i, j⟩ ⟨hi, hj⟩ ⟨-, hij⟩
    simp only at hi hj hij ⊢
    rcases hij with rfl | rfl | ⟨rfl, -⟩
    · exact h2 j (by omega)
    · exact h3 i (by omega)
    · exact h2 j (by omega)

/-- **C103** `find_conflicts` reports the conflicts in rows and columns. -/
theorem C103_conflicts (s : ISudoku) (hw : s.w < 0) (hh : s.h < 0) :
    ∃ l : List (Cell × Cell × Int), s.findConflicts [] = (l.map fun t => (ints t.1, ints t.2.1, t.2.2), none) ∧
      ∀ a b v, (a, b, v) ∈ l ↔ ((a.1 : Int) < s.w * s.h ∧ (a.2 : Int) < s.w * s.h ∧ (b.1 : Int) < s.w * s.h ∧ (b.2 : Int) < s.w * s.h) ∧
        a ≠ b ∧ (a.1 = b.1 ∨ a.2 = b.2) ∧ s.num a = v ∧ s.num b = v ∧ v ≠ 0 := by
  have hp := Int.mul_pos_of_neg_of_neg hw hh
  have e : s.w * s.h = (s.n : Int) := by rw [n_eq]; omega
  refine ⟨Solve.findConflicts (latin s), ?_, fun a b v => ?_⟩
  · rw [← C98_conflicts_all]
    unfold ISudoku.findConflicts IntCoordinates.findConflicts
    rw [loop_latin hw hh, cells_latin]
    rfl
  · rw [(C15_all (latin s)).2.1, e]
    unfold Conflict InGrid Peer SameRow SameCol SameBox latin Sudoku.get
    simp only [Nat.mul_one, Nat.div_one]
    rw [Int.ofNat_lt, Int.ofNat_lt, Int.ofNat_lt, Int.ofNat_lt]
    tauto

/-- **C103** `is_solved` is true exactly for full grids without repetitions in rows and columns. -/
theorem C103_solved (s : ISudoku) (hw : s.w < 0) (hh : s.h < 0) :
    ∃ r, s.isSolved = .ok r ∧ (r = true ↔
      (∀ a : Cell, (a.1 : Int) < s.w * s.h → (a.2 : Int) < s.w * s.h → s.num a ≠ 0) ∧
      (∀ i j j' : Nat, (i : Int) < s.w * s.h → (j : Int) < s.w * s.h → (j' : Int) < s.w * s.h → s.num (i, j) = s.num (i, j') → j = j') ∧
      ∀ i i' j : Nat, (i : Int) < s.w * s.h → (i' : Int) < s.w * s.h → (j : Int) < s.w * s.h → s.num (i, j) = s.num (i', j) → i = i') := by
  have hp := Int.mul_pos_of_neg_of_neg hw hh
  have e : s.w * s.h = (s.n : Int) := by rw [n_eq]; omega
  have hf : s.findConflicts [] = ((Solve.findConflicts (latin s)).map fun t => (ints t.1, ints t.2.1, t.2.2), none) := by
    rw [← C98_conflicts_all]
    unfold ISudoku.findConflicts IntCoordinates.findConflicts
    rw [loop_latin hw hh, cells_latin]
    rfl
  have he : s.empty = (latin s).empty.map ints := by
    unfold ISudoku.empty Sudoku.empty
    rw [cells_latin, List.filter_map]
    congr 1
    refine List.filter_congr fun a ha => ?_
    rw [Sudoku.mem_cells] at ha
    have hg : IntCoordinates.GoodCell (latin s).n (ints a) := by
      unfold InGrid at ha
      unfold IntCoordinates.GoodCell ints Sudoku.n
      simp only; omega
    simp only [Function.comp_apply]
    rw [number_latin, IntCoordinates.number_good hg]
    have hfa : IntCoordinates.fieldOf (latin s).n (ints a) = a := by
      unfold IntCoordinates.fieldOf ints; simp only [IntCoordinates.wrap_nat]
    rw [hfa, Bool.eq_iff_iff]
    simp
  refine ⟨Solve.isSolved (latin s), ?_, ?_⟩
  · unfold ISudoku.isSolved Solve.isSolved
    rw [he, hf]
    simp only [List.isEmpty_map]
    cases (latin s).empty.isEmpty <;> simp
  · rw [C16_is_solved, e]
    unfold NoConflict InGrid Peer SameRow SameCol SameBox latin Sudoku.get
    simp only [Nat.mul_one, Nat.div_one]
    constructor
    · rintro ⟨h1, h2⟩
      refine ⟨fun a h3 h4 => h1 a ⟨by omega, by omega⟩, fun i j j' hi hj hj' hv => ?_, fun i i' j hi hi' hj hv => ?_⟩
      · by_contra hne
        exact h2 (i, j) (i, j') ⟨by simp only; omega, by simp only; omega⟩ ⟨by simp only; omega, by simp only; omega⟩ ⟨by simp [hne], by simp⟩
          (h1 _ ⟨by simp only; omega, by simp only; omega⟩) hv
      · by_contra hne
        exact h2 (i, j) (i', j) ⟨by simp only; omega, by simp only; omega⟩ ⟨by simp only; omega, by simp only; omega⟩ ⟨by simp [hne], by simp⟩
          (h1 _ ⟨by simp only; omega, by simp only; omega⟩) hv
    · rintro ⟨h1, h2, h3⟩
      refine ⟨fun a ha => h1 a (by omega) (by omega), ?_⟩
      rintro ⟨i, j⟩ ⟨i', j'⟩ ⟨hi, hj⟩ ⟨hi', hj'⟩ ⟨hne, hij⟩ - hv
      simp only at hi hj hi' hj' hij
      rcases hij with rfl | rfl | ⟨rfl, -⟩
      · exact hne (by rw [h2 i j j' (by omega) (by omega) (by omega) hv])
      · exact hne (by rw [h3 i i' j (by omega) (by omega) (by omega) hv])
      · exact hne (by rw [h2 i j j' (by omega) (by omega) (by omega) hv])

/-- **C103** But `dlx` (and so `is_unique`) raises `KeyError` before it looks at the numbers; only boxes of size -1 by -1 are an exception. -/
theorem C103_dlx (w h : Int) :
    (¬ (w < 0 ∧ h < 0 ∧ ¬ (w = -1 ∧ h = -1)) → ∃ X, dlxStart w h = .ok X) ∧
    (w < 0 ∧ h < 0 ∧ ¬ (w = -1 ∧ h = -1) → dlxStart w h = .error .KeyError) := by
  constructor
  · intro hn
    have hok : ∀ p ∈ matrix h w, ∀ k ∈ p.2, k ∈ columns (h * w) := by
      intro p hp k hk
      unfold matrix at hp
      obtain ⟨⟨r, c, v⟩, hi, rfl⟩ := List.mem_map.1 hp
      rw [mem_product, mem_product, mem_rng, mem_rng, mem_rng1] at hi
      simp only at hi
      obtain ⟨hr, hc, hv⟩ := hi
      have hb : 0 ≤ Int.fdiv r h * h + Int.fdiv c w ∧ Int.fdiv r h * h + Int.fdiv c w < h * w := by
        by_cases hpos : 0 < w ∧ 0 < h
        · obtain ⟨W, rfl⟩ : ∃ W : Nat, w = W := ⟨w.toNat, by omega⟩
          obtain ⟨H, rfl⟩ : ∃ H : Nat, h = H := ⟨h.toNat, by omega⟩
          obtain ⟨r', rfl⟩ : ∃ k : Nat, r = k := ⟨r.toNat, by omega⟩
          obtain ⟨c', rfl⟩ : ∃ k : Nat, c = k := ⟨c.toNat, by omega⟩
          rw [fdiv_nat, fdiv_nat]
          have h1 : r' / H < W := by rw [Nat.div_lt_iff_lt_mul (by omega), Nat.mul_comm]; exact_mod_cast hr.2
          have h2 : c' / W < H := by rw [Nat.div_lt_iff_lt_mul (by omega)]; exact_mod_cast hc.2
          have h3 : r' / H * H + c' / W < H * W := by
            have := Nat.mul_le_mul_right H (show r' / H + 1 ≤ W by omega)
            rw [Nat.add_mul, Nat.one_mul, Nat.mul_comm W] at this
            omega
          exact ⟨by positivity, by exact_mod_cast h3⟩
        · by_cases h1 : w = -1 ∧ h = -1
          · obtain ⟨rfl, rfl⟩ := h1
            obtain rfl : r = 0 := by omega
            obtain rfl : c = 0 := by omega
            decide
          · exfalso
            have : h * w ≤ 0 := by
              rcases (show (0 ≤ w ∧ h ≤ 0) ∨ (w ≤ 0 ∧ 0 ≤ h) by omega) with ⟨h2, h3⟩ | ⟨h2, h3⟩
              · exact Int.mul_nonpos_of_nonpos_of_nonneg h3 h2
              · exact Int.mul_nonpos_of_nonneg_of_nonpos h3 h2
            omega
      unfold colsOf at hk
      unfold columns
      simp only [List.mem_append, List.mem_map, mem_product, mem_rng, mem_rng1]
      simp only [List.mem_cons, List.not_mem_nil, or_false] at hk
      rcases hk with rfl | rfl | rfl | rfl
      · exact Or.inl (Or.inl (Or.inl ⟨(r, c), ⟨hr, hc⟩, rfl⟩))
      · exact Or.inl (Or.inl (Or.inr ⟨(r, v), ⟨hr, hv⟩, rfl⟩))
      · exact Or.inl (Or.inr ⟨(c, v), ⟨hc, hv⟩, rfl⟩)
      · exact Or.inr ⟨(_, v), ⟨hb, hv⟩, rfl⟩
    obtain ⟨X, e, -⟩ := Dlx.Cover.exactCover_fill _ _ hok
    exact ⟨X, e⟩
  · rintro ⟨hw, hh, h1⟩
    have hN : 2 ≤ h * w := by
      have e : h * w = (-h) * (-w) := by rw [Int.neg_mul_neg]
      rw [e]
      rcases (show 2 ≤ -h ∨ 2 ≤ -w by omega) with h2 | h2
      · have := Int.mul_le_mul h2 (show 1 ≤ -w by omega) (by omega) (by omega)
        omega
      · have := Int.mul_le_mul (show 1 ≤ -h by omega) h2 (by omega) (by omega)
        omega
    refine Dlx.Cover.exactCover_err _ _ ⟨((0, 1, 1), colsOf h w (0, 1, 1)), ?_, .bn (-1) 1, ?_, ?_⟩
    · unfold matrix
      refine List.mem_map.2 ⟨(0, 1, 1), ?_, rfl⟩
      rw [mem_product, mem_product, mem_rng, mem_rng, mem_rng1]
      refine ⟨⟨?_, ?_⟩, ⟨?_, ?_⟩, ?_, ?_⟩ <;> simp only <;> omega
    · have h2 : Int.fdiv 1 w = -1 := by
        obtain ⟨k, hk⟩ : ∃ k : Nat, w = Int.negSucc k := ⟨(-w - 1).toNat, by omega⟩
        rw [hk]
        show Int.negSucc (0 / (k + 1)) = -1
        rw [Nat.zero_div]
        rfl
      unfold colsOf
      simp [h2]
    · unfold columns
      simp only [List.mem_append, List.mem_map, mem_product, mem_rng]
      simp

/-- **C103** `create_solution` (and so `generate` and `generate_from_template`) raise `IndexError` unless both sizes are positive. -/
theorem C103_create (pick : List Int → Int) (w h : Int) (hn : w ≤ 0 ∨ h ≤ 0) : createStart pick w h = .error .IndexError := by
  unfold createStart
  by_cases hh : h ≤ 0
  · rw [if_pos (rng_nonpos hh)]
  · have hw : w ≤ 0 := by omega
    split
    · rfl
    · rw [if_pos (rng_nonpos hw)]

/-! ## Samples -/

/-- The numbers of a Latin square of order 4 that is no sudoku. -/
def cyclic4 : ISudoku := { w := -2, h := -2, num := fun a => ((a.1 + a.2) % 4 : Nat) + 1 }

-- "solved", although no sudoku of 2 by 2 boxes
example : cyclic4.isSolved = .ok true ∧ ({ cyclic4 with w := 2, h := 2 } : ISudoku).isSolved = .ok false := by decide +kernel
example : ({ cyclic4 with num := fun a => if a = (0, 0) then 0 else cyclic4.num a } : ISudoku).calcCandidates 0 0 = .ok {1} := by decide +kernel
example : cyclic4.len = 16 ∧ cyclic4.cells.length = 16 := by decide +kernel
example : ({ w := -2, h := 3, num := fun _ => 0 } : ISudoku).len = 36 ∧ ({ w := -2, h := 3, num := fun _ => 0 } : ISudoku).cells.length = 0 := by decide +kernel
-- the boxes of the fields have numbers that do not exist
example : boxAt 0 1 (-2) (-2) = .ok (-1) ∧ boxAt 3 0 (-2) (-2) = .ok 4 := by decide +kernel
example : (dlxStart (-1) (-1)).toOption.isSome = true ∧ (dlxStart (-1) (-2)).toOption.isSome = false ∧ (dlxStart (-2) 3).toOption.isSome = true := by
  decide +kernel
example : createStart (fun l => l.headD 0) (-3) (-3) = .error .IndexError ∧ createStart (fun l => l.headD 0) 3 2 = .ok (0, 0) := by decide +kernel

end Props
