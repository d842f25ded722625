import Verif.Proofs.Units

set_option autoImplicit false

/-! # C01-C04: coordinates -/

open Spec Geometry

namespace Props

/-- `l` lists exactly the fields satisfying `P`, each once. -/
def ListsExactly (l : List Cell) (P : Cell → Prop) : Prop := l.Nodup ∧ ∀ b, b ∈ l ↔ P b

/-- **C01** (rows). -/
theorem C01_row_of (w h : Nat) (a : Cell) (ha : InGrid w h a) :
    ListsExactly (Coordinates.rowOf a.1 a.2 w h true) (fun b => InGrid w h b ∧ SameRow a b) ∧
    ListsExactly (Coordinates.rowOf a.1 a.2 w h false) (fun b => InGrid w h b ∧ SameRow a b ∧ b ≠ a) := by
  have e := fun incl => Coordinates.rowOf_eq (Sudoku.new w h) a incl
  simp only [Sudoku.new_bw, Sudoku.new_bh] at e
  rw [← e, ← e]
  refine ⟨⟨Sudoku.nodup_rowOf _, fun b => ?_⟩, ⟨Sudoku.nodup_rowOf _, fun b => ?_⟩⟩
  · rw [Sudoku.mem_rowOf]; unfold SameRow InGrid
    simp only [Sudoku.new_bw, Sudoku.new_bh, true_or, and_true]
    constructor
    · rintro ⟨h1, h2⟩; exact ⟨⟨h1 ▸ ha.1, h2⟩, h1.symm⟩
    · rintro ⟨⟨_, h2⟩, h3⟩; exact ⟨h3.symm, h2⟩
  · rw [Sudoku.mem_rowOf]; unfold SameRow InGrid
    simp only [Sudoku.new_bw, Sudoku.new_bh, Bool.false_eq_true, false_or]
    constructor
    · rintro ⟨h1, h2, h3⟩; exact ⟨⟨h1 ▸ ha.1, h2⟩, h1.symm, fun h => h3 (h ▸ rfl)⟩
    · rintro ⟨⟨_, h2⟩, h3, h4⟩; exact ⟨h3.symm, h2, fun h => h4 (Prod.ext h3.symm h)⟩

/-- **C01** (columns). -/
theorem C01_column_of (w h : Nat) (a : Cell) (ha : InGrid w h a) :
    ListsExactly (Coordinates.columnOf a.1 a.2 w h true) (fun b => InGrid w h b ∧ SameCol a b) ∧
    ListsExactly (Coordinates.columnOf a.1 a.2 w h false) (fun b => InGrid w h b ∧ SameCol a b ∧ b ≠ a) := by
  have e := fun incl => Coordinates.columnOf_eq (Sudoku.new w h) a incl
  simp only [Sudoku.new_bw, Sudoku.new_bh] at e
  rw [← e, ← e]
  refine ⟨⟨Sudoku.nodup_columnOf _, fun b => ?_⟩, ⟨Sudoku.nodup_columnOf _, fun b => ?_⟩⟩
  · rw [Sudoku.mem_columnOf]; unfold SameCol InGrid
    simp only [Sudoku.new_bw, Sudoku.new_bh, true_or, and_true]
    constructor
    · rintro ⟨h1, h2⟩; exact ⟨⟨h2, h1 ▸ ha.2⟩, h1.symm⟩
    · rintro ⟨⟨h2, _⟩, h3⟩; exact ⟨h3.symm, h2⟩
  · rw [Sudoku.mem_columnOf]; unfold SameCol InGrid
    simp only [Sudoku.new_bw, Sudoku.new_bh, Bool.false_eq_true, false_or]
    constructor
    · rintro ⟨h1, h2, h3⟩; exact ⟨⟨h2, h1 ▸ ha.2⟩, h1.symm, fun h => h3 (h ▸ rfl)⟩
    · rintro ⟨⟨h2, _⟩, h3, h4⟩; exact ⟨h3.symm, h2, fun h => h4 (Prod.ext h h3.symm)⟩

/-- **C01** (boxes). -/
theorem C01_box_of (w h : Nat) (a : Cell) (ha : InGrid w h a) :
    ListsExactly (Coordinates.boxOf a.1 a.2 w h true) (fun b => InGrid w h b ∧ SameBox w h a b) ∧
    ListsExactly (Coordinates.boxOf a.1 a.2 w h false) (fun b => InGrid w h b ∧ SameBox w h a b ∧ b ≠ a) := by
  have e := fun incl => Coordinates.boxOf_eq (Sudoku.new w h) a incl
  simp only [Sudoku.new_bw, Sudoku.new_bh] at e
  rw [← e, ← e]
  refine ⟨⟨Sudoku.nodup_boxOf _, fun b => ?_⟩, ⟨Sudoku.nodup_boxOf _, fun b => ?_⟩⟩
  · rw [Sudoku.mem_boxOf _ ha]
    exact ⟨fun h => ⟨sameBox_inGrid ha h, h⟩, fun h => h.2⟩
  · rw [Sudoku.mem_boxOf_false _ ha]
    exact ⟨fun h => ⟨sameBox_inGrid ha h.2, h.2, h.1⟩, fun h => ⟨h.2.2, h.2.1⟩⟩

/-- **C01** The methods of `Sudoku` return the same lists as the functions of `coordinates.py`. -/
theorem C01_methods_agree (s : Sudoku) (a : Cell) (incl : Bool) :
    s.rowOf a incl = Coordinates.rowOf a.1 a.2 s.bw s.bh incl ∧
    s.columnOf a incl = Coordinates.columnOf a.1 a.2 s.bw s.bh incl ∧
    s.boxOf a incl = Coordinates.boxOf a.1 a.2 s.bw s.bh incl ∧
    s.surroundingOf a incl = Coordinates.surroundingOf a.1 a.2 s.bw s.bh incl ∧
    s.boxAt a.1 a.2 = Coordinates.boxAt a.1 a.2 s.bw s.bh :=
  ⟨rfl, rfl, rfl, rfl, rfl⟩

/-- **C01** Each unit has `w*h` fields. -/
theorem C01_lengths (w h : Nat) (a : Cell) :
    (Coordinates.rowOf a.1 a.2 w h true).length = w * h ∧
    (Coordinates.columnOf a.1 a.2 w h true).length = w * h ∧
    (Coordinates.boxOf a.1 a.2 w h true).length = w * h := by
  refine ⟨by simp [Coordinates.rowOf], by simp [Coordinates.columnOf], ?_⟩
  simp only [Coordinates.boxOf, Bool.not_true, Bool.false_eq_true, if_false]
  exact length_boxList _ _ _ _

/-- **C02** `surrounding_of` lists the peers; with `include=True` also the field itself. -/
theorem C02_surrounding_of (w h : Nat) (a : Cell) (ha : InGrid w h a) :
    ListsExactly (Coordinates.surroundingOf a.1 a.2 w h false) (fun b => InGrid w h b ∧ Peer w h a b) ∧
    ListsExactly (Coordinates.surroundingOf a.1 a.2 w h true) (fun b => InGrid w h b ∧ (Peer w h a b ∨ b = a)) := by
  have e := fun incl => Coordinates.surroundingOf_eq (Sudoku.new w h) a incl
  simp only [Sudoku.new_bw, Sudoku.new_bh] at e
  rw [← e, ← e]
  have hnd := Sudoku.nodup_surroundingOf_false (Sudoku.new w h) (a := a) ha
  have hmem := fun b => Sudoku.mem_surroundingOf_false (Sudoku.new w h) (a := a) (b := b) ha
  have hp := Sudoku.surroundingOf_true_perm (Sudoku.new w h) (a := a) ha
  refine ⟨⟨hnd, hmem⟩, ⟨?_, fun b => ?_⟩⟩
  · rw [hp.nodup_iff, List.nodup_cons]
    exact ⟨fun h => ((hmem a).1 h).2.1 rfl, hnd⟩
  · rw [hp.mem_iff, List.mem_cons, hmem]
    constructor
    · rintro (rfl | h)
      · exact ⟨ha, Or.inr rfl⟩
      · exact ⟨h.1, Or.inl h.2⟩
    · rintro ⟨h1, h2 | rfl⟩
      · exact Or.inr ⟨h1, h2⟩
      · exact Or.inl rfl

/-- **C02** "is listed in the surroundings of" is symmetric. -/
theorem C02_symmetric (w h : Nat) (a b : Cell) (ha : InGrid w h a) (hb : InGrid w h b) (incl : Bool) :
    b ∈ Coordinates.surroundingOf a.1 a.2 w h incl ↔ a ∈ Coordinates.surroundingOf b.1 b.2 w h incl := by
  cases incl
  · rw [(C02_surrounding_of w h a ha).1.2, (C02_surrounding_of w h b hb).1.2]
    simp only [ha, hb, true_and]; exact peer_symm
  · rw [(C02_surrounding_of w h a ha).2.2, (C02_surrounding_of w h b hb).2.2]
    simp only [ha, hb, true_and]; rw [peer_symm, eq_comm]

/-- **C03** `the_row`. -/
theorem C03_the_row (w h : Nat) (k : Int) :
    (∀ l, Coordinates.theRow k w h = .ok l → ListsExactly l (fun b => InGrid w h b ∧ (b.1 : Int) = k)) ∧
    (0 ≤ k ∧ k < (w * h : Nat) → ∃ l, Coordinates.theRow k w h = .ok l) ∧
    (¬ (0 ≤ k ∧ k < (w * h : Nat)) → Coordinates.theRow k w h = .error .ValueError) := by
  unfold Coordinates.theRow
  refine ⟨fun l hl => ?_, fun hk => by
    rw [if_neg (not_not.2 hk)]; exact ⟨_, rfl⟩, fun hk => by rw [if_pos hk]⟩
  split at hl
  · cases hl
  · rename_i hk
    rw [Decidable.not_not] at hk
    simp only [Except.ok.injEq] at hl; subst hl
    refine ⟨List.nodup_range.map (fun a b h => by simpa using h), ?_⟩
    rintro ⟨b1, b2⟩
    simp only [List.mem_map, List.mem_range, Prod.mk.injEq, InGrid]
    constructor
    · rintro ⟨c, hc, rfl, rfl⟩; exact ⟨⟨by omega, hc⟩, by omega⟩
    · rintro ⟨⟨h1, h2⟩, h3⟩; exact ⟨b2, h2, by omega, rfl⟩

/-- **C03** `the_column`. -/
theorem C03_the_column (w h : Nat) (k : Int) :
    (∀ l, Coordinates.theColumn k w h = .ok l → ListsExactly l (fun b => InGrid w h b ∧ (b.2 : Int) = k)) ∧
    (0 ≤ k ∧ k < (w * h : Nat) → ∃ l, Coordinates.theColumn k w h = .ok l) ∧
    (¬ (0 ≤ k ∧ k < (w * h : Nat)) → Coordinates.theColumn k w h = .error .ValueError) := by
  unfold Coordinates.theColumn
  refine ⟨fun l hl => ?_, fun hk => by
    rw [if_neg (not_not.2 hk)]; exact ⟨_, rfl⟩, fun hk => by rw [if_pos hk]⟩
  split at hl
  · cases hl
  · rename_i hk
    rw [Decidable.not_not] at hk
    simp only [Except.ok.injEq] at hl; subst hl
    refine ⟨List.nodup_range.map (fun a b h => by simpa using h), ?_⟩
    rintro ⟨b1, b2⟩
    simp only [List.mem_map, List.mem_range, Prod.mk.injEq, InGrid]
    constructor
    · rintro ⟨c, hc, rfl, rfl⟩; exact ⟨⟨hc, by omega⟩, by omega⟩
    · rintro ⟨⟨h1, h2⟩, h3⟩; exact ⟨b1, h1, rfl, by omega⟩

/-- **C03** `the_box`: boxes are numbered in reading order, `h` boxes side by side. -/
theorem C03_the_box (w h : Nat) (k : Int) :
    (∀ l, Coordinates.theBox k w h = .ok l →
      ListsExactly l (fun b => InGrid w h b ∧ ((b.1 / h * h + b.2 / w : Nat) : Int) = k)) ∧
    (0 ≤ k ∧ k < (w * h : Nat) → ∃ l, Coordinates.theBox k w h = .ok l) ∧
    (¬ (0 ≤ k ∧ k < (w * h : Nat)) → Coordinates.theBox k w h = .error .ValueError) := by
  refine ⟨fun l hl => ?_, fun hk => by
    unfold Coordinates.theBox; rw [if_neg (not_not.2 hk)]; exact ⟨_, rfl⟩,
    fun hk => by unfold Coordinates.theBox; rw [if_pos hk]⟩
  have hk : 0 ≤ k ∧ k < (w * h : Nat) := by
    by_contra hk; unfold Coordinates.theBox at hl; rw [if_pos hk] at hl; cases hl
  obtain ⟨b, rfl⟩ := Int.eq_ofNat_of_zero_le hk.1
  have hb : b < w * h := by omega
  refine ⟨?_, fun a => ?_⟩
  · rw [Coordinates.theBox_eq hb] at hl
    simp only [Except.ok.injEq] at hl; subst hl
    exact nodup_boxList _ _ _ _
  · rw [Coordinates.mem_theBox hb l hl, Coordinates.boxAt_eq_div]
    simp only [Int.ofNat_inj]

/-- **C03** `the_part`: the places within a box are numbered in reading order, `w` places side by side. -/
theorem C03_the_part (w h : Nat) (k : Int) :
    (∀ l, Coordinates.thePart k w h = .ok l →
      ListsExactly l (fun b => InGrid w h b ∧ ((b.1 % h * w + b.2 % w : Nat) : Int) = k)) ∧
    (0 ≤ k ∧ k < (w * h : Nat) → ∃ l, Coordinates.thePart k w h = .ok l) ∧
    (¬ (0 ≤ k ∧ k < (w * h : Nat)) → Coordinates.thePart k w h = .error .ValueError) := by
  refine ⟨fun l hl => ?_, fun hk => by
    unfold Coordinates.thePart; rw [if_neg (not_not.2 hk)]; exact ⟨_, rfl⟩,
    fun hk => by unfold Coordinates.thePart; rw [if_pos hk]⟩
  have hk : 0 ≤ k ∧ k < (w * h : Nat) := by
    by_contra hk; unfold Coordinates.thePart at hl; rw [if_pos hk] at hl; cases hl
  obtain ⟨b, rfl⟩ := Int.eq_ofNat_of_zero_le hk.1
  have hb : b < w * h := by omega
  refine ⟨Coordinates.nodup_thePart l hl, fun a => ?_⟩
  rw [Coordinates.mem_thePart hb l hl]
  simp only [Int.ofNat_inj]
  unfold Coordinates.partAt
  rw [Nat.add_comm]

/-- **C04** `box_at` numbers the boxes `0 .. w*h-1`, two fields get the same number iff they share a box, and
the fields of `the_box(k)` are those with `box_at = k`. -/
theorem C04_box_at (w h : Nat) (a b : Cell) (ha : InGrid w h a) (hb : InGrid w h b) :
    Coordinates.boxAt a.1 a.2 w h < w * h ∧
    (Coordinates.boxAt a.1 a.2 w h = Coordinates.boxAt b.1 b.2 w h ↔ SameBox w h a b) ∧
    (∃ l, Coordinates.theBox (Coordinates.boxAt a.1 a.2 w h) w h = .ok l ∧
      (b ∈ l ↔ Coordinates.boxAt b.1 b.2 w h = Coordinates.boxAt a.1 a.2 w h)) := by
  refine ⟨Coordinates.boxAt_lt ha, Coordinates.boxAt_eq_iff ha hb, ?_⟩
  have hlt := Coordinates.boxAt_lt (w := w) (h := h) (row := a.1) (col := a.2) ha
  refine ⟨_, Coordinates.theBox_eq hlt, ?_⟩
  rw [Coordinates.mem_theBox hlt _ (Coordinates.theBox_eq hlt)]
  simp [hb]

/-- **C04** Box number and part number together name exactly one field. -/
theorem C04_box_part_bijection (w h b p : Nat) (hb : b < w * h) (hp : p < w * h) :
    ∃ lb lp, Coordinates.theBox b w h = .ok lb ∧ Coordinates.thePart p w h = .ok lp ∧
      ∃ a, InGrid w h a ∧ ∀ c, (c ∈ lb ∧ c ∈ lp) ↔ c = a := by
  obtain ⟨lb, hlb⟩ := (C03_the_box w h b).2.1 ⟨by omega, by exact_mod_cast hb⟩
  obtain ⟨lp, hlp⟩ := (C03_the_part w h p).2.1 ⟨by omega, by exact_mod_cast hp⟩
  refine ⟨lb, lp, hlb, hlp, ?_⟩
  obtain ⟨hw, hh⟩ := inGrid_pos (Coordinates.corner_inGrid hb)
  have hmb := Coordinates.mem_theBox hb lb hlb
  have hmp := Coordinates.mem_thePart hp lp hlp
  have hc := Coordinates.corner_inGrid hb
  have hpd : p / w < h := (Nat.div_lt_iff_lt_mul hw).2 (by rw [Nat.mul_comm]; exact hp)
  have hpm : p % w < w := Nat.mod_lt _ hw
  let a : Cell := (b / h * h + p / w, b % h * w + p % w)
  have sb : SameBox w h (b / h * h, b % h * w) a := by
    simp only [SameBox, a]
    rw [Nat.mul_comm (b / h), Nat.mul_comm (b % h), Nat.mul_div_cancel_left _ hh, Nat.mul_div_cancel_left _ hw,
      Nat.mul_add_div hh, Nat.mul_add_div hw, Nat.div_eq_of_lt hpd, Nat.div_eq_of_lt hpm]
    exact ⟨rfl, rfl⟩
  have hag : InGrid w h a := sameBox_inGrid hc sb
  have hpa : Coordinates.partAt a.1 a.2 w h = p := by
    simp only [Coordinates.partAt, a]
    rw [Nat.mul_comm (b / h), Nat.mul_comm (b % h), Nat.mul_add_mod, Nat.mul_add_mod, Nat.mod_eq_of_lt hpd,
      Nat.mod_mod, Nat.mul_comm, Nat.add_comm]
    exact Nat.div_add_mod p w
  have hba : Coordinates.boxAt a.1 a.2 w h = b := by
    rw [← (Coordinates.boxAt_eq_iff hc hag).2 sb, Coordinates.boxAt_corner hb]
  refine ⟨a, hag, fun c => ?_⟩
  rw [hmb, hmp]
  constructor
  · rintro ⟨⟨hcg, h1⟩, -, h2⟩
    obtain ⟨e1, e2⟩ := (Coordinates.boxAt_eq_iff hcg hag).1 (h1.trans hba.symm)
    obtain ⟨e3, e4⟩ := (Coordinates.partAt_eq_iff hw).1 (h2.trans hpa.symm)
    have f1 := Nat.div_add_mod c.1 h
    have f2 := Nat.div_add_mod c.2 w
    rw [e1, e3, Nat.div_add_mod] at f1
    rw [e2, e4, Nat.div_add_mod] at f2
    exact Prod.ext f1.symm f2.symm
  · rintro rfl; exact ⟨⟨hag, hba⟩, hag, hpa⟩

/-! Non-vacuity: a 2x3 box sudoku (6 rows). -/
example : InGrid 2 3 (4, 1) := by decide
example : Peer 2 3 (4, 1) (3, 0) ∧ ¬ Peer 2 3 (4, 1) (2, 0) := by decide
example : Coordinates.surroundingOf 4 1 2 3 false =
    [(4,0),(4,2),(4,3),(4,4),(4,5),(0,1),(1,1),(2,1),(3,1),(5,1),(3,0),(5,0)] := by decide
example : (Coordinates.thePart 1 3 3).toOption =
    some [(0,1),(0,4),(0,7),(3,1),(3,4),(3,7),(6,1),(6,4),(6,7)] := by decide
example : (Coordinates.theBox 6 3 2).toOption = none := by decide

end Props
