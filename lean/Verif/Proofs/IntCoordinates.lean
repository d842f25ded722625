import Verif.Model.IntCoordinates
import Verif.Proofs.Geometry
import Verif.Proofs.Solve
import Verif.Proofs.Store

set_option autoImplicit false

/-! # Helper lemmas for C98 -/

open Spec

namespace IntCoordinates

/-- A field as a pair of integers. -/
def ints (a : Cell) : ICell := ((a.1 : Int), (a.2 : Int))

theorem cast_injective : Function.Injective ints := by
  rintro ⟨a, b⟩ ⟨c, d⟩ h
  simp only [ints, Prod.mk.injEq, Int.natCast_inj] at h
  exact Prod.ext h.1 h.2

/-- The row or column that an index means in Python. -/
def wrap (n : Nat) (i : Int) : Nat := if i < 0 then (i + n).toNat else i.toNat

/-- The field meant by a pair of integers. -/
def fieldOf (n : Nat) (a : ICell) : Cell := (wrap n a.1, wrap n a.2)

theorem mem_rng {n : Nat} {i : Int} : i ∈ rng n ↔ 0 ≤ i ∧ i < n := by
  unfold rng
  rw [List.mem_map]
  constructor
  · rintro ⟨k, hk, rfl⟩; rw [List.mem_range] at hk; omega
  · rintro ⟨h1, h2⟩
    exact ⟨i.toNat, by rw [List.mem_range]; omega, by omega⟩

theorem nodup_rng (n : Nat) : (rng n).Nodup := by
  unfold rng
  exact List.Nodup.map (fun a b h => Int.ofNat.inj h) List.nodup_range

theorem emod_lt' {h : Nat} (hh : 0 < h) (x : Int) : 0 ≤ x % h ∧ x % h < h :=
  ⟨Int.emod_nonneg _ (by omega), Int.emod_lt_of_pos _ (by omega)⟩

/-- The interval of the integers with the same quotient. -/
theorem sameQuot {h : Nat} (hh : 0 < h) (x y : Int) : y / h = x / h ↔ x - x % h ≤ y ∧ y < x - x % h + h := by
  have e1 := Int.mul_ediv_add_emod x h
  have e2 := Int.mul_ediv_add_emod y h
  have b1 := emod_lt' hh x
  have b2 := emod_lt' hh y
  constructor
  · intro e
    rw [e] at e2
    omega
  · rintro ⟨h1, h2⟩
    have e3 : x - x % h = (h : Int) * (x / h) := by omega
    rw [e3] at h1 h2
    refine Int.ediv_eq_iff_of_pos (by omega) |>.2 ⟨by rw [Int.mul_comm] at h1; exact h1, ?_⟩
    rw [Int.mul_comm]; exact h2

/-- The list of the fields of a box. -/
def boxList (y x : Int) (w h : Nat) : List ICell := (rng h).flatMap fun i => (rng w).map fun j => (y + i, x + j)

theorem boxList_eq (y x : Int) (w h : Nat) :
    boxList y x w h = (Coordinates.product (rng h) (rng w)).map fun p => (y + p.1, x + p.2) := by
  unfold boxList Coordinates.product
  rw [List.map_flatMap]
  simp [Function.comp_def]

theorem mem_boxList {y x : Int} {w h : Nat} {a : ICell} :
    a ∈ boxList y x w h ↔ y ≤ a.1 ∧ a.1 < y + h ∧ x ≤ a.2 ∧ a.2 < x + w := by
  unfold boxList
  simp only [List.mem_flatMap, List.mem_map, mem_rng]
  constructor
  · rintro ⟨i, hi, j, hj, rfl⟩; simp only; omega
  · rintro ⟨h1, h2, h3, h4⟩
    exact ⟨a.1 - y, by omega, a.2 - x, by omega, Prod.ext (by simp only; omega) (by simp only; omega)⟩

theorem nodup_boxList (y x : Int) (w h : Nat) : (boxList y x w h).Nodup := by
  rw [boxList_eq]
  refine List.Nodup.map ?_ (Geometry.nodup_product (nodup_rng h) (nodup_rng w))
  rintro ⟨a, b⟩ ⟨c, d⟩ e
  simp only [Prod.mk.injEq] at e
  exact Prod.ext (by simp only; omega) (by simp only; omega)

theorem boxOf_eq {w h : Nat} (hw : 0 < w) (hh : 0 < h) (row col : Int) (incl : Bool) :
    boxOf row col w h incl = .ok ((boxList (row - row % h) (col - col % w) w h).filter fun a => incl || a != (row, col)) := by
  have hm : (row, col) ∈ boxList (row - row % h) (col - col % w) w h := by
    rw [mem_boxList]
    have := emod_lt' hh row
    have := emod_lt' hw col
    simp only; omega
  unfold boxOf
  rw [if_neg (by omega), if_neg (by omega)]
  show (if !incl then pyRemove (boxList _ _ w h) _ else _) = _
  cases incl
  · simp only [Bool.not_false, if_true, Bool.false_or]
    rw [pyRemove, if_pos hm, (nodup_boxList _ _ _ _).erase_eq_filter]
  · simp [boxList]

/-- The list of the other fields of the box. -/
def quadList (row col : Int) (w h : Nat) : List ICell :=
  (boxList (row - row % h) (col - col % w) w h).filter fun a => a.1 != row && a.2 != col

theorem quad_eq {w h : Nat} (hw : 0 < w) (hh : 0 < h) (row col : Int) :
    boxWithoutRowAndColumnOf row col w h = .ok (quadList row col w h) := by
  unfold boxWithoutRowAndColumnOf quadList
  rw [if_neg (by omega), if_neg (by omega), boxList_eq, List.filter_map]
  rfl

theorem mem_quadList {row col : Int} {w h : Nat} (hw : 0 < w) (hh : 0 < h) {a : ICell} :
    a ∈ quadList row col w h ↔ (a.1 / h = row / h ∧ a.2 / w = col / w) ∧ a.1 ≠ row ∧ a.2 ≠ col := by
  unfold quadList
  rw [List.mem_filter, mem_boxList, sameQuot hh, sameQuot hw]
  simp only [Bool.and_eq_true, bne_iff_ne, ne_eq]
  constructor
  · rintro ⟨⟨a, b, c, d⟩, e⟩; exact ⟨⟨⟨a, b⟩, c, d⟩, e⟩
  · rintro ⟨⟨⟨a, b⟩, c, d⟩, e⟩; exact ⟨⟨a, b, c, d⟩, e⟩

theorem mem_rowOf {row col : Int} {w h : Nat} {incl : Bool} {a : ICell} :
    a ∈ rowOf row col w h incl ↔ a.1 = row ∧ 0 ≤ a.2 ∧ a.2 < (w * h : Nat) ∧ (incl = true ∨ a.2 ≠ col) := by
  unfold rowOf
  simp only [List.mem_map, List.mem_filter, mem_rng, Bool.or_eq_true, bne_iff_ne]
  constructor
  · rintro ⟨j, ⟨⟨h1, h2⟩, h3⟩, rfl⟩; exact ⟨rfl, h1, h2, h3⟩
  · rintro ⟨h0, h1, h2, h3⟩; exact ⟨a.2, ⟨⟨h1, h2⟩, h3⟩, by rw [← h0]⟩

theorem mem_columnOf {row col : Int} {w h : Nat} {incl : Bool} {a : ICell} :
    a ∈ columnOf row col w h incl ↔ a.2 = col ∧ 0 ≤ a.1 ∧ a.1 < (w * h : Nat) ∧ (incl = true ∨ a.1 ≠ row) := by
  unfold columnOf
  simp only [List.mem_map, List.mem_filter, mem_rng, Bool.or_eq_true, bne_iff_ne]
  constructor
  · rintro ⟨j, ⟨⟨h1, h2⟩, h3⟩, rfl⟩; exact ⟨rfl, h1, h2, h3⟩
  · rintro ⟨h0, h1, h2, h3⟩; exact ⟨a.1, ⟨⟨h1, h2⟩, h3⟩, by rw [← h0]⟩

theorem nodup_rowOf (row col : Int) (w h : Nat) (incl : Bool) : (rowOf row col w h incl).Nodup :=
  List.Nodup.map (fun a b e => by simpa using e) ((nodup_rng _).filter _)

theorem nodup_columnOf (row col : Int) (w h : Nat) (incl : Bool) : (columnOf row col w h incl).Nodup :=
  List.Nodup.map (fun a b e => by simpa using e) ((nodup_rng _).filter _)

theorem nodup_quadList (row col : Int) (w h : Nat) : (quadList row col w h).Nodup := (nodup_boxList _ _ _ _).filter _

/-- The list without the field itself. -/
def around (row col : Int) (w h : Nat) (incl : Bool) : List ICell :=
  rowOf row col w h incl ++ columnOf row col w h incl ++ quadList row col w h

theorem surroundingOf_false {w h : Nat} (hw : 0 < w) (hh : 0 < h) (row col : Int) :
    surroundingOf row col w h false = .ok (around row col w h false) := by
  unfold surroundingOf around
  rw [quad_eq hw hh]
  rfl

theorem surroundingOf_true {w h : Nat} (hw : 0 < w) (hh : 0 < h) (row col : Int) :
    surroundingOf row col w h true = pyRemove (around row col w h true) (row, col) := by
  unfold surroundingOf around
  rw [quad_eq hw hh]
  rfl

theorem nodup_around_false (row col : Int) {w h : Nat} (hw : 0 < w) (hh : 0 < h) : (around row col w h false).Nodup := by
  unfold around
  rw [List.nodup_append, List.nodup_append]
  refine ⟨⟨nodup_rowOf _ _ _ _ _, nodup_columnOf _ _ _ _ _, ?_⟩, nodup_quadList _ _ _ _, ?_⟩
  · rintro a ha b hb rfl
    rw [mem_rowOf] at ha
    rw [mem_columnOf] at hb
    have := ha.2.2.2
    have := hb.1
    simp_all
  · rintro a ha b hb rfl
    rw [mem_quadList hw hh] at hb
    rw [List.mem_append, mem_rowOf, mem_columnOf] at ha
    rcases ha with ha | ha
    · exact hb.2.1 ha.1
    · exact hb.2.2 ha.1

/-! ## Indices that Python accepts -/

theorem pyIdx_wrap {n : Nat} {i : Int} (h1 : -(n : Int) ≤ i) (h2 : i < n) : Store.pyIdx n i = some (wrap n i) := by
  unfold Store.pyIdx wrap
  split
  · rw [if_neg (by omega)]
  · rw [if_pos ⟨h1, by omega⟩, if_pos (by omega), Int.add_comm]

theorem wrap_lt {n : Nat} {i : Int} (h1 : -(n : Int) ≤ i) (h2 : i < n) : wrap n i < n := by
  unfold wrap; split <;> omega

theorem wrap_nat {n : Nat} (k : Nat) : wrap n (k : Int) = k := by
  unfold wrap; rw [if_neg (by omega)]; omega

/-- Both indices are accepted. -/
def GoodCell (n : Nat) (a : ICell) : Prop := (-(n : Int) ≤ a.1 ∧ a.1 < n) ∧ -(n : Int) ≤ a.2 ∧ a.2 < n

theorem number_good {s : Sudoku} {a : ICell} (h : GoodCell s.n a) : number s a = .ok (s.get (fieldOf s.n a)) := by
  unfold number
  rw [pyIdx_wrap h.1.1 h.1.2, pyIdx_wrap h.2.1 h.2.2]
  rfl

theorem number_bad {s : Sudoku} {a : ICell} (h : ¬ GoodCell s.n a) : number s a = .error .IndexError := by
  unfold number
  by_cases h1 : -(s.n : Int) ≤ a.1 ∧ a.1 < s.n
  · have : Store.pyIdx s.n a.2 = none := Store.pyIdx_none.2 fun h2 => h ⟨h1, h2⟩
    rw [this]
    split <;> simp_all
  · rw [Store.pyIdx_none.2 h1]

/-- The rows of a box, counted from the end. -/
theorem wrap_quot {n h : Nat} (hd : h ∣ n) (hh : 0 < h) {x y : Int} (h1 : -(n : Int) ≤ x) (h2 : x < n)
    (hy : x - x % h ≤ y ∧ y < x - x % h + h) :
    -(n : Int) ≤ y ∧ y < n ∧ (y : Int) - (x - x % h) = (wrap n y : Int) - (wrap n x - wrap n x % h : Nat) := by
  obtain ⟨k, rfl⟩ := hd
  have e1 := Int.mul_ediv_add_emod x h
  have b1 := emod_lt' hh x
  -- the quotient lies between -k and k-1
  have q1 : -(k : Int) ≤ x / h := by
    rw [Int.le_ediv_iff_mul_le (by omega)]
    rw [Int.neg_mul, Int.mul_comm]
    push_cast at h1; exact h1
  have q2 : x / h < k := by
    rw [Int.ediv_lt_iff_lt_mul (by omega), Int.mul_comm]
    push_cast at h2; exact h2
  have m1 : (h : Int) * (-(k : Int)) ≤ h * (x / h) := Int.mul_le_mul_of_nonneg_left q1 (by omega)
  have m2 : (h : Int) * (x / h) ≤ h * (k - 1) := Int.mul_le_mul_of_nonneg_left (by omega) (by omega)
  have m1' : -(h * k : Int) ≤ h * (x / h) := by rw [Int.mul_neg] at m1; exact m1
  have m2' : (h : Int) * (x / h) ≤ h * k - h := by rw [Int.mul_sub, Int.mul_one] at m2; exact m2
  have base : x - x % h = (h : Int) * (x / h) := by omega
  have hmod : ((wrap (h * k) x % h : Nat) : Int) = x % h := by
    unfold wrap
    split
    · rw [Int.natCast_mod, Int.toNat_of_nonneg (by push_cast at h1 ⊢; omega)]
      push_cast
      rw [Int.add_mul_emod_self_left]
    · rw [Int.natCast_mod, Int.toNat_of_nonneg (by omega)]
  have hle : wrap (h * k) x % h ≤ wrap (h * k) x := Nat.mod_le _ _
  push_cast at h1 h2 ⊢
  refine ⟨by omega, by omega, ?_⟩
  rw [Int.natCast_sub hle, hmod]
  by_cases hx : x < 0
  · have hq : x / h < 0 := Int.ediv_neg_of_neg_of_pos hx (by omega)
    have m3 : (h : Int) * (x / h) ≤ h * (-1) := Int.mul_le_mul_of_nonneg_left (by omega) (by omega)
    have hy0 : y < 0 := by omega
    unfold wrap
    rw [if_pos hx, if_pos hy0, Int.toNat_of_nonneg (by push_cast; omega), Int.toNat_of_nonneg (by push_cast; omega)]
    omega
  · have hq : 0 ≤ x / h := Int.ediv_nonneg (by omega) (by omega)
    have m3 : 0 ≤ (h : Int) * (x / h) := Int.mul_nonneg (by omega) hq
    have hy0 : ¬ y < 0 := by omega
    unfold wrap
    rw [if_neg hx, if_neg hy0, Int.toNat_of_nonneg (by omega), Int.toNat_of_nonneg (by omega)]

end IntCoordinates

namespace IntCoordinates

/-- The other fields of the box: the same as for the field that is meant. -/
theorem map_quadList (s : Sudoku) {a : ICell} (ha : GoodCell s.n a) :
    (quadList a.1 a.2 s.bw s.bh).map (fieldOf s.n) = s.quadWithoutRowAndColumnOf (fieldOf s.n a) ∧
      ∀ b ∈ quadList a.1 a.2 s.bw s.bh, GoodCell s.n b := by
  have hpos : 0 < s.bw ∧ 0 < s.bh := by
    have := ha.1
    have hn : 0 < s.n := by omega
    unfold Sudoku.n at hn
    exact ⟨Nat.pos_of_mul_pos_right hn, Nat.pos_of_mul_pos_left hn⟩
  have hd1 : s.bh ∣ s.n := Dvd.intro_left _ rfl
  have hd2 : s.bw ∣ s.n := Dvd.intro _ rfl
  have key : ∀ p ∈ Coordinates.product (List.range s.bh) (List.range s.bw),
      GoodCell s.n (a.1 - a.1 % s.bh + (p.1 : Int), a.2 - a.2 % s.bw + (p.2 : Int)) ∧
      wrap s.n (a.1 - a.1 % s.bh + (p.1 : Int)) = wrap s.n a.1 - wrap s.n a.1 % s.bh + p.1 ∧
      wrap s.n (a.2 - a.2 % s.bw + (p.2 : Int)) = wrap s.n a.2 - wrap s.n a.2 % s.bw + p.2 ∧
      (a.1 - a.1 % s.bh + (p.1 : Int) = a.1 ↔ wrap s.n a.1 - wrap s.n a.1 % s.bh + p.1 = wrap s.n a.1) ∧
      (a.2 - a.2 % s.bw + (p.2 : Int) = a.2 ↔ wrap s.n a.2 - wrap s.n a.2 % s.bw + p.2 = wrap s.n a.2) := by
    rintro ⟨i, j⟩ hp
    rw [Geometry.mem_product, List.mem_range, List.mem_range] at hp
    have y1 := wrap_quot hd1 hpos.2 ha.1.1 ha.1.2 (y := a.1 - a.1 % s.bh + (i : Int)) (by omega)
    have y2 := wrap_quot hd2 hpos.1 ha.2.1 ha.2.2 (y := a.2 - a.2 % s.bw + (j : Int)) (by omega)
    have b1 := emod_lt' hpos.2 a.1
    have b2 := emod_lt' hpos.1 a.2
    have z1 := wrap_quot hd1 hpos.2 ha.1.1 ha.1.2 (y := a.1) (by omega)
    have z2 := wrap_quot hd2 hpos.1 ha.2.1 ha.2.2 (y := a.2) (by omega)
    refine ⟨⟨⟨y1.1, y1.2.1⟩, y2.1, y2.2.1⟩, ?_, ?_, ?_, ?_⟩
    · have := y1.2.2; simp only at this ⊢; omega
    · have := y2.2.2; simp only at this ⊢; omega
    · have := z1.2.2; simp only at this ⊢; omega
    · have := z2.2.2; simp only at this ⊢; omega
  have hlist : quadList a.1 a.2 s.bw s.bh =
      ((Coordinates.product (List.range s.bh) (List.range s.bw)).filter fun p =>
        wrap s.n a.1 - wrap s.n a.1 % s.bh + p.1 != wrap s.n a.1 && wrap s.n a.2 - wrap s.n a.2 % s.bw + p.2 != wrap s.n a.2).map
        fun p => (a.1 - a.1 % s.bh + (p.1 : Int), a.2 - a.2 % s.bw + (p.2 : Int)) := by
    have e : Coordinates.product (rng s.bh) (rng s.bw) =
        (Coordinates.product (List.range s.bh) (List.range s.bw)).map fun p => ((p.1 : Int), (p.2 : Int)) := by
      unfold Coordinates.product rng
      simp [List.map_flatMap, List.flatMap_map, Function.comp_def]
    unfold quadList
    rw [boxList_eq, e, List.map_map, List.filter_map]
    congr 1
    refine List.filter_congr fun p hp => ?_
    obtain ⟨-, -, -, h1, h2⟩ := key p hp
    simp only [Function.comp_apply]
    rw [Bool.eq_iff_iff]
    simp only [Bool.and_eq_true, bne_iff_ne, ne_eq, h1, h2]
  refine ⟨?_, ?_⟩
  · rw [hlist, List.map_map]
    unfold Sudoku.quadWithoutRowAndColumnOf
    refine List.map_congr_left fun p hp => ?_
    obtain ⟨-, h1, h2, -, -⟩ := key p (List.mem_of_mem_filter hp)
    show (wrap s.n _, wrap s.n _) = _
    rw [h1, h2]
    rfl
  · rw [hlist]
    intro b hb
    obtain ⟨p, hp, rfl⟩ := List.mem_map.1 hb
    exact (key p (List.mem_of_mem_filter hp)).1

/-- All surrounding coordinates are accepted. -/
theorem around_good {s : Sudoku} {a : ICell} (ha : GoodCell s.n a) : ∀ b ∈ around a.1 a.2 s.bw s.bh false, GoodCell s.n b := by
  intro b hb
  unfold around at hb
  rw [List.mem_append, List.mem_append, mem_rowOf, mem_columnOf] at hb
  have hn : s.n = s.bw * s.bh := rfl
  obtain ⟨h1, h2⟩ := ha
  rcases hb with (hb | hb) | hb
  · obtain ⟨e, h3, h4, -⟩ := hb
    rw [← hn] at h4
    exact ⟨by rw [e]; exact h1, by omega, h4⟩
  · obtain ⟨e, h3, h4, -⟩ := hb
    rw [← hn] at h4
    exact ⟨⟨by omega, h4⟩, by rw [e]; exact h2⟩
  · exact (map_quadList s ⟨h1, h2⟩).2 b hb

theorem map_rowOf (s : Sudoku) (a : ICell) : (rowOf a.1 a.2 s.bw s.bh false).map (fieldOf s.n) =
    ((List.range s.n).filter fun (j : Nat) => (j : Int) != a.2).map fun j => (wrap s.n a.1, j) := by
  unfold rowOf rng
  rw [List.filter_map, List.map_map, List.map_map]
  refine List.map_congr_left fun j _ => ?_
  simp [fieldOf, wrap_nat]

theorem map_columnOf (s : Sudoku) (a : ICell) : (columnOf a.1 a.2 s.bw s.bh false).map (fieldOf s.n) =
    ((List.range s.n).filter fun (i : Nat) => (i : Int) != a.1).map fun i => (i, wrap s.n a.2) := by
  unfold columnOf rng
  rw [List.filter_map, List.map_map, List.map_map]
  refine List.map_congr_left fun j _ => ?_
  simp [fieldOf, wrap_nat]

/-- The surrounding fields, but for the field itself, are those of the field that is meant, in the same order. -/
theorem filter_around (s : Sudoku) {a : ICell} (ha : GoodCell s.n a) :
    ((around a.1 a.2 s.bw s.bh false).map (fieldOf s.n)).filter (· != fieldOf s.n a) = s.surroundingOf (fieldOf s.n a) false := by
  unfold around
  rw [List.map_append, List.map_append, map_rowOf, map_columnOf, (map_quadList s ha).1, List.filter_append, List.filter_append]
  unfold Sudoku.surroundingOf
  rw [if_neg (by simp)]
  congr 1
  · congr 1
    · unfold Sudoku.rowOf
      rw [List.filter_map, List.filter_filter]
      congr 1
      refine List.filter_congr fun j _ => ?_
      rw [Bool.eq_iff_iff]
      simp only [Function.comp_apply, Bool.and_eq_true, bne_iff_ne, ne_eq, fieldOf, Prod.mk.injEq, true_and, Bool.false_or]
      refine ⟨fun h => h.1, fun h => ⟨h, fun e => h ?_⟩⟩
      rw [← e, wrap_nat]
    · unfold Sudoku.columnOf
      rw [List.filter_map, List.filter_filter]
      congr 1
      refine List.filter_congr fun j _ => ?_
      rw [Bool.eq_iff_iff]
      simp only [Function.comp_apply, Bool.and_eq_true, bne_iff_ne, ne_eq, fieldOf, Prod.mk.injEq, and_true, Bool.false_or]
      refine ⟨fun h => h.1, fun h => ⟨h, fun e => h ?_⟩⟩
      rw [← e, wrap_nat]
  · rw [List.filter_eq_self]
    intro b hb
    unfold Sudoku.quadWithoutRowAndColumnOf at hb
    obtain ⟨p, hp, rfl⟩ := List.mem_map.1 hb
    rw [List.mem_filter] at hp
    have := hp.2
    simp only [Bool.and_eq_true, bne_iff_ne, ne_eq] at this
    rw [bne_iff_ne]
    exact fun e => this.1 (congrArg Prod.fst e)

theorem filter_range_eq {n k : Nat} (hk : k < n) : (List.range n).filter (fun j => j == k) = [k] := by
  rw [List.filter_beq, List.count_eq_one_of_mem List.nodup_range (List.mem_range.2 hk)]
  rfl

/-- How often the field itself is among them. -/
theorem self_around (s : Sudoku) {a : ICell} (ha : GoodCell s.n a) :
    (((around a.1 a.2 s.bw s.bh false).map (fieldOf s.n)).filter (· == fieldOf s.n a)).length =
      (if a.1 < 0 then 1 else 0) + if a.2 < 0 then 1 else 0 := by
  have row : ∀ (i : Int), -(s.n : Int) ≤ i → i < s.n →
      ((List.range s.n).filter fun (j : Nat) => j == wrap s.n i && (j : Int) != i).length = if i < 0 then 1 else 0 := by
    intro i h1 h2
    split
    · rename_i hi
      rw [show (fun (j : Nat) => j == wrap s.n i && (j : Int) != i) = fun j => j == wrap s.n i from ?_,
        filter_range_eq (wrap_lt h1 h2)]
      · rfl
      · funext j
        rw [Bool.eq_iff_iff]
        simp only [Bool.and_eq_true, beq_iff_eq, bne_iff_ne, ne_eq, and_iff_left_iff_imp]
        intro _; omega
    · rename_i hi
      rw [List.length_eq_zero_iff, List.filter_eq_nil_iff]
      intro j _
      simp only [Bool.and_eq_true, beq_iff_eq, bne_iff_ne, ne_eq, not_and, not_not]
      intro e
      rw [e]; unfold wrap; rw [if_neg hi]; omega
  unfold around
  rw [List.map_append, List.map_append, map_rowOf, map_columnOf, (map_quadList s ha).1, List.filter_append, List.filter_append,
    List.length_append, List.length_append]
  have e3 : (s.quadWithoutRowAndColumnOf (fieldOf s.n a)).filter (· == fieldOf s.n a) = [] := by
    rw [List.filter_eq_nil_iff]
    intro b hb
    unfold Sudoku.quadWithoutRowAndColumnOf at hb
    obtain ⟨p, hp, rfl⟩ := List.mem_map.1 hb
    rw [List.mem_filter] at hp
    have := hp.2
    simp only [Bool.and_eq_true, bne_iff_ne, ne_eq] at this
    rw [beq_iff_eq]
    exact fun e => this.1 (congrArg Prod.fst e)
  rw [e3, List.filter_map, List.filter_map, List.length_map, List.length_map, List.filter_filter, List.filter_filter, List.length_nil,
    Nat.add_zero, Nat.add_comm]
  congr 1
  · rw [← row a.1 ha.1.1 ha.1.2]
    congr 1
    refine List.filter_congr fun j _ => ?_
    rw [Bool.eq_iff_iff]
    simp [fieldOf]
  · rw [← row a.2 ha.2.1 ha.2.2]
    congr 1
    refine List.filter_congr fun j _ => ?_
    rw [Bool.eq_iff_iff]
    simp [fieldOf]

/-! ## `calc_candidates` and `find_conflicts` -/

theorem discardAll_eq {s : Sudoku} {l : List ICell} (hl : ∀ b ∈ l, GoodCell s.n b) (cs : Finset Int) :
    discardAll s l cs = .ok ((l.map (fieldOf s.n)).foldl (fun cs b => cs.erase (s.get b)) cs) := by
  induction l generalizing cs with
  | nil => rfl
  | cons b l ih =>
    rw [discardAll, number_good (hl b (by simp))]
    exact ih (fun c hc => hl c (by simp [hc])) _

theorem conflictsWith_eq {s : Sudoku} {a : ICell} {v : Int} {l : List ICell} (hl : ∀ b ∈ l, GoodCell s.n b) :
    conflictsWith s a v l = ((l.filter fun b => s.get (fieldOf s.n b) == v).map fun b => (a, b, v), none) := by
  induction l with
  | nil => rfl
  | cons b l ih =>
    rw [conflictsWith, number_good (hl b (by simp)), ih fun c hc => hl c (by simp [hc])]
    simp only [List.filter_cons, beq_iff_eq]
    split <;> rfl

theorem good_pos {s : Sudoku} {a : ICell} (ha : GoodCell s.n a) : 0 < s.bw ∧ 0 < s.bh := by
  have := ha.1
  have hn : 0 < s.n := by omega
  unfold Sudoku.n at hn
  exact ⟨Nat.pos_of_mul_pos_right hn, Nat.pos_of_mul_pos_left hn⟩

theorem conflictsAt_good {s : Sudoku} {a : ICell} (ha : GoodCell s.n a) :
    conflictsAt s a = (if s.get (fieldOf s.n a) = 0 then []
      else ((around a.1 a.2 s.bw s.bh false).filter fun b => s.get (fieldOf s.n b) == s.get (fieldOf s.n a)).map
        fun b => (a, b, s.get (fieldOf s.n a)), none) := by
  unfold conflictsAt
  rw [number_good ha]
  simp only
  split
  · rfl
  · rw [surroundingOf_false (good_pos ha).1 (good_pos ha).2]
    exact conflictsWith_eq (around_good ha)

theorem conflictsLoop_good {s : Sudoku} {l : List ICell} (hl : ∀ a ∈ l, GoodCell s.n a) :
    conflictsLoop s l = (l.flatMap fun a => (conflictsAt s a).1, none) := by
  induction l with
  | nil => rfl
  | cons a l ih =>
    have e : (conflictsAt s a).2 = none := by rw [conflictsAt_good (hl a (by simp))]
    rw [conflictsLoop, ih fun c hc => hl c (by simp [hc])]
    revert e
    cases h : conflictsAt s a with
    | mk x o =>
      intro e
      simp only at e
      subst e
      simp [h]

theorem conflictsLoop_bad {s : Sudoku} {l r : List ICell} {a : ICell} (hl : ∀ a ∈ l, GoodCell s.n a) (ha : ¬ GoodCell s.n a) :
    conflictsLoop s (l ++ a :: r) = ((conflictsLoop s l).1, some .IndexError) := by
  induction l with
  | nil =>
    have e : conflictsAt s a = ([], some .IndexError) := by unfold conflictsAt; rw [number_bad ha]
    show (match conflictsAt s a with
      | (x, some e) => (x, some e)
      | (x, none) => let r := conflictsLoop s r; (x ++ r.1, r.2)) = _
    rw [e]
    rfl
  | cons b l ih =>
    have e : (conflictsAt s b).2 = none := by rw [conflictsAt_good (hl b (by simp))]
    rw [List.cons_append, conflictsLoop, conflictsLoop, ih fun c hc => hl c (by simp [hc])]
    revert e
    cases conflictsAt s b with
    | mk x o =>
      intro e
      simp only at e
      subst e
      rfl

end IntCoordinates
