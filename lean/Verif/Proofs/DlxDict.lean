import Verif.Proofs.ExactCover

set_option autoImplicit false

/-! Helper lemmas: `select` and `deselect` for the columns and rows of a sudoku. -/

namespace Dlx

variable {R C : Nat}

/-- `i` is one of the rows of the matrix. -/
abbrev Legal (R C : Nat) (i : Row) : Prop := i ∈ rows (R * C)

theorem colsOf_nodup (R C : Nat) (i : Row) : (colsOf R C i).Nodup := by
  simp [colsOf]

theorem mem_numbers {N : Nat} {v : Int} : v ∈ numbers N ↔ 1 ≤ v ∧ v ≤ N := by
  unfold numbers
  simp only [List.mem_map, List.mem_range]
  constructor
  · rintro ⟨k, hk, rfl⟩; omega
  · rintro ⟨h1, h2⟩; exact ⟨(v - 1).toNat, by omega, by omega⟩

theorem mem_product' {α β : Type} {xs : List α} {ys : List β} {p : α × β} :
    p ∈ Coordinates.product xs ys ↔ p.1 ∈ xs ∧ p.2 ∈ ys := by
  obtain ⟨a, b⟩ := p
  simp [Coordinates.product]

theorem mem_rows {N : Nat} {i : Row} : i ∈ rows N ↔ i.1 < N ∧ i.2.1 < N ∧ 1 ≤ i.2.2 ∧ i.2.2 ≤ N := by
  unfold rows
  rw [mem_product', mem_product', mem_numbers, List.mem_range, List.mem_range]

theorem mem_columns {N : Nat} {j : Col} : j ∈ columns N ↔ match j with
    | .rc r c => r < N ∧ c < N
    | .rn r n => r < N ∧ 1 ≤ n ∧ n ≤ N
    | .cn c n => c < N ∧ 1 ≤ n ∧ n ≤ N
    | .bn b n => b < N ∧ 1 ≤ n ∧ n ≤ N := by
  unfold columns
  simp only [List.mem_append, List.mem_map, mem_product', mem_numbers, List.mem_range]
  cases j with
  | rc r c => simp
  | rn r n => simp
  | cn c n => simp
  | bn b n => simp

theorem box_lt {R C r c : Nat} (hr : r < R * C) (hc : c < R * C) : r / R * R + c / C < R * C := by
  have hR : 0 < R := by rcases Nat.eq_zero_or_pos R with h | h; · subst h; simp at hr
                        · exact h
  have hC : 0 < C := by rcases Nat.eq_zero_or_pos C with h | h; · subst h; simp at hr
                        · exact h
  have h1 : r / R < C := (Nat.div_lt_iff_lt_mul hR).2 (by rw [Nat.mul_comm]; exact hr)
  have h2 : c / C < R := (Nat.div_lt_iff_lt_mul hC).2 hc
  calc r / R * R + c / C < r / R * R + R := by omega
    _ = (r / R + 1) * R := by rw [Nat.add_mul, Nat.one_mul]
    _ ≤ C * R := Nat.mul_le_mul_right R h1
    _ = R * C := Nat.mul_comm _ _

theorem colsOf_sub {i : Row} (h : Legal R C i) : ∀ j ∈ colsOf R C i, j ∈ columns (R * C) := by
  have h' := mem_rows.1 h
  intro j hj
  unfold colsOf at hj
  simp only [List.mem_cons, List.not_mem_nil, or_false] at hj
  rcases hj with rfl | rfl | rfl | rfl
  · exact mem_columns.2 ⟨h'.1, h'.2.1⟩
  · exact mem_columns.2 ⟨h'.1, h'.2.2⟩
  · exact mem_columns.2 ⟨h'.2.1, h'.2.2⟩
  · exact mem_columns.2 ⟨box_lt h'.1 h'.2.1, h'.2.2⟩

theorem good (R C : Nat) : Cover.Good (columns (R * C)) (rows (R * C)) (colsOf R C) :=
  ⟨fun i _ => colsOf_nodup R C i, fun _ hi => colsOf_sub hi⟩

/-- `X` is the matrix with the columns `D` covered. -/
abbrev Rep (R C : Nat) (X : Dict Col (List Row)) (D : Finset Col) : Prop := Cover.Rep (columns (R * C)) (rows (R * C)) (colsOf R C) X D

theorem select_ok {X : Dict Col (List Row)} {D : Finset Col} (h : Rep R C X D) {r : Row} (hr : Legal R C r)
    (hd : ∀ j ∈ colsOf R C r, j ∉ D) :
    ∃ X' st, select X (matrix R C) r = .ok (X', st) ∧ Rep R C X' (D ∪ (colsOf R C r).toFinset) := by
  obtain ⟨X', st, e, h', -⟩ := Cover.select_ok h hr hd
  exact ⟨X', st, e, h'⟩

theorem select_err {X : Dict Col (List Row)} {D : Finset Col} (h : Rep R C X D) {r : Row}
    (hd : ¬ (Legal R C r ∧ ∀ j ∈ colsOf R C r, j ∉ D)) : select X (matrix R C) r = .error .KeyError :=
  Cover.select_err h hd

end Dlx
