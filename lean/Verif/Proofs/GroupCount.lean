import Verif.Proofs.GenerateCalls

set_option autoImplicit false

/-! Helper lemmas for C120: the number and the sizes of the groups. -/

open Spec

namespace Generate

theorem half_count (N : Nat) : ∀ M, ((List.range M).filter fun c => decide (2 * c + 1 ≤ N)).length = min M ((N + 1) / 2)
  | 0 => by simp
  | M + 1 => by
    rw [List.range_succ, List.filter_append, List.length_append, half_count N M]
    by_cases h : 2 * M + 1 ≤ N
    · rw [List.filter_cons_of_pos (by simpa using h)]; simp only [List.filter_nil, List.length_singleton]; omega
    · rw [List.filter_cons_of_neg (by simpa using h)]; simp only [List.filter_nil, List.length_nil]; omega

theorem middle_count (N : Nat) (hN : N % 2 = 1) : ∀ M, ((List.range M).filter fun c => decide (2 * c + 1 = N)).length =
    if N / 2 < M then 1 else 0
  | 0 => by simp
  | M + 1 => by
    rw [List.range_succ, List.filter_append, List.length_append, middle_count N hN M]
    by_cases h : 2 * M + 1 = N
    · rw [List.filter_cons_of_pos (by simpa using h)]; simp only [List.filter_nil, List.length_singleton]
      rw [if_neg (by omega), if_pos (by omega)]
    · rw [List.filter_cons_of_neg (by simpa using h)]; simp only [List.filter_nil, List.length_nil]
      by_cases h1 : N / 2 < M
      · rw [if_pos h1, if_pos (by omega)]
      · rw [if_neg h1, if_neg (by omega)]

/-- A sum over the rows: `A` for those above the middle, `B` for the middle one. -/
theorem row_sum (N A B : Nat) (f : Nat → Nat) (h1 : ∀ r, 2 * r + 1 < N → f r = A) (h2 : ∀ r, 2 * r + 1 = N → f r = B)
    (h3 : ∀ r, N < 2 * r + 1 → f r = 0) :
    ∀ M, ((List.range M).map f).sum = min M (N / 2) * A + if N % 2 = 1 ∧ N / 2 < M then B else 0
  | 0 => by simp
  | M + 1 => by
    rw [List.range_succ, List.map_append, List.sum_append, row_sum N A B f h1 h2 h3 M]
    simp only [List.map_cons, List.map_nil, List.sum_cons, List.sum_nil, Nat.add_zero]
    rcases Nat.lt_trichotomy (2 * M + 1) N with h | h | h
    · rw [h1 M h, if_neg (by omega), if_neg (by omega), Nat.min_eq_left (by omega), Nat.min_eq_left (by omega), Nat.succ_mul]
      omega
    · rw [h2 M h, if_neg (by omega), if_pos (by omega), Nat.min_eq_left (by omega), Nat.min_eq_right (by omega),
        show N / 2 = M by omega]; omega
    · rw [h3 M h, Nat.add_zero, Nat.min_eq_right (by omega), Nat.min_eq_right (by omega)]
      by_cases h4 : N % 2 = 1
      · rw [if_pos (by omega), if_pos (by omega)]
      · rw [if_neg (by omega), if_neg (by omega)]

theorem product_count (p : Cell → Bool) (l : List Nat) : ∀ m : List Nat,
    ((m.flatMap fun r => l.map fun c => (r, c)).filter p).length =
      (m.map fun r => (l.filter fun c => p (r, c)).length).sum
  | [] => rfl
  | r :: m => by
    rw [List.flatMap_cons, List.filter_append, List.length_append, product_count p l m, List.map_cons, List.sum_cons,
      List.filter_map, List.length_map]
    rfl

theorem sum_const (A : Nat) : ∀ M, ((List.range M).map fun _ => A).sum = M * A
  | 0 => by simp
  | M + 1 => by rw [List.range_succ, List.map_append, List.sum_append, sum_const A M, Nat.succ_mul]; simp

theorem filter_none {l : List Nat} {p : Nat → Bool} (h : ∀ a ∈ l, p a = false) : (l.filter p).length = 0 := by
  rw [List.length_eq_zero_iff, List.filter_eq_nil_iff]
  intro a ha; rw [h a ha]; decide

theorem filter_all {l : List Nat} {p : Nat → Bool} (h : ∀ a ∈ l, p a = true) : (l.filter p).length = l.length := by
  rw [List.filter_eq_self.2 h]

/-- The number of groups of a whole grid. -/
theorem groups_cells (w h : Nat) (sym : Sym) : groups w h sym (Sudoku.new w h).cells =
    match sym with
    | .none => (w * h) * (w * h)
    | .rotate90 => (w * h / 2) * ((w * h + 1) / 2) + w * h % 2
    | .rotate180 => (w * h / 2) * (w * h) + w * h % 2 * ((w * h + 1) / 2)
    | .mirrorX => ((w * h + 1) / 2) * (w * h)
    | .mirrorY => (w * h) * ((w * h + 1) / 2)
    | .mirrorXY => ((w * h + 1) / 2) * ((w * h + 1) / 2) := by
  have e : (Sudoku.new w h).cells = (List.range (w * h)).flatMap fun r => (List.range (w * h)).map fun c => (r, c) := rfl
  unfold groups
  rw [e, product_count]
  generalize w * h = N
  have odd : ∀ B : Nat, (if N % 2 = 1 ∧ N / 2 < N then B else 0) = N % 2 * B := by
    intro B
    rcases Nat.mod_two_eq_zero_or_one N with h0 | h0
    · rw [if_neg (by omega), h0, Nat.zero_mul]
    · rw [if_pos (by omega), h0, Nat.one_mul]
  have half : ((List.range N).filter fun c => decide (2 * c + 1 ≤ N)).length = (N + 1) / 2 := by
    rw [half_count]; omega
  have split : ∀ A : Nat, (N + 1) / 2 * A = N / 2 * A + N % 2 * A := by
    intro A; rw [← Nat.add_mul]; congr 1; omega
  have hmin : min N (N / 2) = N / 2 := by omega
  cases sym <;> simp only [Sym.rep]
  · simp only [List.filter_true, List.length_range]; exact sum_const N N
  · rw [row_sum N ((N + 1) / 2) 1 _ _ _ _ N, odd, hmin, Nat.mul_one]
    · intro r hr
      rw [← half]; congr 2; funext c; rw [decide_eq_decide]; omega
    · intro r hr
      have := middle_count N (by omega) N
      rw [if_pos (by omega)] at this
      rw [← this]; congr 2; funext c; rw [decide_eq_decide]; omega
    · intro r hr
      exact filter_none fun c _ => decide_eq_false (by omega)
  · rw [row_sum N N ((N + 1) / 2) _ _ _ _ N, odd, hmin]
    · intro r hr
      rw [filter_all fun c _ => decide_eq_true (by omega), List.length_range]
    · intro r hr
      rw [← half]; congr 2; funext c; rw [decide_eq_decide]; omega
    · intro r hr
      exact filter_none fun c _ => decide_eq_false (by omega)
  · rw [row_sum N N N _ _ _ _ N, odd, hmin, split]
    · intro r hr
      rw [filter_all fun c _ => decide_eq_true (by omega), List.length_range]
    · intro r hr
      rw [filter_all fun c _ => decide_eq_true (by omega), List.length_range]
    · intro r hr
      exact filter_none fun c _ => decide_eq_false (by omega)
  · simp only [half]; exact sum_const _ N
  · rw [row_sum N ((N + 1) / 2) ((N + 1) / 2) _ _ _ _ N, odd, hmin, split]
    · intro r hr
      rw [← half]; congr 2; funext c; rw [decide_eq_decide]; omega
    · intro r hr
      rw [← half]; congr 2; funext c; rw [decide_eq_decide]; omega
    · intro r hr
      exact filter_none fun c _ => decide_eq_false (by omega)

/-- If the number of rows is even, no field is mapped to itself. -/
theorem size_even {w h : Nat} (he : w * h % 2 = 0) {a : Cell} (ha : InGrid w h a) (sym : Sym) :
    (sym.fields w h a).dedup.length = (sym.fields w h (0, 0)).length := by
  obtain ⟨r, c⟩ := a
  have h1 : r < w * h := ha.1
  have h2 : c < w * h := ha.2
  rw [List.Nodup.dedup]
  · cases sym <;> rfl
  · revert h1 h2 he
    cases sym <;> simp only [Sym.fields] <;> generalize w * h = N <;> intro he h1 h2 <;>
      simp only [List.nodup_cons, List.mem_cons, List.not_mem_nil, or_false, not_or, Prod.mk.injEq, not_and, List.nodup_nil,
        not_false_eq_true, and_true] <;> omega

end Generate
