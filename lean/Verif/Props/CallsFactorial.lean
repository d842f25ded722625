import Verif.Proofs.CallsFactorial
import Verif.Props.CallsLess

set_option autoImplicit false

/-! # Upper bounds by the numbers missing in the rows, columns and boxes (C129) -/

open Spec

namespace Props

/-- **C129** `unit` names for each field a unit (the names are in `U`), and different fields of the same unit are in the same row, column or
box. Of the `N` numbers of the unit `u`, `m u` are missing, `m u` being `N` less the number of clues in it. Then `dlx` yields at most
`∏ (m u)!` sudokus, and calls its function `solve` at most `(E + 1) ∏ (m u)!` times, `E` being the number of empty fields. -/
theorem C129_dlx (π : Dlx.Orders) (hπ : π.Ok) (fuel : Nat) (s : Sudoku) (sols : List Sudoku) (n : Nat) (h : Dlx.dlxN π fuel s = .ok (sols, n))
    (unit : Cell → Nat) (U : Finset Nat) (hU : ∀ a, InGrid s.bw s.bh a → unit a ∈ U)
    (hp : ∀ a b, InGrid s.bw s.bh a → InGrid s.bw s.bh b → a ≠ b → unit a = unit b → Peer s.bw s.bh a b) :
    sols.length ≤ ∏ u ∈ U, Nat.factorial (s.bw * s.bh - ((Finset.range (s.bw * s.bh) ×ˢ Finset.range (s.bw * s.bh)).filter
      fun a => s.get a ≠ 0 ∧ unit a = u).card) ∧
    n ≤ (s.empty.length + 1) * ∏ u ∈ U, Nat.factorial (s.bw * s.bh - ((Finset.range (s.bw * s.bh) ×ˢ Finset.range (s.bw * s.bh)).filter
      fun a => s.get a ≠ 0 ∧ unit a = u).card) :=
  Dlx.dlxN_weighed hπ ⟨hU, hp⟩ h

/-- **C129** The number of calls of `_do_bruteforce` has the same bound if all numbers of `s` are between 1 and `N`. -/
theorem C129_bruteforce (π : Solve.SetOrder) (hπ : π.Ok) (fuel : Nat) (s : Sudoku) (sols : List Sudoku) (n : Nat)
    (h : Solve.bruteforceN π fuel s = some (sols, n)) (hs : ∀ a, InGrid s.bw s.bh a → s.get a ≠ 0 → IsNumber s.bw s.bh (s.get a))
    (unit : Cell → Nat) (U : Finset Nat) (hU : ∀ a, InGrid s.bw s.bh a → unit a ∈ U)
    (hp : ∀ a b, InGrid s.bw s.bh a → InGrid s.bw s.bh b → a ≠ b → unit a = unit b → Peer s.bw s.bh a b) :
    n ≤ (s.empty.length + 1) * ∏ u ∈ U, Nat.factorial (s.bw * s.bh - ((Finset.range (s.bw * s.bh) ×ˢ Finset.range (s.bw * s.bh)).filter
      fun a => s.get a ≠ 0 ∧ unit a = u).card) :=
  Solve.bruteforceN_weighed hπ ⟨hU, hp⟩ hs h

/-- The product of `m!` over the rows, `m` being the number of empty fields of the row. -/
def rowProduct (N : Nat) (t : Grid) : Nat := ∏ i ∈ Finset.range N, Nat.factorial ((Finset.range N).filter fun j => t (i, j) = 0).card

/-- The product of `m!` over the columns. -/
def columnProduct (N : Nat) (t : Grid) : Nat := ∏ j ∈ Finset.range N, Nat.factorial ((Finset.range N).filter fun i => t (i, j) = 0).card

private theorem row_missing (N : Nat) (t : Grid) (i : Nat) (hi : i < N) :
    N - ((Finset.range N ×ˢ Finset.range N).filter fun a => t a ≠ 0 ∧ a.1 = i).card = ((Finset.range N).filter fun j => t (i, j) = 0).card := by
  have h1 : ((Finset.range N ×ˢ Finset.range N).filter fun a => t a ≠ 0 ∧ a.1 = i).card = ((Finset.range N).filter fun j => ¬ t (i, j) = 0).card := by
    refine Finset.card_bij (fun a _ => a.2) (fun a ha => ?_) (fun a ha b hb e => ?_) (fun j hj => ?_)
    · simp only [Finset.mem_filter, Finset.mem_product] at ha ⊢
      obtain ⟨⟨-, h2⟩, h3, rfl⟩ := ha
      exact ⟨h2, h3⟩
    · simp only [Finset.mem_filter] at ha hb
      exact Prod.ext (ha.2.2.trans hb.2.2.symm) e
    · simp only [Finset.mem_filter] at hj
      exact ⟨(i, j), by simp only [Finset.mem_filter, Finset.mem_product, Finset.mem_range]; exact ⟨⟨hi, Finset.mem_range.1 hj.1⟩, hj.2, trivial⟩, rfl⟩
  have h2 := Finset.card_filter_add_card_filter_not (s := Finset.range N) (fun j => t (i, j) = 0)
  rw [Finset.card_range] at h2
  rw [h1]
  omega

private theorem column_missing (N : Nat) (t : Grid) (j : Nat) (hj : j < N) :
    N - ((Finset.range N ×ˢ Finset.range N).filter fun a => t a ≠ 0 ∧ a.2 = j).card = ((Finset.range N).filter fun i => t (i, j) = 0).card := by
  have h1 : ((Finset.range N ×ˢ Finset.range N).filter fun a => t a ≠ 0 ∧ a.2 = j).card = ((Finset.range N).filter fun i => ¬ t (i, j) = 0).card := by
    refine Finset.card_bij (fun a _ => a.1) (fun a ha => ?_) (fun a ha b hb e => ?_) (fun i hi => ?_)
    · simp only [Finset.mem_filter, Finset.mem_product] at ha ⊢
      obtain ⟨⟨h2, -⟩, h3, rfl⟩ := ha
      exact ⟨h2, h3⟩
    · simp only [Finset.mem_filter] at ha hb
      exact Prod.ext e (ha.2.2.trans hb.2.2.symm)
    · simp only [Finset.mem_filter] at hi
      exact ⟨(i, j), by simp only [Finset.mem_filter, Finset.mem_product, Finset.mem_range]; exact ⟨⟨Finset.mem_range.1 hi.1, hj⟩, hi.2, trivial⟩, rfl⟩
  have h2 := Finset.card_filter_add_card_filter_not (s := Finset.range N) (fun i => t (i, j) = 0)
  rw [Finset.card_range] at h2
  rw [h1]
  omega

/-- **C129** By the rows and by the columns: `dlx` yields at most `∏ mᵢ!` sudokus, `mᵢ` being the number of empty fields of the row (column) `i`,
and calls `solve` at most `(E + 1) ∏ mᵢ!` times. -/
theorem C129_lines_dlx (π : Dlx.Orders) (hπ : π.Ok) (fuel : Nat) (s : Sudoku) (sols : List Sudoku) (n : Nat) (h : Dlx.dlxN π fuel s = .ok (sols, n)) :
    sols.length ≤ rowProduct (s.bw * s.bh) s.get ∧ sols.length ≤ columnProduct (s.bw * s.bh) s.get ∧
    n ≤ (s.empty.length + 1) * rowProduct (s.bw * s.bh) s.get ∧ n ≤ (s.empty.length + 1) * columnProduct (s.bw * s.bh) s.get := by
  have hr := C129_dlx π hπ fuel s sols n h (fun a => a.1) (Finset.range (s.bw * s.bh)) (fun a ha => Finset.mem_range.2 ha.1)
    (fun a b _ _ hne e => ⟨hne, Or.inl e⟩)
  have hc := C129_dlx π hπ fuel s sols n h (fun a => a.2) (Finset.range (s.bw * s.bh)) (fun a ha => Finset.mem_range.2 ha.2)
    (fun a b _ _ hne e => ⟨hne, Or.inr (Or.inl e)⟩)
  rw [Finset.prod_congr rfl fun i hi => congrArg Nat.factorial (row_missing (s.bw * s.bh) s.get i (Finset.mem_range.1 hi))] at hr
  rw [Finset.prod_congr rfl fun i hi => congrArg Nat.factorial (column_missing (s.bw * s.bh) s.get i (Finset.mem_range.1 hi))] at hc
  exact ⟨hr.1, hc.1, hr.2, hc.2⟩

/-- **C129** And `_do_bruteforce`. -/
theorem C129_lines_bruteforce (π : Solve.SetOrder) (hπ : π.Ok) (fuel : Nat) (s : Sudoku) (sols : List Sudoku) (n : Nat)
    (h : Solve.bruteforceN π fuel s = some (sols, n)) (hs : ∀ a, InGrid s.bw s.bh a → s.get a ≠ 0 → IsNumber s.bw s.bh (s.get a)) :
    n ≤ (s.empty.length + 1) * rowProduct (s.bw * s.bh) s.get ∧ n ≤ (s.empty.length + 1) * columnProduct (s.bw * s.bh) s.get := by
  have hr := C129_bruteforce π hπ fuel s sols n h hs (fun a => a.1) (Finset.range (s.bw * s.bh)) (fun a ha => Finset.mem_range.2 ha.1)
    (fun a b _ _ hne e => ⟨hne, Or.inl e⟩)
  have hc := C129_bruteforce π hπ fuel s sols n h hs (fun a => a.2) (Finset.range (s.bw * s.bh)) (fun a ha => Finset.mem_range.2 ha.2)
    (fun a b _ _ hne e => ⟨hne, Or.inr (Or.inl e)⟩)
  rw [Finset.prod_congr rfl fun i hi => congrArg Nat.factorial (row_missing (s.bw * s.bh) s.get i (Finset.mem_range.1 hi))] at hr
  rw [Finset.prod_congr rfl fun i hi => congrArg Nat.factorial (column_missing (s.bw * s.bh) s.get i (Finset.mem_range.1 hi))] at hc
  exact ⟨hr, hc⟩

/-- **C129** By the boxes, numbered `a.1 / h * h + a.2 / w`; `N` less the number of clues is the number of empty fields of the box. -/
theorem C129_boxes (π : Dlx.Orders) (π' : Solve.SetOrder) (hπ : π.Ok) (hπ' : π'.Ok) (fuel fuel' : Nat) (s : Sudoku) (sols sols' : List Sudoku) (n n' : Nat)
    (h : Dlx.dlxN π fuel s = .ok (sols, n)) (h' : Solve.bruteforceN π' fuel' s = some (sols', n')) (F : Nat)
    (hF : F = ∏ u ∈ Finset.range (s.bw * s.bh), Nat.factorial (s.bw * s.bh - ((Finset.range (s.bw * s.bh) ×ˢ Finset.range (s.bw * s.bh)).filter
      fun a => s.get a ≠ 0 ∧ a.1 / s.bh * s.bh + a.2 / s.bw = u).card)) :
    sols.length ≤ F ∧ n ≤ (s.empty.length + 1) * F ∧
    ((∀ a, InGrid s.bw s.bh a → s.get a ≠ 0 → IsNumber s.bw s.bh (s.get a)) → n' ≤ (s.empty.length + 1) * F) := by
  have hU : ∀ a, InGrid s.bw s.bh a → a.1 / s.bh * s.bh + a.2 / s.bw ∈ Finset.range (s.bw * s.bh) := fun a ha => by
    rw [Finset.mem_range, ← Coordinates.boxAt_eq_div]
    exact Coordinates.boxAt_lt ha
  have hp : ∀ a b, InGrid s.bw s.bh a → InGrid s.bw s.bh b → a ≠ b → a.1 / s.bh * s.bh + a.2 / s.bw = b.1 / s.bh * s.bh + b.2 / s.bw →
      Peer s.bw s.bh a b := fun a b ha hb hne e => by
    rw [← Coordinates.boxAt_eq_div, ← Coordinates.boxAt_eq_div] at e
    exact ⟨hne, Or.inr (Or.inr ((Coordinates.boxAt_eq_iff ha hb).1 e))⟩
  rw [hF]
  obtain ⟨h1, h2⟩ := C129_dlx π hπ fuel s sols n h (fun a => a.1 / s.bh * s.bh + a.2 / s.bw) _ hU hp
  exact ⟨h1, h2, fun hs => C129_bruteforce π' hπ' fuel' s sols' n' h' hs (fun a => a.1 / s.bh * s.bh + a.2 / s.bw) _ hU hp⟩

/-- **C129** With at most `r` empty fields in each row: at most `(r!)ᴺ` solutions and `(E + 1) (r!)ᴺ` calls. -/
theorem C129_each (π : Dlx.Orders) (hπ : π.Ok) (fuel : Nat) (s : Sudoku) (sols : List Sudoku) (n : Nat) (h : Dlx.dlxN π fuel s = .ok (sols, n)) (r : Nat)
    (hr : ∀ i < s.bw * s.bh, ((Finset.range (s.bw * s.bh)).filter fun j => s.get (i, j) = 0).card ≤ r) :
    sols.length ≤ Nat.factorial r ^ (s.bw * s.bh) ∧ n ≤ (s.empty.length + 1) * Nat.factorial r ^ (s.bw * s.bh) := by
  obtain ⟨h1, -, h2, -⟩ := C129_lines_dlx π hπ fuel s sols n h
  have h3 : rowProduct (s.bw * s.bh) s.get ≤ Nat.factorial r ^ (s.bw * s.bh) := by
    have := Finset.prod_le_pow_card (Finset.range (s.bw * s.bh))
      (fun i => Nat.factorial ((Finset.range (s.bw * s.bh)).filter fun j => s.get (i, j) = 0).card) (Nat.factorial r)
      (fun i hi => Nat.factorial_le (hr i (Finset.mem_range.1 hi)))
    rwa [Finset.card_range] at this
  exact ⟨Nat.le_trans h1 h3, Nat.le_trans h2 (Nat.mul_le_mul_left _ h3)⟩

/-- A grid with the numbers 7 and 8 in its first column. -/
private def tooLarge : Sudoku := Sudoku.new 2 1 |>.setNumber (0, 0) 7 |>.setNumber (1, 0) 8

/-- **C129** `bruteforce` needs the hypothesis about the numbers: with numbers greater than `N` in the grid it may need more calls. -/
theorem C129_legal : ∃ (s : Sudoku) (sols : List Sudoku) (n : Nat), Solve.bruteforceN upwards 5 s = some (sols, n) ∧
    (s.empty.length + 1) * rowProduct (s.bw * s.bh) s.get < n := by
  have h : (Solve.bruteforceN upwards 5 tooLarge).map (fun q => q.2) = some 5 := by decide +kernel
  cases e : Solve.bruteforceN upwards 5 tooLarge with
  | none => rw [e] at h; cases h
  | some q =>
    obtain ⟨sols, n⟩ := q
    rw [e] at h
    have hn : n = 5 := by simpa using h
    refine ⟨tooLarge, sols, n, e, ?_⟩
    rw [hn]
    decide +kernel

/-! ## Samples -/

/-- Two empty fields in each row: nine calls, at most 20 by this bound (31 by that of C127); two solutions, at most 4 by this bound. -/
example : (Dlx.dlxN plainOrders 5 (Sudoku.new 2 1)).toOption.map (fun q => (q.1.length, q.2)) = some (2, 9) ∧
    ((Sudoku.new 2 1).empty.length + 1) * rowProduct 2 (Sudoku.new 2 1).get = 20 ∧ columnProduct 2 (Sudoku.new 2 1).get = 4 := by decide +kernel

/-- A 4x4 grid with three empty fields in its last row only. -/
private def threeOpen : Sudoku :=
  ⟨2, 2, fun a => if a.1 = 3 ∧ 0 < a.2 ∧ a.2 < 4 then 0 else if a.1 < 4 ∧ a.2 < 4 then
    ((([[1, 2, 3, 4], [3, 4, 1, 2], [2, 1, 4, 3], [4, 3, 2, 1]] : List (List Int)).getD a.1 []).getD a.2 0) else 0, fun _ => ∅⟩
example : rowProduct 4 threeOpen.get = 6 ∧ columnProduct 4 threeOpen.get = 1 ∧ threeOpen.empty.length = 3 ∧
    (Dlx.dlxN plainOrders 5 threeOpen).toOption.map (fun q => (q.1.length, q.2)) = some (1, 4) ∧
    (Solve.bruteforceN upwards 5 threeOpen).map (fun q => (q.1.length, q.2)) = some (1, 4) ∧
    ∀ a ∈ threeOpen.cells, threeOpen.get a ≠ 0 → 1 ≤ threeOpen.get a ∧ threeOpen.get a ≤ 4 := by decide +kernel

end Props
