import Verif.Proofs.CallsLess
import Verif.Props.CallsMore
import Mathlib.Data.Finset.Pi

set_option autoImplicit false

/-! # Upper bounds for the searches (C127) -/

open Spec

namespace Props

/-- **C127** If at most `k` numbers fit in each of the `E` empty fields of `s`, then `dlx` calls its function `solve` at most `1 + k + k² + … + kᴱ` times. -/
theorem C127_dlx (π : Dlx.Orders) (hπ : π.Ok) (fuel : Nat) (s : Sudoku) (sols : List Sudoku) (n k : Nat) (h : Dlx.dlxN π fuel s = .ok (sols, n))
    (hk : ∀ (a : Cell) (V : Finset Int), (∀ v ∈ V, Spec.Fits s.bw s.bh s.get a v) → V.card ≤ k) :
    n ≤ ∑ i ∈ Finset.range (s.empty.length + 1), k ^ i := by
  rw [← Calls.tree_eq]
  exact Dlx.dlxN_less hπ hk h

/-- **C127** The same for `_do_bruteforce`. -/
theorem C127_bruteforce (π : Solve.SetOrder) (hπ : π.Ok) (fuel : Nat) (s : Sudoku) (sols : List Sudoku) (n k : Nat)
    (h : Solve.bruteforceN π fuel s = some (sols, n))
    (hk : ∀ (a : Cell) (V : Finset Int), (∀ v ∈ V, Spec.Fits s.bw s.bh s.get a v) → V.card ≤ k) :
    n ≤ ∑ i ∈ Finset.range (s.empty.length + 1), k ^ i := by
  rw [← Calls.tree_eq]
  exact Solve.bruteforceN_less hπ hk h

private theorem fits_card (w h : Nat) (t : Grid) (a : Cell) (V : Finset Int) (hV : ∀ v ∈ V, Spec.Fits w h t a v) : V.card ≤ w * h := by
  have hsub : V ⊆ Finset.Icc 1 ((w * h : Nat) : Int) := fun v hv => Finset.mem_Icc.2 (hV v hv).2.2.1
  have := Finset.card_le_card hsub
  rw [Int.card_Icc] at this
  omega

/-- **C127** In any case at most `1 + N + … + Nᴱ` times. -/
theorem C127_always (π : Dlx.Orders) (π' : Solve.SetOrder) (hπ : π.Ok) (hπ' : π'.Ok) (fuel fuel' : Nat) (s : Sudoku) (sols sols' : List Sudoku) (n n' : Nat)
    (h : Dlx.dlxN π fuel s = .ok (sols, n)) (h' : Solve.bruteforceN π' fuel' s = some (sols', n')) :
    n ≤ ∑ i ∈ Finset.range (s.empty.length + 1), (s.bw * s.bh) ^ i ∧ n' ≤ ∑ i ∈ Finset.range (s.empty.length + 1), (s.bw * s.bh) ^ i :=
  ⟨C127_dlx π hπ fuel s sols n _ h (fits_card _ _ _), C127_bruteforce π' hπ' fuel' s sols' n' _ h' (fits_card _ _ _)⟩

/-- **C127** If only one number fits in each empty field, both need at most `E + 1` calls, and exactly so many if there is a solution. -/
theorem C127_one (π : Dlx.Orders) (π' : Solve.SetOrder) (hπ : π.Ok) (hπ' : π'.Ok) (fuel fuel' : Nat) (s : Sudoku) (sols sols' : List Sudoku) (n n' : Nat)
    (h : Dlx.dlxN π fuel s = .ok (sols, n)) (h' : Solve.bruteforceN π' fuel' s = some (sols', n'))
    (hk : ∀ a u v, Spec.Fits s.bw s.bh s.get a u → Spec.Fits s.bw s.bh s.get a v → u = v) :
    n ≤ s.empty.length + 1 ∧ n' ≤ s.empty.length + 1 ∧
    (Solvable s.bw s.bh s.get → n = s.empty.length + 1 ∧ n' = s.empty.length + 1 ∧ UniqueSolution s.bw s.bh s.get) := by
  have hk' : ∀ (a : Cell) (V : Finset Int), (∀ v ∈ V, Spec.Fits s.bw s.bh s.get a v) → V.card ≤ 1 := fun a V hV =>
    Finset.card_le_one.2 fun u hu v hv => hk a u v (hV u hu) (hV v hv)
  have h1 := C127_dlx π hπ fuel s sols n 1 h hk'
  have h2 := C127_bruteforce π' hπ' fuel' s sols' n' 1 h' hk'
  simp only [Nat.one_pow, Finset.sum_const, Finset.card_range, smul_eq_mul, Nat.mul_one] at h1 h2
  refine ⟨h1, h2, fun hs => ?_⟩
  obtain ⟨g, hg⟩ := hs
  have h3 := C124_dlx π hπ fuel s sols n h [g] (by simp) (by simpa using hg) (by simp)
  have h4 := C124_bruteforce π' hπ' fuel' s sols' n' h' [g] (by simp) (by simpa using hg) (by simp)
  simp only [List.length_singleton] at h3 h4
  exact ⟨by omega, by omega, C124_unique π π' hπ hπ' fuel fuel' s ⟨g, hg⟩ sols sols' n n' h h' (Or.inl h1)⟩

/-- **C127** There are at most as many solutions as ways to put a fitting number into each empty field: `dlx` yields at most so many sudokus.
`V a` contains the numbers that fit in `a` (and possibly others). -/
theorem C127_solutions (π : Dlx.Orders) (hπ : π.Ok) (fuel : Nat) (s : Sudoku) (sols : List Sudoku) (h : Dlx.dlx π fuel s = .ok sols)
    (V : Cell → Finset Int) (hV : ∀ a v, Spec.Fits s.bw s.bh s.get a v → v ∈ V a) :
    sols.length ≤ ∏ a ∈ s.empty.toFinset, (V a).card := by
  classical
  rcases Dlx.dlx_result hπ s fuel with ⟨sols', e, hn, m, -⟩ | ⟨e, -⟩
  swap
  · rw [h] at e; cases e
  rw [h] at e
  cases e
  have hpi : (s.empty.toFinset.pi V).card = ∏ a ∈ s.empty.toFinset, (V a).card :=
    Multiset.card_pi s.empty.toFinset.1 (fun a => (V a).1)
  rw [← hpi, ← List.toFinset_card_of_nodup hn]
  have hmem : ∀ a, a ∈ s.empty.toFinset ↔ InGrid s.bw s.bh a ∧ s.num a = 0 := by
    intro a
    simp only [List.mem_toFinset, Sudoku.empty, List.mem_filter, Sudoku.mem_cells, Sudoku.get, beq_iff_eq]
  refine Finset.card_le_card_of_injOn (fun t : Sudoku => fun a (_ : a ∈ s.empty.toFinset) => t.num a) (fun t ht => ?_) (fun t ht t' ht' e => ?_)
  · obtain ⟨-, h2⟩ := (m t).1 (List.mem_toFinset.1 ht)
    rw [Finset.mem_coe, Finset.mem_pi]
    intro a ha
    obtain ⟨ha, h0⟩ := (hmem a).1 ha
    have hfull := h2.full a ha
    refine hV a _ ⟨ha, h0, hfull, fun b hb hp e => ?_⟩
    have hta : t.num a ≠ 0 := by have := hfull.1; omega
    have hb0 : s.num b ≠ 0 := by
      have e' : s.num b = t.num a := e
      rw [e']; exact hta
    exact h2.valid a b ha hb hp hta (by rw [h2.keeps b hb hb0]; exact e.symm)
  · obtain ⟨⟨b1, b2, b3, b4⟩, h1⟩ := (m t).1 (List.mem_toFinset.1 ht)
    obtain ⟨⟨c1, c2, c3, c4⟩, h2⟩ := (m t').1 (List.mem_toFinset.1 ht')
    have hnum : t.num = t'.num := by
      funext a
      by_cases ha : InGrid s.bw s.bh a
      · by_cases h0 : s.num a = 0
        · exact congrFun (congrFun e a) ((hmem a).2 ⟨ha, h0⟩)
        · rw [h1.keeps a ha h0, h2.keeps a ha h0]
      · rw [b3 a ha, c3 a ha]
    have hcand : t.cand = t'.cand := funext fun a => by rw [b4 a, c4 a]
    obtain ⟨tw, th, tn, tc⟩ := t
    obtain ⟨tw', th', tn', tc'⟩ := t'
    simp only at b1 b2 c1 c2 hnum hcand
    rw [b1, b2, ← c1, ← c2, hnum, hcand]

/-- **C127** So there are at most `kᴱ` solutions if at most `k` numbers fit in each empty field. -/
theorem C127_power (π : Dlx.Orders) (hπ : π.Ok) (fuel : Nat) (s : Sudoku) (sols : List Sudoku) (h : Dlx.dlx π fuel s = .ok sols) (k : Nat)
    (hk : ∀ (a : Cell) (V : Finset Int), (∀ v ∈ V, Spec.Fits s.bw s.bh s.get a v) → V.card ≤ k) : sols.length ≤ k ^ s.empty.length := by
  classical
  let V : Cell → Finset Int := fun a => (Finset.Icc 1 ((s.bw * s.bh : Nat) : Int)).filter fun v => Spec.Fits s.bw s.bh s.get a v
  have h1 := C127_solutions π hπ fuel s sols h V (fun a v hf => Finset.mem_filter.2 ⟨Finset.mem_Icc.2 hf.2.2.1, hf⟩)
  have h2 : ∏ a ∈ s.empty.toFinset, (V a).card ≤ k ^ s.empty.toFinset.card :=
    Finset.prod_le_pow_card _ _ _ fun a _ => hk a _ fun v hv => (Finset.mem_filter.1 hv).2
  have h3 : s.empty.toFinset.card = s.empty.length := List.toFinset_card_of_nodup ((Sudoku.nodup_cells s).filter _)
  rw [h3] at h2
  omega

/-! ## Samples -/

/-- Four empty fields with two numbers each: nine calls, at most 31 are possible; two of at most 16 solutions. -/
example : (Sudoku.new 2 1).empty.length = 4 ∧ ∑ i ∈ Finset.range (4 + 1), 2 ^ i = 31 ∧
    (Dlx.dlxN plainOrders 5 (Sudoku.new 2 1)).toOption.map (fun q => (q.1.length, q.2)) = some (2, 9) := by decide +kernel
example : ∀ (a : Cell) (V : Finset Int), (∀ v ∈ V, Spec.Fits 2 1 (Sudoku.new 2 1).get a v) → V.card ≤ 2 := fits_card 2 1 _
example : ∃ q, Dlx.dlxN plainOrders 5 (Sudoku.new 2 1) = .ok q := by
  have h : (Dlx.dlxN plainOrders 5 (Sudoku.new 2 1)).toOption.isSome = true := by decide +kernel
  cases e : Dlx.dlxN plainOrders 5 (Sudoku.new 2 1) with
  | error x => rw [e] at h; cases h
  | ok q => exact ⟨q, rfl⟩

/-- Two empty fields with one number each: three calls. -/
private def diagonal : Sudoku := Sudoku.new 2 1 |>.setNumber (0, 0) 1 |>.setNumber (1, 1) 1
example : (Dlx.dlxN plainOrders 5 diagonal).toOption.map (fun q => (q.1.length, q.2)) = some (1, 3) ∧
    (Solve.bruteforceN upwards 5 diagonal).map (fun q => (q.1.length, q.2)) = some (1, 3) ∧ diagonal.empty.length = 2 := by decide +kernel
example : ∀ a u v, Spec.Fits diagonal.bw diagonal.bh diagonal.get a u → Spec.Fits diagonal.bw diagonal.bh diagonal.get a v → u = v := by
  have two : ∀ a u, Spec.Fits 2 1 diagonal.get a u → u = 2 := by
    rintro ⟨i, j⟩ u ⟨⟨hi, hj⟩, h0, ⟨h1, h2⟩, hp⟩
    have hi' : i = 0 ∨ i = 1 := by simp only at hi; omega
    have hj' : j = 0 ∨ j = 1 := by simp only at hj; omega
    have hu : u ≠ 1 := by
      rintro rfl
      rcases hi' with rfl | rfl <;> rcases hj' with rfl | rfl
      · exact absurd h0 (by decide)
      · exact hp (0, 0) (by decide) ⟨by decide, Or.inl rfl⟩ rfl
      · exact hp (0, 0) (by decide) ⟨by decide, Or.inr (Or.inl rfl)⟩ rfl
      · exact absurd h0 (by decide)
    omega
  exact fun a u v hu hv => (two a u hu).trans (two a v hv).symm

end Props
