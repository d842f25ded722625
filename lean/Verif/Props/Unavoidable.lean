import Verif.Proofs.Unavoidable
import Verif.Props.Generate

set_option autoImplicit false

/-!
# C121: sets of fields that must contain a clue
-/

open Spec Generate

namespace Props

/-- The full grid `g` can be changed into another full grid without conflicts by changing only fields of `X`. -/
def Unavoidable (w h : Nat) (g : Grid) (X : Cell → Prop) : Prop :=
  ∃ g', (∀ a, InGrid w h a → IsNumber w h (g' a)) ∧ NoConflict w h g' ∧ (∀ a, InGrid w h a → ¬ X a → g' a = g a) ∧
    ∃ a, InGrid w h a ∧ g' a ≠ g a

/-- Some field of `X` is filled. -/
def HasClue (w h : Nat) (s : Grid) (X : Cell → Prop) : Prop := ∃ a, InGrid w h a ∧ X a ∧ s a ≠ 0

theorem unique_iff_hits {w h : Nat} {s g : Grid} (hg : IsSolution w h s g) :
    UniqueSolution w h s ↔ ∀ X, Unavoidable w h g X → HasClue w h s X := by
  constructor
  · rintro ⟨g0, -, h2⟩ X ⟨g', k1, k2, k3, a, ha, k4⟩
    by_contra hno
    have hs : IsSolution w h s g' := by
      refine ⟨fun b hb h0 => ?_, k1, k2⟩
      rw [k3 b hb fun hX => hno ⟨b, hb, hX, h0⟩]
      exact hg.keeps b hb h0
    exact k4 ((h2 g' hs a ha).symm.trans (h2 g hg a ha))
  · intro H
    refine ⟨g, hg, fun g' hg' a ha => ?_⟩
    by_contra hne
    obtain ⟨b, hb, k1, k2⟩ := H (fun b => g' b ≠ g b) ⟨g', hg'.full, hg'.valid, fun b _ k => not_not.1 k, a, ha, fun e => hne e.symm⟩
    exact k1 ((hg'.keeps b hb k2).trans (hg.keeps b hb k2).symm)

/-- **C121** If `g` is a solution of `s`, `is_unique(s)` is true exactly if every set of fields in which `g` can be changed contains a clue. -/
theorem C121_is_unique (π : Dlx.Orders) (hπ : π.Ok) (fuel : Nat) (s : Sudoku) (hf : s.empty.length < fuel) (g : Grid)
    (hg : IsSolution s.bw s.bh s.get g) :
    ∃ b, Dlx.isUnique π fuel s = .ok b ∧ (b = true ↔ ∀ X, Unavoidable s.bw s.bh g X → HasClue s.bw s.bh s.get X) := by
  obtain ⟨b, h1, h2⟩ := C22_is_unique π hπ fuel s hf
  exact ⟨b, h1, h2.trans (unique_iff_hits hg)⟩

/-- **C121** Every result of `generate` contains a clue in each such set of the solution it was made from. -/
theorem C121_generate {w h : Nat} (e : Env w h) (minCount : Int) (symmetry : Option String) (t : Sudoku)
    (ht : e.generate minCount symmetry = .ok (some t)) :
    ∃ sol, createSolution e.π e.fuel e.c w h = .ok sol ∧ IsSolution w h t.get sol.get ∧
      ∀ X, Unavoidable w h sol.get X → HasClue w h t.get X := by
  obtain ⟨-, sol, h1, h2, h3⟩ := C35_unique e minCount symmetry t ht
  exact ⟨sol, h1, h2, (unique_iff_hits h2).1 ⟨sol.get, h2, h3⟩⟩

/-- **C121** Without symmetry and minimum, each clue of the result is the only clue of such a set. -/
theorem C121_needed {w h : Nat} (e : Env w h) (minCount : Int) (hm : minCount ≤ 0) (t : Sudoku)
    (ht : e.generate minCount none = .ok (some t)) :
    ∃ sol, createSolution e.π e.fuel e.c w h = .ok sol ∧ IsSolution w h t.get sol.get ∧
      ∀ a, InGrid w h a → t.get a ≠ 0 → ∃ X, Unavoidable w h sol.get X ∧ ∀ b, InGrid w h b → (X b ∧ t.get b ≠ 0 ↔ b = a) := by
  obtain ⟨-, sol, h1, h2, h3⟩ := C35_unique e minCount none t ht
  refine ⟨sol, h1, h2, fun a ha h0 => ?_⟩
  have hir := C38_irreducible e minCount hm none t ht
  have hno : ¬ UniqueSolution w h (fun b => if b = a then 0 else t.get b) := by
    have := hir (fun b => decide (b = a)) ⟨by simp, by simp, by simp, by simp, by simp⟩ ⟨a, ha, by simp, h0⟩
    simpa using this
  have hsol : IsSolution w h (fun b => if b = a then 0 else t.get b) sol.get := by
    refine ⟨fun b hb hb0 => ?_, h2.full, h2.valid⟩
    by_cases e : b = a
    · exact absurd (if_pos e) hb0
    · rw [if_neg e] at hb0 ⊢; exact h2.keeps b hb hb0
  rw [unique_iff_hits hsol] at hno
  push Not at hno
  obtain ⟨X, hX, hX'⟩ := hno
  have other : ∀ b, InGrid w h b → X b → t.get b ≠ 0 → b = a := by
    intro b hb k1 k2
    by_contra e
    exact hX' ⟨b, hb, k1, by simp only; rw [if_neg e]; exact k2⟩
  refine ⟨X, hX, fun b hb => ⟨fun k => other b hb k.1 k.2, ?_⟩⟩
  rintro rfl
  obtain ⟨c, hc, k1, k2⟩ := (unique_iff_hits h2).1 ⟨sol.get, h2, h3⟩ X hX
  exact ⟨other c hc k1 k2 ▸ k1, h0⟩

/-! ## Examples of such sets -/

section
variable {w h : Nat} {g : Grid} (hg : IsSolution w h (fun _ => 0) g)
include hg

/-- **C121** Two rows through the same boxes, in columns `C` where they have the same numbers (in another order). -/
theorem C121_rows {r r' : Nat} (hr : r < w * h) (hr' : r' < w * h) (hne : r ≠ r') (hband : r / h = r' / h) (C : Nat → Bool)
    (hC : ∃ c, c < w * h ∧ C c = true)
    (h1 : ∀ c, c < w * h → C c = true → ∃ c', c' < w * h ∧ C c' = true ∧ g (r, c) = g (r', c'))
    (h2 : ∀ c, c < w * h → C c = true → ∃ c', c' < w * h ∧ C c' = true ∧ g (r', c) = g (r, c')) :
    Unavoidable w h g fun a => (a.1 = r ∨ a.1 = r') ∧ C a.2 = true := by
  refine ⟨fun a => g (swapRows r r' C a), ?_, swapRows_valid hg.full hg.valid hr hr' hne hband h1 h2, ?_, ?_⟩
  · rintro ⟨i, j⟩ ⟨k1, k2⟩
    refine hg.full _ ?_
    unfold swapRows InGrid
    simp only at *
    split
    · split
      · exact ⟨hr', k2⟩
      · split
        · exact ⟨hr, k2⟩
        · exact ⟨k1, k2⟩
    · exact ⟨k1, k2⟩
  · rintro ⟨i, j⟩ - hX
    simp only [not_and] at hX
    simp only [swapRows]
    split
    · rename_i k
      rw [if_neg fun e => hX (Or.inl e) k, if_neg fun e => hX (Or.inr e) k]
    · rfl
  · obtain ⟨c, hc, hCc⟩ := hC
    refine ⟨(r, c), ⟨hr, hc⟩, ?_⟩
    simp only [swapRows, if_pos hCc, if_true]
    exact hg.valid.ne hg.full ⟨hr', hc⟩ ⟨hr, hc⟩ ⟨fun e => hne (Prod.mk.inj e).1.symm, Or.inr (Or.inl rfl)⟩

/-- **C121** Two columns through the same boxes, in rows `R` where they have the same numbers. -/
theorem C121_columns {c c' : Nat} (hc : c < w * h) (hc' : c' < w * h) (hne : c ≠ c') (hstack : c / w = c' / w) (R : Nat → Bool)
    (hR : ∃ r, r < w * h ∧ R r = true)
    (h1 : ∀ r, r < w * h → R r = true → ∃ r', r' < w * h ∧ R r' = true ∧ g (r, c) = g (r', c'))
    (h2 : ∀ r, r < w * h → R r = true → ∃ r', r' < w * h ∧ R r' = true ∧ g (r, c') = g (r', c)) :
    Unavoidable w h g fun a => (a.2 = c ∨ a.2 = c') ∧ R a.1 = true := by
  refine ⟨fun a => g (swapCols c c' R a), ?_, swapCols_valid hg.full hg.valid hc hc' hne hstack h1 h2, ?_, ?_⟩
  · rintro ⟨i, j⟩ ⟨k1, k2⟩
    refine hg.full _ ?_
    unfold swapCols InGrid
    simp only at *
    split
    · split
      · exact ⟨k1, hc'⟩
      · split
        · exact ⟨k1, hc⟩
        · exact ⟨k1, k2⟩
    · exact ⟨k1, k2⟩
  · rintro ⟨i, j⟩ - hX
    simp only [not_and] at hX
    simp only [swapCols]
    split
    · rename_i k
      rw [if_neg fun e => hX (Or.inl e) k, if_neg fun e => hX (Or.inr e) k]
    · rfl
  · obtain ⟨r, hr, hRr⟩ := hR
    refine ⟨(r, c), ⟨hr, hc⟩, ?_⟩
    simp only [swapCols, if_pos hRr, if_true]
    exact hg.valid.ne hg.full ⟨hr, hc'⟩ ⟨hr, hc⟩ ⟨fun e => hne (Prod.mk.inj e).2.symm, Or.inl rfl⟩

/-- **C121** Fields with two numbers, containing with each field its peers with these numbers. -/
theorem C121_numbers {u v : Int} (hu : IsNumber w h u) (hv : IsNumber w h v) (huv : u ≠ v) (X : Cell → Bool)
    (hne : ∃ a, InGrid w h a ∧ X a = true) (hX : ∀ a, X a = true → g a = u ∨ g a = v)
    (hcl : ∀ a b, InGrid w h a → InGrid w h b → X a = true → Peer w h a b → (g b = u ∨ g b = v) → X b = true) :
    Unavoidable w h g fun a => X a = true := by
  refine ⟨swapNumbers u v X g, ?_, swapNumbers_valid hg.full hg.valid huv hX hcl, ?_, ?_⟩
  · intro a ha
    unfold swapNumbers
    split
    · split
      · exact hv
      · split
        · exact hu
        · exact hg.full a ha
    · exact hg.full a ha
  · intro a _ k
    unfold swapNumbers
    rw [if_neg k]
  · obtain ⟨a, ha, k⟩ := hne
    refine ⟨a, ha, ?_⟩
    unfold swapNumbers
    rw [if_pos k]
    rcases hX a k with e | e
    · rw [if_pos e, e]; exact huv.symm
    · rw [e, if_neg huv.symm, if_pos rfl]; exact huv

/-- **C121** The corners of a rectangle that lies in two rows through the same boxes, with only two numbers. -/
theorem C121_rectangle {r r' c c' : Nat} (hr : r < w * h) (hr' : r' < w * h) (hc : c < w * h) (hc' : c' < w * h) (hne : r ≠ r')
    (hband : r / h = r' / h) (h1 : g (r, c) = g (r', c')) (h2 : g (r, c') = g (r', c)) :
    Unavoidable w h g fun a => a ∈ [(r, c), (r, c'), (r', c), (r', c')] := by
  obtain ⟨g', k1, k2, k3, k4⟩ := C121_rows hg hr hr' hne hband (fun j => decide (j = c ∨ j = c')) ⟨c, hc, by simp⟩ (by
    intro j _ hj
    rcases of_decide_eq_true hj with rfl | rfl
    · exact ⟨c', hc', by simp, h1⟩
    · exact ⟨c, hc, by simp, h2⟩) (by
    intro j _ hj
    rcases of_decide_eq_true hj with rfl | rfl
    · exact ⟨c', hc', by simp, h2.symm⟩
    · exact ⟨c, hc, by simp, h1.symm⟩)
  refine ⟨g', k1, k2, fun a ha hn => k3 a ha fun hX => hn ?_, k4⟩
  obtain ⟨i, j⟩ := a
  obtain ⟨hi, hj⟩ := hX
  have hi : i = r ∨ i = r' := hi
  rcases hi with rfl | rfl <;> rcases of_decide_eq_true hj with e | e <;> (have e : j = _ := e; subst e; simp)

end

/-! ## Samples -/

/-- A 4x4 grid: in the first two rows, columns 0 and 2 form a rectangle with the numbers 1 and 3. -/
def ringGrid : Grid := fun a => ([[1, 2, 3, 4], [3, 4, 1, 2], [2, 1, 4, 3], [4, 3, 2, 1]].getD a.1 []).getD a.2 0

private theorem in22 {a : Cell} (ha : InGrid 2 2 a) : a ∈ (Sudoku.new 2 2).cells := (Sudoku.mem_cells (Sudoku.new 2 2)).2 ha

theorem ringGrid_solution : IsSolution 2 2 (fun _ => 0) ringGrid := by
  refine ⟨fun _ _ h => absurd rfl h, ?_, ?_⟩
  · intro a ha
    have : ∀ a ∈ (Sudoku.new 2 2).cells, 1 ≤ ringGrid a ∧ ringGrid a ≤ 4 := by decide +kernel
    exact this a (in22 ha)
  · intro a b ha hb hp _
    have : ∀ a ∈ (Sudoku.new 2 2).cells, ∀ b ∈ (Sudoku.new 2 2).cells, Peer 2 2 a b → ringGrid a ≠ ringGrid b := by decide +kernel
    exact this a (in22 ha) b (in22 hb) hp

example : Unavoidable 2 2 ringGrid fun a => a ∈ [(0, 0), (0, 2), (1, 0), (1, 2)] :=
  C121_rectangle ringGrid_solution (by decide) (by decide) (by decide) (by decide) (by decide) (by decide) (by decide) (by decide)

example : Unavoidable 2 2 ringGrid fun a => (a.1 = 0 ∨ a.1 = 1) ∧ (fun c => decide (c = 1 ∨ c = 3)) a.2 = true :=
  C121_rows ringGrid_solution (by decide) (by decide) (by decide) (by decide) (fun c => decide (c = 1 ∨ c = 3)) (by decide) (by decide) (by decide)

example : Unavoidable 2 2 ringGrid fun a => (a.2 = 0 ∨ a.2 = 1) ∧ (fun c => decide (c = 0 ∨ c = 2)) a.1 = true :=
  C121_columns ringGrid_solution (by decide) (by decide) (by decide) (by decide) (fun c => decide (c = 0 ∨ c = 2)) (by decide) (by decide) (by decide)

/-- All fields with 1 or 2, as in C102. -/
example : Unavoidable 2 2 ringGrid fun a => (fun a => decide (ringGrid a = 1 ∨ ringGrid a = 2)) a = true :=
  C121_numbers ringGrid_solution (u := 1) (v := 2) (by decide) (by decide) (by decide) _ ⟨(0, 0), by decide, by decide⟩
    (fun _ h => of_decide_eq_true h) (fun _ _ _ _ _ _ h => decide_eq_true h)

/-- If the four corners are empty, `is_unique` is false. -/
def openCorners : Sudoku :=
  { Sudoku.new 2 2 with num := fun a => ([[0, 2, 0, 4], [0, 4, 0, 2], [2, 1, 4, 3], [4, 3, 2, 1]].getD a.1 []).getD a.2 0 }
example : (Dlx.isUnique plainOrders 20 openCorners).toOption = some false := by decide +kernel
/-- One clue there is enough. -/
example : (Dlx.isUnique plainOrders 20 (openCorners.setNumber (0, 0) 1)).toOption = some true := by decide +kernel

/-- `generate` in a world where the dice always fall in the same way. -/
example := fun t => C121_generate (plainEnv 2 1 (by decide) (by decide)) 0 none t
example := fun t => C121_needed (plainEnv 2 1 (by decide) (by decide)) 0 (by decide) t

end Props
