import Verif.Proofs.Lazy

set_option autoImplicit false

/-!
# Loops over `empty()`, `filled()`, `diff()` and `find_conflicts()` that change the sudoku (C100)

`S` is the state of the program, `num s` the numbers of the sudoku in state `s`, `body` the body of the loop (`none`: the loop is left).
-/

open Spec Lazy

namespace Props

variable {S : Type}

/-- The loop was done for all of `l`, or was left, having got the first ones of them. -/
def Looped {Y : Type} (r : List Y × S × Bool) (l : List Y) : Prop := (r.2.2 = true ∧ r.1 = l) ∨ (r.2.2 = false ∧ r.1 <+: l)

/-- `b` comes after `a` in the order by row, then by column. -/
def Later (a b : Cell) : Prop := a.1 < b.1 ∨ a.1 = b.1 ∧ a.2 < b.2

section
variable (num other : S → Grid) (body : S → Cell → Option S)

/-- **C100** Whatever the loop does, it gets fields of the grid, in order, each at most once. -/
theorem C100_order (w h : Nat) (s : S) :
    ∀ l ∈ [(empty num w h body s).1, (filled num w h body s).1, (diff num other w h body s).1],
      l.Pairwise Later ∧ ∀ a ∈ l, InGrid w h a := by
  have hl : ∀ p : S → Cell → Bool, (filterLoop p body (Sudoku.new w h).cells s).1.Pairwise Later ∧
      ∀ a ∈ (filterLoop p body (Sudoku.new w h).cells s).1, InGrid w h a := fun p =>
    ⟨(before_cells _).sublist (filterLoop_sublist _ s), fun a ha => ((Sudoku.new w h).mem_cells).1 ((filterLoop_sublist _ s).subset ha)⟩
  intro l hm
  simp only [List.mem_cons, List.not_mem_nil, or_false] at hm
  rcases hm with rfl | rfl | rfl
  · exact hl _
  · exact hl _
  · exact hl _

/-- **C100** A loop that changes no field after the one it is at (it may write to this field and to those before) gets the fields that were
empty, filled, different at the beginning. -/
theorem C100_same (s : S) (t u : Sudoku) (ht : num s = t.get) (hu : other s = u.get)
    (hb : ∀ s a s' b, body s a = some s' → Later a b → num s' b = num s b ∧ other s' b = other s b) :
    Looped (empty num t.bw t.bh body s) t.empty ∧ Looped (filled num t.bw t.bh body s) t.filled ∧
      Looped (diff num other t.bw t.bh body s) (t.diff u) := by
  refine ⟨?_, ?_, ?_⟩
  · have h := filterLoop_same (p := fun s a => num s a == 0) (body := body) t.cells (before_cells t)
      (fun s a s' b h hab => by simp only [(hb s a s' b h hab).1]) s
    rw [ht] at h
    exact h
  · have h := filterLoop_same (p := fun s a => num s a != 0) (body := body) t.cells (before_cells t)
      (fun s a s' b h hab => by simp only [(hb s a s' b h hab).1]) s
    rw [ht] at h
    exact h
  · have h := filterLoop_same (p := fun s a => num s a != other s a) (body := body) t.cells (before_cells t)
      (fun s a s' b h hab => by simp only [(hb s a s' b h hab).1, (hb s a s' b h hab).2]) s
    rw [ht, hu] at h
    exact h

/-- **C100** A loop over `empty()` that fills each field it gets, and empties none, leaves no field empty. -/
theorem C100_fill (w h : Nat) (s : S) (hdone : ∀ s a s', body s a = some s' → num s' a ≠ 0)
    (hkeep : ∀ s a s' b, body s a = some s' → num s b ≠ 0 → num s' b ≠ 0) (hx : (empty num w h body s).2.2 = true) :
    ∀ a, InGrid w h a → num (empty num w h body s).2.1 a ≠ 0 := by
  have hl := filterLoop_none (p := fun s a => num s a == 0) (body := body) (fun _ => True) (fun _ _ _ _ _ => trivial)
    (fun s a s' _ h => by simpa using hdone s a s' h) (fun s a s' b _ h h0 => by simpa using hkeep s a s' b h (by simpa using h0))
    (Sudoku.new w h).cells s trivial hx
  intro a ha
  have ha := hl.1 a (((Sudoku.new w h).mem_cells).2 ha)
  simp only [beq_eq_false_iff_ne] at ha
  exact ha

/-- **C100** A loop over `filled()` that empties each field it gets, and fills none, leaves an empty sudoku. -/
theorem C100_clear (w h : Nat) (s : S) (hdone : ∀ s a s', body s a = some s' → num s' a = 0)
    (hkeep : ∀ s a s' b, body s a = some s' → num s b = 0 → num s' b = 0) (hx : (filled num w h body s).2.2 = true) :
    ∀ a, InGrid w h a → num (filled num w h body s).2.1 a = 0 := by
  have hl := filterLoop_none (p := fun s a => num s a != 0) (body := body) (fun _ => True) (fun _ _ _ _ _ => trivial)
    (fun s a s' _ h => by simpa using hdone s a s' h) (fun s a s' b _ h h0 => by simpa using hkeep s a s' b h (by simpa using h0))
    (Sudoku.new w h).cells s trivial hx
  intro a ha
  have ha := hl.1 a (((Sudoku.new w h).mem_cells).2 ha)
  simp only [bne_eq_false_iff_eq] at ha
  exact ha

/-- **C100** A loop over `diff(other)` that makes each field it gets equal, and no others different, leaves equal sudokus. -/
theorem C100_align (w h : Nat) (s : S) (hdone : ∀ s a s', body s a = some s' → num s' a = other s' a)
    (hkeep : ∀ s a s' b, body s a = some s' → num s b = other s b → num s' b = other s' b) (hx : (diff num other w h body s).2.2 = true) :
    SameGrid w h (num (diff num other w h body s).2.1) (other (diff num other w h body s).2.1) := by
  have hl := filterLoop_none (p := fun s a => num s a != other s a) (body := body) (fun _ => True) (fun _ _ _ _ _ => trivial)
    (fun s a s' _ h => by simpa using hdone s a s' h) (fun s a s' b _ h h0 => by simpa using hkeep s a s' b h (by simpa using h0))
    (Sudoku.new w h).cells s trivial hx
  intro a ha
  have ha := hl.1 a (((Sudoku.new w h).mem_cells).2 ha)
  simp only [bne_eq_false_iff_eq] at ha
  exact ha

end

section
variable (num : S → Grid) (body : S → Cell × Cell × Int → Option S)

/-- **C100** A loop over `find_conflicts` that does not change the numbers gets the conflicts there are (`C15`). -/
theorem C100_conflicts_same (s : S) (t : Sudoku) (ht : num s = t.get) (coords : List Cell) (hb : ∀ s y s', body s y = some s' → num s' = num s) :
    Looped (findConflicts num t.bw t.bh body coords s) (Solve.findConflicts t coords) :=
  conflictsLoop_same hb t _ s ht

/-- **C100** A loop over all conflicts that resolves each conflict it gets leaves none, if each number it writes is without conflict. -/
theorem C100_resolve (w h : Nat) (s : S)
    (hdone : ∀ s a b v s', body s (a, b, v) = some s' → num s' a = 0 ∨ num s' b = 0 ∨ num s' a ≠ num s' b)
    (hwrite : ∀ s y s' a b, body s y = some s' → InGrid w h a → InGrid w h b → Peer w h a b → num s' a ≠ num s a → num s' a ≠ 0 → num s' a ≠ num s' b)
    (hx : (findConflicts num w h body [] s).2.2 = true) : NoConflict w h (num (findConflicts num w h body [] s).2.1) := by
  have hl := conflictsLoop_none (num := num) (w := w) (h := h) (cbody := body) (fun _ => True) (fun _ _ _ _ _ => trivial)
    (fun s y s' _ hy a b hne c => hwrite s y s' a b hy c.1 c.2.1 c.2.2.1 hne c.2.2.2.1 c.2.2.2.2)
    (fun s a b v s' _ hy c => by
      rcases hdone s a b v s' hy with h | h | h
      · exact c.2.2.2.1 h
      · exact c.2.2.2.1 (c.2.2.2.2.trans h)
      · exact h c.2.2.2.2) (Sudoku.new w h).cells s trivial hx
  intro a b ha hb hp h0 he
  exact hl.2.1 a (((Sudoku.new w h).mem_cells).2 ha) b ⟨ha, hb, hp, h0, he⟩

end

/-! ### Samples -/

/-- Writing a number. -/
def put (g : Grid) (a : Cell) (v : Int) : Grid := Function.update g a v

/-- `for row, col in sudoku.empty(): sudoku[row, col] = 5`. -/
def fillFive (g : Grid) (a : Cell) : Option Grid := some (put g a 5)

example (g : Grid) (w h : Nat) (hx : (empty id w h fillFive g).2.2 = true) : ∀ a, InGrid w h a → (empty id w h fillFive g).2.1 a ≠ 0 := by
  refine C100_fill id fillFive w h g ?_ ?_ hx
  · rintro s a s' ⟨⟩; simp [put]
  · rintro s a s' b ⟨⟩ hb
    by_cases e : b = a
    · subst e; simp [put]
    · simpa [put, Function.update_of_ne e] using hb

/-- `for a, b, value in find_conflicts(sudoku): sudoku[a] = 0`. -/
def clearFirst (g : Grid) (y : Cell × Cell × Int) : Option Grid := some (put g y.1 0)

/-- `for a, b, value in find_conflicts(sudoku): sudoku[b] = 0`. -/
def clearSecond (g : Grid) (y : Cell × Cell × Int) : Option Grid := some (put g y.2.1 0)

theorem clearing (g : Grid) (c a : Cell) (hne : put g c 0 a ≠ g a) : put g c 0 a = 0 := by
  by_cases e : a = c
  · subst e; simp [put]
  · exact absurd (Function.update_of_ne e _ _) hne

/-- **C100** So both of these loops leave a sudoku without conflicts. -/
theorem C100_clear_conflicts (w h : Nat) (g : Grid) :
    ((findConflicts id w h clearFirst [] g).2.2 = true → NoConflict w h (findConflicts id w h clearFirst [] g).2.1) ∧
    ((findConflicts id w h clearSecond [] g).2.2 = true → NoConflict w h (findConflicts id w h clearSecond [] g).2.1) := by
  refine ⟨C100_resolve id clearFirst w h g ?_ ?_, C100_resolve id clearSecond w h g ?_ ?_⟩
  · rintro s a b v s' ⟨⟩; exact Or.inl (by simp [put])
  · rintro s y s' a b ⟨⟩ _ _ _ hne h0; exact absurd (clearing _ _ _ hne) h0
  · rintro s a b v s' ⟨⟩; exact Or.inr (Or.inl (by simp [put]))
  · rintro s y s' a b ⟨⟩ _ _ _ hne h0; exact absurd (clearing _ _ _ hne) h0

/-- A row with three ones. -/
def threeOnes : Grid := fun a => if a.1 = 0 ∧ a.2 < 3 then 1 else 0

/-- **C100** The number of the first field is read once: a loop that empties it gets "conflicts" of this field that are not there any more. -/
theorem C100_stale :
    (findConflicts id 2 2 clearFirst [] threeOnes).1 = [((0,0),(0,1),1), ((0,0),(0,2),1), ((0,1),(0,2),1)] ∧
    (findConflicts id 2 2 (fun g y => if g y.1 = g y.2.1 then clearFirst g y else none) [] threeOnes).1 = [((0,0),(0,1),1), ((0,0),(0,2),1)] := by
  decide

/-- **C100** A field that a loop over `empty()` empties later on is visited, one that it fills later on is not. -/
theorem C100_ahead : (empty id 2 1 (fun g _ => some (put g (0, 1) 1)) fun _ => 0).1 = [(0,0), (1,0), (1,1)] ∧
    (empty id 2 1 (fun g _ => some (put g (1, 1) 0)) (fun a => if a = (1,1) then 2 else 0)).1 = [(0,0), (0,1), (1,0), (1,1)] := by decide

end Props
