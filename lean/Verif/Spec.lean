set_option autoImplicit false

/-!
# Specification of sudoku

What the words "field", "peer", "solution", ... mean, independent of the code.
A sudoku with boxes of width `w` and height `h` has `w*h` rows, `w*h` columns and uses the numbers `1 .. w*h`.
`0` stands for an empty field.
-/

namespace Spec

/-- A field: (row, column), both counted from 0. -/
abbrev Cell := Nat × Nat

/-- The contents of all fields. -/
abbrev Grid := Cell → Int

/-- The field lies in the grid. -/
def InGrid (w h : Nat) (a : Cell) : Prop := a.1 < w * h ∧ a.2 < w * h

instance (w h : Nat) (a : Cell) : Decidable (InGrid w h a) := inferInstanceAs (Decidable (_ ∧ _))

def SameRow (a b : Cell) : Prop := a.1 = b.1
def SameCol (a b : Cell) : Prop := a.2 = b.2
/-- Boxes are `h` rows high and `w` columns wide. -/
def SameBox (w h : Nat) (a b : Cell) : Prop := a.1 / h = b.1 / h ∧ a.2 / w = b.2 / w

instance (a b : Cell) : Decidable (SameRow a b) := inferInstanceAs (Decidable (_ = _))
instance (a b : Cell) : Decidable (SameCol a b) := inferInstanceAs (Decidable (_ = _))
instance (w h : Nat) (a b : Cell) : Decidable (SameBox w h a b) := inferInstanceAs (Decidable (_ ∧ _))

/-- Two different fields sharing a row, a column or a box. -/
def Peer (w h : Nat) (a b : Cell) : Prop :=
  a ≠ b ∧ (SameRow a b ∨ SameCol a b ∨ SameBox w h a b)

instance (w h : Nat) (a b : Cell) : Decidable (Peer w h a b) := inferInstanceAs (Decidable (_ ∧ _))

/-- A legal number (not the empty mark). -/
def IsNumber (w h : Nat) (v : Int) : Prop := 1 ≤ v ∧ v ≤ (w * h : Nat)

/-- No two peers carry the same number. -/
def NoConflict (w h : Nat) (g : Grid) : Prop :=
  ∀ a b, InGrid w h a → InGrid w h b → Peer w h a b → g a ≠ 0 → g a ≠ g b

/-- `g` keeps all filled fields of `s`. -/
def Extends (w h : Nat) (s g : Grid) : Prop :=
  ∀ a, InGrid w h a → s a ≠ 0 → g a = s a

/-- `g` solves the puzzle `s`. -/
structure IsSolution (w h : Nat) (s g : Grid) : Prop where
  keeps : Extends w h s g
  full : ∀ a, InGrid w h a → IsNumber w h (g a)
  valid : NoConflict w h g

/-- `g` completes the puzzle `s`: like `IsSolution`, but the clues already in `s`
need not be legal numbers.  (Same thing if they are, see `completion_iff_solution`.) -/
structure IsCompletion (w h : Nat) (s g : Grid) : Prop where
  keeps : Extends w h s g
  full : ∀ a, InGrid w h a → s a = 0 → IsNumber w h (g a)
  valid : NoConflict w h g

/-- All clues are legal numbers. -/
def LegalClues (w h : Nat) (s : Grid) : Prop :=
  ∀ a, InGrid w h a → s a ≠ 0 → IsNumber w h (s a)

/-- Two grids show the same numbers. -/
def SameGrid (w h : Nat) (g g' : Grid) : Prop := ∀ a, InGrid w h a → g a = g' a

/-- The puzzle has exactly one solution. -/
def UniqueSolution (w h : Nat) (s : Grid) : Prop :=
  ∃ g, IsSolution w h s g ∧ ∀ g', IsSolution w h s g' → SameGrid w h g g'

/-- The puzzle has at least one solution. -/
def Solvable (w h : Nat) (s : Grid) : Prop := ∃ g, IsSolution w h s g

end Spec
