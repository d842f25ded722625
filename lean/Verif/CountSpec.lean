import Verif.Spec
import Mathlib.Data.Int.Interval
import Mathlib.Order.Interval.Finset.Nat

set_option autoImplicit false

/-! # Specification: what does not occur among the filled fields of a grid -/

namespace Spec

/-- No filled field in row `r`. -/
def EmptyRow (w h : Nat) (s : Grid) (r : Nat) : Prop := ∀ c, c < w * h → s (r, c) = 0
/-- No filled field in column `c`. -/
def EmptyCol (w h : Nat) (s : Grid) (c : Nat) : Prop := ∀ r, r < w * h → s (r, c) = 0
/-- The number does not occur. -/
def Missing (w h : Nat) (s : Grid) (v : Int) : Prop := ∀ a, InGrid w h a → s a ≠ v

instance (w h : Nat) (s : Grid) (r : Nat) : Decidable (EmptyRow w h s r) := inferInstanceAs (Decidable (∀ c, c < w * h → s (r, c) = 0))
instance (w h : Nat) (s : Grid) (c : Nat) : Decidable (EmptyCol w h s c) := inferInstanceAs (Decidable (∀ r, r < w * h → s (r, c) = 0))

instance (w h : Nat) (s : Grid) (v : Int) : Decidable (Missing w h s v) :=
  decidable_of_iff (∀ r, r < w * h → ∀ c, c < w * h → s (r, c) ≠ v)
    ⟨fun hs a ha => hs a.1 ha.1 a.2 ha.2, fun hs r hr c hc => hs (r, c) ⟨hr, hc⟩⟩

/-- The numbers from `1` to `N` that do not occur. -/
def missingNumbers (w h : Nat) (s : Grid) : Finset Int := (Finset.Icc 1 ((w * h : Nat) : Int)).filter (Missing w h s)
/-- The empty rows through the row of boxes `b`. -/
def emptyRows (w h : Nat) (s : Grid) (b : Nat) : Finset Nat := (Finset.range (w * h)).filter fun r => r / h = b ∧ EmptyRow w h s r
/-- The empty columns through the column of boxes `b`. -/
def emptyCols (w h : Nat) (s : Grid) (b : Nat) : Finset Nat := (Finset.range (w * h)).filter fun c => c / w = b ∧ EmptyCol w h s c
/-- The rows of boxes that are empty; row `r` runs through the row of boxes `r / h`. -/
def emptyRowsOfBoxes (w h : Nat) (s : Grid) : Finset Nat :=
  ((Finset.range (w * h)).image (· / h)).filter fun b => ∀ r, r < w * h → r / h = b → EmptyRow w h s r
/-- The columns of boxes that are empty; column `c` runs through the column of boxes `c / w`. -/
def emptyColumnsOfBoxes (w h : Nat) (s : Grid) : Finset Nat :=
  ((Finset.range (w * h)).image (· / w)).filter fun b => ∀ c, c < w * h → c / w = b → EmptyCol w h s c

end Spec
