import Verif.FindSpec

set_option autoImplicit false

/-!
# Filling in forced numbers

Which numbers are forced in a grid, in terms of the numbers in it alone.
-/

namespace Spec

/-- The empty field `a` may get the number `v`: it is in none of the other fields of the row, the column and the box. -/
def Fits (w h : Nat) (t : Grid) (a : Cell) (v : Int) : Prop :=
  InGrid w h a ∧ t a = 0 ∧ IsNumber w h v ∧ ∀ b, InGrid w h b → Peer w h a b → t b ≠ v

/-- Some empty field may get only one number. -/
def OneNumber (w h : Nat) (t : Grid) : Prop := ∃ a v, Fits w h t a v ∧ ∀ u, Fits w h t a u → u = v

/-- Some number has only one place in a row, a column or a box. -/
def OneFits (w h : Nat) (t : Grid) : Prop := ∃ a v, Fits w h t a v ∧ ∃ k, ∀ b, Share w h k a b → Fits w h t b v → b = a

/-- `t` has the numbers of `s` and some of the further ones of `g`. -/
def Between (w h : Nat) (s t g : Grid) : Prop := ∀ a, InGrid w h a → (s a ≠ 0 → t a = s a) ∧ (t a = 0 ∨ t a = g a)

/-- Some field of `t` is empty. -/
def NotFull (w h : Nat) (t : Grid) : Prop := ∃ a, InGrid w h a ∧ t a = 0

end Spec
