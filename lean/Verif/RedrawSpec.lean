import Verif.FindSpec
import Mathlib.Logic.Equiv.Defs
import Mathlib.Logic.Equiv.Prod

set_option autoImplicit false

/-!
# Redrawing a sudoku

Other drawings of the same sudoku: with other symbols, rows and columns exchanged, or rows (columns) permuted such that the boxes are kept.
-/

namespace Spec

/-- Exchange rows and columns if `flip`. -/
def Line.turn (flip : Bool) : Line → Line
  | .row => if flip then .column else .row
  | .column => if flip then .row else .column
  | .box => .box

/-- Where the fields go, what the numbers become.  `flip`: rows become columns. -/
structure Redrawing (w h w' h' : Nat) where
  field : Cell ≃ Cell
  number : Int ≃ Int
  flip : Bool
  inGrid : ∀ a, InGrid w' h' (field a) ↔ InGrid w h a
  share : ∀ k a b, InGrid w h a → InGrid w h b → (Share w' h' (k.turn flip) (field a) (field b) ↔ Share w h k a b)
  zero : number 0 = 0
  isNumber : ∀ v, IsNumber w' h' (number v) ↔ IsNumber w h v

/-- `t` is `s`, redrawn. -/
structure Redrawing.Shows {w h w' h' : Nat} (σ : Redrawing w h w' h') (s t : Sudoku) : Prop where
  bw : s.bw = w
  bh : s.bh = h
  bw' : t.bw = w'
  bh' : t.bh = h'
  get : ∀ a, InGrid w h a → t.get (σ.field a) = σ.number (s.get a)

/-- Rows become columns. -/
def transposition (w h : Nat) : Redrawing w h h w where
  field := Equiv.prodComm Nat Nat
  number := Equiv.refl Int
  flip := true
  inGrid a := by simp only [InGrid, Equiv.prodComm_apply, Prod.fst_swap, Prod.snd_swap, Nat.mul_comm h w]; exact and_comm
  share k a b _ _ := by
    cases k
    · exact Iff.rfl
    · exact Iff.rfl
    · exact and_comm
  zero := rfl
  isNumber v := by simp only [IsNumber, Equiv.refl_apply, Nat.mul_comm h w]

/-- Other symbols. -/
def relabelling (w h : Nat) (ρ : Int ≃ Int) (h0 : ρ 0 = 0) (hρ : ∀ v, IsNumber w h (ρ v) ↔ IsNumber w h v) : Redrawing w h w h where
  field := Equiv.refl Cell
  number := ρ
  flip := false
  inGrid _ := Iff.rfl
  share k a b _ _ := by cases k <;> exact Iff.rfl
  zero := h0
  isNumber := hρ

/-- Row `r` becomes row `σ r`, column `c` becomes column `τ c`; rows that run through the same boxes still do so, likewise for columns. -/
def permutation (w h : Nat) (σ τ : Nat ≃ Nat) (hσ : ∀ r, σ r < w * h ↔ r < w * h) (hτ : ∀ c, τ c < w * h ↔ c < w * h)
    (hσ' : ∀ q r, q < w * h → r < w * h → (σ q / h = σ r / h ↔ q / h = r / h))
    (hτ' : ∀ c d, c < w * h → d < w * h → (τ c / w = τ d / w ↔ c / w = d / w)) : Redrawing w h w h where
  field := Equiv.prodCongr σ τ
  number := Equiv.refl Int
  flip := false
  inGrid a := and_congr (hσ a.1) (hτ a.2)
  share k a b ha hb := by
    cases k
    · exact σ.injective.eq_iff
    · exact τ.injective.eq_iff
    · exact and_congr (hσ' _ _ ha.1 hb.1) (hτ' _ _ ha.2 hb.2)
  zero := rfl
  isNumber _ := Iff.rfl

/-- Back. -/
def Redrawing.symm {w h w' h' : Nat} (σ : Redrawing w h w' h') : Redrawing w' h' w h where
  field := σ.field.symm
  number := σ.number.symm
  flip := σ.flip
  inGrid a := by rw [← σ.inGrid, Equiv.apply_symm_apply]
  share k a b ha hb := by
    have ha' : InGrid w h (σ.field.symm a) := by rw [← σ.inGrid, Equiv.apply_symm_apply]; exact ha
    have hb' : InGrid w h (σ.field.symm b) := by rw [← σ.inGrid, Equiv.apply_symm_apply]; exact hb
    rw [← σ.share (k.turn σ.flip) _ _ ha' hb', Equiv.apply_symm_apply, Equiv.apply_symm_apply]
    rw [show (k.turn σ.flip).turn σ.flip = k by cases k <;> cases σ.flip <;> rfl]
  zero := by rw [Equiv.symm_apply_eq, σ.zero]
  isNumber v := by rw [← σ.isNumber, Equiv.apply_symm_apply]

/-- One after the other. -/
def Redrawing.trans {w h w' h' w'' h'' : Nat} (σ : Redrawing w h w' h') (τ : Redrawing w' h' w'' h'') : Redrawing w h w'' h'' where
  field := σ.field.trans τ.field
  number := σ.number.trans τ.number
  flip := xor σ.flip τ.flip
  inGrid a := (τ.inGrid _).trans (σ.inGrid a)
  share k a b ha hb := by
    rw [← σ.share k a b ha hb, ← τ.share _ _ _ ((σ.inGrid a).2 ha) ((σ.inGrid b).2 hb)]
    rw [show k.turn (xor σ.flip τ.flip) = (k.turn σ.flip).turn τ.flip by cases k <;> cases σ.flip <;> cases τ.flip <;> rfl]
    rfl
  zero := by rw [Equiv.trans_apply, σ.zero, τ.zero]
  isNumber v := (τ.isNumber _).trans (σ.isNumber v)

end Spec
