import Verif.Spec
import Mathlib.Logic.Basic

set_option autoImplicit false

/-! Helper lemmas for C121: grids changed in some fields. -/

open Spec

namespace Spec

theorem NoConflict.ne {w h : Nat} {g : Grid} (hv : NoConflict w h g) (hfull : ∀ a, InGrid w h a → IsNumber w h (g a)) {a b : Cell}
    (ha : InGrid w h a) (hb : InGrid w h b) (hp : Peer w h a b) : g a ≠ g b :=
  hv a b ha hb hp (by have := (hfull a ha).1; omega)

/-- Two rows exchanged in the columns of `C`. -/
def swapRows (r r' : Nat) (C : Nat → Bool) (a : Cell) : Cell :=
  if C a.2 = true then (if a.1 = r then (r', a.2) else if a.1 = r' then (r, a.2) else a) else a

/-- Two columns exchanged in the rows of `R`. -/
def swapCols (c c' : Nat) (R : Nat → Bool) (a : Cell) : Cell :=
  if R a.1 = true then (if a.2 = c then (a.1, c') else if a.2 = c' then (a.1, c) else a) else a

/-- The numbers `u` and `v` exchanged in the fields of `X`. -/
def swapNumbers (u v : Int) (X : Cell → Bool) (g : Grid) : Grid := fun a =>
  if X a = true then (if g a = u then v else if g a = v then u else g a) else g a

section
variable {w h : Nat} {g : Grid} (hfull : ∀ a, InGrid w h a → IsNumber w h (g a)) (hv : NoConflict w h g)
include hfull hv

theorem swapRows_valid {r r' : Nat} (hr : r < w * h) (hr' : r' < w * h) (hne : r ≠ r') (hband : r / h = r' / h) {C : Nat → Bool}
    (h1 : ∀ c, c < w * h → C c = true → ∃ c', c' < w * h ∧ C c' = true ∧ g (r, c) = g (r', c'))
    (h2 : ∀ c, c < w * h → C c = true → ∃ c', c' < w * h ∧ C c' = true ∧ g (r', c) = g (r, c')) :
    NoConflict w h fun a => g (swapRows r r' C a) := by
  have inGrid : ∀ a, InGrid w h a → InGrid w h (swapRows r r' C a) := by
    rintro ⟨i, j⟩ ⟨k1, k2⟩
    unfold swapRows InGrid
    simp only at *
    split
    · split
      · exact ⟨hr', k2⟩
      · split
        · exact ⟨hr, k2⟩
        · exact ⟨k1, k2⟩
    · exact ⟨k1, k2⟩
  have inj : ∀ a b, swapRows r r' C a = swapRows r r' C b → a = b := by
    rintro ⟨i, j⟩ ⟨i', j'⟩
    unfold swapRows
    simp only
    intro e
    have ej : j = j' := by
      have := congrArg Prod.snd e
      revert this
      split <;> split <;> (try split) <;> (try split) <;> (try split) <;> (try split) <;> exact id
    subst ej
    by_cases hc : C j = true
    · simp only [if_pos hc] at e
      have e1 := congrArg Prod.fst e
      rw [Prod.mk.injEq]
      refine ⟨?_, rfl⟩
      revert e1
      split <;> split <;> (try split) <;> (try split) <;> simp only <;> omega
    · simp only [if_neg hc] at e; exact e
  have col : ∀ a, (swapRows r r' C a).2 = a.2 := by
    intro a; unfold swapRows; split
    · split
      · rfl
      · split <;> rfl
    · rfl
  have band : ∀ a, (swapRows r r' C a).1 / h = a.1 / h := by
    intro a; unfold swapRows; split
    · split
      · rename_i e; simp only; rw [e, hband]
      · split
        · rename_i e; simp only; rw [e, hband]
        · rfl
    · rfl
  -- one of the columns is exchanged, the other one is not
  have mixed : ∀ i j j', i < w * h → j < w * h → j' < w * h → C j = true → ¬ C j' = true →
      g (swapRows r r' C (i, j)) ≠ g (swapRows r r' C (i, j')) := by
    intro i j j' hi hj hj' hc hc'
    have hjj : j ≠ j' := fun e => hc' (e ▸ hc)
    unfold swapRows
    simp only [if_pos hc, if_neg hc']
    have row : ∀ i c, i < w * h → c < w * h → C c = true → g (i, c) ≠ g (i, j') := fun i c hi hc1 hc2 =>
      hv.ne hfull ⟨hi, hc1⟩ ⟨hi, hj'⟩ ⟨fun e => hc' ((Prod.mk.inj e).2 ▸ hc2), Or.inl rfl⟩
    split
    · rename_i e; subst e
      obtain ⟨c, k1, k2, k3⟩ := h2 j hj hc
      rw [k3]; exact row i c hi k1 k2
    · split
      · rename_i e; subst e
        obtain ⟨c, k1, k2, k3⟩ := h1 j hj hc
        rw [k3]; exact row i c hi k1 k2
      · exact row i j hi hj hc
  rintro ⟨i, j⟩ ⟨i', j'⟩ ha hb ⟨hab, hp⟩ -
  have hτ : swapRows r r' C (i, j) ≠ swapRows r r' C (i', j') := fun e => hab (inj _ _ e)
  have done : ∀ _ : SameRow (swapRows r r' C (i, j)) (swapRows r r' C (i', j')) ∨
      SameCol (swapRows r r' C (i, j)) (swapRows r r' C (i', j')) ∨
      SameBox w h (swapRows r r' C (i, j)) (swapRows r r' C (i', j')),
      g (swapRows r r' C (i, j)) ≠ g (swapRows r r' C (i', j')) :=
    fun hq => hv.ne hfull (inGrid _ ha) (inGrid _ hb) ⟨hτ, hq⟩
  rcases hp with e | e | e
  · have e : i = i' := e
    subst e
    by_cases k1 : C j = true <;> by_cases k2 : C j' = true
    · refine done (Or.inl ?_)
      unfold SameRow swapRows
      simp only [if_pos k1, if_pos k2]
      split
      · rfl
      · split <;> rfl
    · exact mixed i j j' ha.1 ha.2 hb.2 k1 k2
    · exact (mixed i j' j ha.1 hb.2 ha.2 k2 k1).symm
    · refine done (Or.inl ?_)
      unfold SameRow swapRows
      simp only [if_neg k1, if_neg k2]
  · refine done (Or.inr (Or.inl ?_))
    unfold SameCol; rw [col, col]; exact e
  · refine done (Or.inr (Or.inr ?_))
    unfold SameBox; rw [band, band, col, col]; exact e

theorem swapNumbers_valid {u v : Int} {X : Cell → Bool} (huv : u ≠ v) (hX : ∀ a, X a = true → g a = u ∨ g a = v)
    (hcl : ∀ a b, InGrid w h a → InGrid w h b → X a = true → Peer w h a b → (g b = u ∨ g b = v) → X b = true) :
    NoConflict w h (swapNumbers u v X g) := by
  have peer_symm : ∀ {a b}, Peer w h a b → Peer w h b a := by
    rintro a b ⟨k1, k2⟩
    exact ⟨k1.symm, k2.imp Eq.symm (Or.imp Eq.symm fun k => ⟨k.1.symm, k.2.symm⟩)⟩
  have mixed : ∀ a b, InGrid w h a → InGrid w h b → Peer w h a b → X a = true → ¬ X b = true →
      swapNumbers u v X g a ≠ swapNumbers u v X g b := by
    intro a b ha hb hp k1 k2
    unfold swapNumbers
    rw [if_pos k1, if_neg k2]
    have hb' : ¬ (g b = u ∨ g b = v) := fun k => k2 (hcl a b ha hb k1 hp k)
    rw [not_or] at hb'
    rcases hX a k1 with e | e
    · rw [if_pos e]; exact fun e' => hb'.2 e'.symm
    · rw [if_neg (by rw [e]; exact huv.symm), if_pos e]; exact fun e' => hb'.1 e'.symm
  intro a b ha hb hp _
  have hne := hv.ne hfull ha hb hp
  by_cases k1 : X a = true <;> by_cases k2 : X b = true
  · unfold swapNumbers
    rw [if_pos k1, if_pos k2]
    rcases hX a k1 with e | e <;> rcases hX b k2 with e' | e' <;> rw [e, e'] at hne
    · exact absurd rfl hne
    · rw [e, e', if_pos rfl, if_neg huv.symm, if_pos rfl]; exact huv.symm
    · rw [e, e', if_neg huv.symm, if_pos rfl, if_pos rfl]; exact huv
    · exact absurd rfl hne
  · exact mixed a b ha hb hp k1 k2
  · exact (mixed b a hb ha (peer_symm hp) k2 k1).symm
  · unfold swapNumbers
    rw [if_neg k1, if_neg k2]; exact hne

end

/-- Rows and columns exchanged. -/
theorem valid_transpose {w h : Nat} {g : Grid} (hfull : ∀ a, InGrid w h a → IsNumber w h (g a)) (hv : NoConflict w h g) :
    NoConflict h w fun a => g (a.2, a.1) := by
  intro a b ha hb hp _
  refine hv.ne hfull (a := (a.2, a.1)) (b := (b.2, b.1)) ?_ ?_ ⟨?_, ?_⟩
  · exact ⟨Nat.mul_comm h w ▸ ha.2, Nat.mul_comm h w ▸ ha.1⟩
  · exact ⟨Nat.mul_comm h w ▸ hb.2, Nat.mul_comm h w ▸ hb.1⟩
  · intro e
    exact hp.1 (Prod.ext (Prod.mk.inj e).2 (Prod.mk.inj e).1)
  · rcases hp.2 with e | e | e
    · exact Or.inr (Or.inl e)
    · exact Or.inl e
    · exact Or.inr (Or.inr ⟨e.2, e.1⟩)

theorem full_transpose {w h : Nat} {g : Grid} (hfull : ∀ a, InGrid w h a → IsNumber w h (g a)) :
    ∀ a, InGrid h w a → IsNumber h w (g (a.2, a.1)) := by
  intro a ha
  have := hfull (a.2, a.1) ⟨Nat.mul_comm h w ▸ ha.2, Nat.mul_comm h w ▸ ha.1⟩
  unfold IsNumber at *
  rw [Nat.mul_comm h w]; exact this

theorem swapCols_eq (c c' : Nat) (R : Nat → Bool) (a : Cell) :
    swapCols c c' R a = ((swapRows c c' R (a.2, a.1)).2, (swapRows c c' R (a.2, a.1)).1) := by
  unfold swapCols swapRows
  simp only
  split
  · split
    · rfl
    · split <;> rfl
  · rfl

theorem swapCols_valid {w h : Nat} {g : Grid} (hfull : ∀ a, InGrid w h a → IsNumber w h (g a)) (hv : NoConflict w h g)
    {c c' : Nat} (hc : c < w * h) (hc' : c' < w * h) (hne : c ≠ c') (hstack : c / w = c' / w) {R : Nat → Bool}
    (h1 : ∀ r, r < w * h → R r = true → ∃ r', r' < w * h ∧ R r' = true ∧ g (r, c) = g (r', c'))
    (h2 : ∀ r, r < w * h → R r = true → ∃ r', r' < w * h ∧ R r' = true ∧ g (r, c') = g (r', c)) :
    NoConflict w h fun a => g (swapCols c c' R a) := by
  have hm := Nat.mul_comm h w
  have k := swapRows_valid (full_transpose hfull) (valid_transpose hfull hv) (r := c) (r' := c') (by rw [hm]; exact hc)
    (by rw [hm]; exact hc') hne hstack (C := R) (by rw [hm]; exact h1) (by rw [hm]; exact h2)
  have hfull' : ∀ a, InGrid h w a → IsNumber h w (g ((swapRows c c' R a).2, (swapRows c c' R a).1)) := by
    intro a ha
    refine full_transpose hfull _ ?_
    obtain ⟨i, j⟩ := a
    obtain ⟨k1, k2⟩ := ha
    rw [← hm] at hc hc'
    unfold swapRows InGrid
    simp only at *
    split
    · split
      · exact ⟨hc', k2⟩
      · split
        · exact ⟨hc, k2⟩
        · exact ⟨k1, k2⟩
    · exact ⟨k1, k2⟩
  have := valid_transpose hfull' k
  have e : (fun a : Cell => g (swapCols c c' R a)) = fun a : Cell =>
      g ((swapRows c c' R (a.2, a.1)).2, (swapRows c c' R (a.2, a.1)).1) := by
    funext a; rw [swapCols_eq]
  rw [e]; exact this

end Spec
