import Verif.Model.Lazy
import Verif.Model.Solve
import Verif.Proofs.Geometry

set_option autoImplicit false

/-! # Generators used while the sudoku changes -/

open Spec

namespace Lazy

variable {S : Type}

/-- The fields in the order of `__iter__`: by row, then by column. -/
def Before (a b : Cell) : Prop := a.1 < b.1 ∨ a.1 = b.1 ∧ a.2 < b.2

theorem before_cells (s : Sudoku) : s.cells.Pairwise Before := by
  have h : s.cells = (List.range s.n).flatMap fun i => (List.range s.n).map fun j => (i, j) := by
    simp only [Sudoku.cells, Sudoku.indices]; rfl
  rw [h, List.pairwise_flatMap]
  refine ⟨fun i _ => ?_, ?_⟩
  · rw [List.pairwise_map]
    exact List.pairwise_lt_range.imp fun h => Or.inr ⟨rfl, h⟩
  · refine List.pairwise_lt_range.imp fun {i i'} h a ha b hb => ?_
    obtain ⟨j, -, rfl⟩ := List.mem_map.1 ha
    obtain ⟨j', -, rfl⟩ := List.mem_map.1 hb
    exact Or.inl h

variable {p : S → Cell → Bool} {body : S → Cell → Option S}

theorem filterLoop_sublist (l : List Cell) : ∀ s, (filterLoop p body l s).1.Sublist l := by
  induction l with
  | nil => intro s; exact List.Sublist.refl _
  | cons a l ih =>
    intro s
    unfold filterLoop
    split
    · cases h : body s a with
      | none => exact (List.nil_sublist l).cons_cons a
      | some s' => exact (ih s').cons_cons a
    · exact (ih s).cons a

/-- If the body does not change what is to come, the result is as if the sudoku did not change. -/
theorem filterLoop_same (l : List Cell) (hl : l.Pairwise Before)
    (hb : ∀ s a s' b, body s a = some s' → Before a b → p s' b = p s b) : ∀ s,
    ((filterLoop p body l s).2.2 = true ∧ (filterLoop p body l s).1 = l.filter (p s)) ∨
      ((filterLoop p body l s).2.2 = false ∧ (filterLoop p body l s).1 <+: l.filter (p s)) := by
  induction l with
  | nil => intro s; exact Or.inl ⟨rfl, rfl⟩
  | cons a l ih =>
    intro s
    rw [List.pairwise_cons] at hl
    unfold filterLoop
    cases hp : p s a with
    | false =>
      rw [List.filter_cons_of_neg (by simp [hp])]
      simp only [Bool.false_eq_true, if_false]
      exact ih hl.2 s
    | true =>
      rw [List.filter_cons_of_pos hp]
      simp only [if_true]
      cases h : body s a with
      | none => exact Or.inr ⟨rfl, by simp⟩
      | some s' =>
        have e : l.filter (p s') = l.filter (p s) := List.filter_congr fun b hb' => hb s a s' b h (hl.1 b hb')
        have := ih hl.2 s'
        rw [e] at this
        rcases this with ⟨h1, h2⟩ | ⟨h1, h2⟩
        · exact Or.inl ⟨h1, congrArg (a :: ·) h2⟩
        · exact Or.inr ⟨h1, List.cons_prefix_cons.2 ⟨rfl, h2⟩⟩

/-- What holds of a state is kept. -/
theorem filterLoop_inv (I : S → Prop) (hI : ∀ s a s', I s → body s a = some s' → I s') (l : List Cell) :
    ∀ s, I s → I (filterLoop p body l s).2.1 := by
  induction l with
  | nil => intro s h; exact h
  | cons a l ih =>
    intro s h
    unfold filterLoop
    split
    · cases hb : body s a with
      | none => exact h
      | some s' => exact ih s' (hI s a s' h hb)
    · exact ih s h

/-- If each turn does away with the reason for the yield, and makes no new ones, none is left. -/
theorem filterLoop_none (I : S → Prop) (hI : ∀ s a s', I s → body s a = some s' → I s')
    (hdone : ∀ s a s', I s → body s a = some s' → p s' a = false)
    (hkeep : ∀ s a s' b, I s → body s a = some s' → p s b = false → p s' b = false) (l : List Cell) :
    ∀ s, I s → (filterLoop p body l s).2.2 = true →
      (∀ b ∈ l, p (filterLoop p body l s).2.1 b = false) ∧ ∀ b, p s b = false → p (filterLoop p body l s).2.1 b = false := by
  induction l with
  | nil => intro s _ _; exact ⟨by simp, fun b h => h⟩
  | cons a l ih =>
    intro s hs
    unfold filterLoop
    cases hp : p s a with
    | false =>
      simp only [Bool.false_eq_true, if_false]
      intro hx
      obtain ⟨h1, h2⟩ := ih s hs hx
      refine ⟨fun b hb => ?_, h2⟩
      rcases List.mem_cons.1 hb with rfl | hb
      · exact h2 _ hp
      · exact h1 b hb
    | true =>
      simp only [if_true]
      cases h : body s a with
      | none => intro hx; cases hx
      | some s' =>
        intro hx
        obtain ⟨h1, h2⟩ := ih s' (hI s a s' hs h) hx
        refine ⟨fun b hb => ?_, fun b hb => h2 b (hkeep s a s' b hs h hb)⟩
        rcases List.mem_cons.1 hb with rfl | hb
        · exact h2 _ (hdone s _ s' hs h)
        · exact h1 b hb

/-! ## Conflicts -/

variable {num : S → Grid} {w h : Nat} {cbody : S → Cell × Cell × Int → Option S}

theorem conflictsAt_same (hb : ∀ s y s', cbody s y = some s' → num s' = num s) (a : Cell) (v : Int) (l : List Cell) : ∀ s,
    num (conflictsAt num cbody a v l s).2.1 = num s ∧
    (((conflictsAt num cbody a v l s).2.2 = true ∧
        (conflictsAt num cbody a v l s).1 = (l.filter fun b => num s b == v).map fun b => (a, b, v)) ∨
      ((conflictsAt num cbody a v l s).2.2 = false ∧
        (conflictsAt num cbody a v l s).1 <+: (l.filter fun b => num s b == v).map fun b => (a, b, v))) := by
  induction l with
  | nil => intro s; exact ⟨rfl, Or.inl ⟨rfl, rfl⟩⟩
  | cons b l ih =>
    intro s
    unfold conflictsAt
    by_cases hv : num s b = v
    · rw [if_pos hv, List.filter_cons_of_pos (by simp [hv]), List.map_cons]
      cases hy : cbody s (a, b, v) with
      | none => exact ⟨rfl, Or.inr ⟨rfl, by simp⟩⟩
      | some s' =>
        have e := hb s _ s' hy
        have := ih s'
        rw [e] at this
        refine ⟨this.1, ?_⟩
        rcases this.2 with ⟨h1, h2⟩ | ⟨h1, h2⟩
        · exact Or.inl ⟨h1, congrArg ((a, b, v) :: ·) h2⟩
        · exact Or.inr ⟨h1, List.cons_prefix_cons.2 ⟨rfl, h2⟩⟩
    · rw [if_neg hv, List.filter_cons_of_neg (by simpa using hv)]
      exact ih s

theorem conflictsLoop_same (hb : ∀ s y s', cbody s y = some s' → num s' = num s) (t : Sudoku) (l : List Cell) : ∀ s, num s = t.get →
    ((conflictsLoop num t.bw t.bh cbody l s).2.2 = true ∧ (conflictsLoop num t.bw t.bh cbody l s).1 = l.flatMap fun a =>
        if t.get a = 0 then [] else ((t.surroundingOf a false).filter fun b => t.get b == t.get a).map fun b => (a, b, t.get a)) ∨
      ((conflictsLoop num t.bw t.bh cbody l s).2.2 = false ∧ (conflictsLoop num t.bw t.bh cbody l s).1 <+: l.flatMap fun a =>
        if t.get a = 0 then [] else ((t.surroundingOf a false).filter fun b => t.get b == t.get a).map fun b => (a, b, t.get a)) := by
  induction l with
  | nil => intro s _; exact Or.inl ⟨rfl, rfl⟩
  | cons a l ih =>
    intro s hs
    have hsur : (Sudoku.new t.bw t.bh).surroundingOf a false = t.surroundingOf a false := rfl
    unfold conflictsLoop
    rw [List.flatMap_cons, hs, hsur]
    by_cases h0 : t.get a = 0
    · simp only [if_pos h0, List.nil_append]
      exact ih s hs
    · simp only [if_neg h0]
      have hc := conflictsAt_same hb a (t.get a) (t.surroundingOf a false) s
      rw [hs] at hc
      generalize conflictsAt num cbody a (t.get a) (t.surroundingOf a false) s = r at hc
      obtain ⟨ys, s', x⟩ := r
      obtain ⟨e, hc⟩ := hc
      cases x with
      | false =>
        rcases hc with ⟨h1, -⟩ | ⟨-, h2⟩
        · cases h1
        · exact Or.inr ⟨rfl, h2.trans (List.prefix_append _ _)⟩
      | true =>
        rcases hc with ⟨-, h2⟩ | ⟨h1, -⟩
        · have h2 : ys = _ := h2
          rcases ih s' e with ⟨h3, h4⟩ | ⟨h3, h4⟩
          · refine Or.inl ⟨h3, ?_⟩
            show ys ++ _ = _
            rw [h2, h4]
          · refine Or.inr ⟨h3, ?_⟩
            show ys ++ _ <+: _
            rw [h2]
            exact (List.prefix_append_right_inj _).2 h4
        · cases h1

/-- Two fields with the same number that exclude each other. -/
def Conflict (w h : Nat) (g : Grid) (a b : Cell) : Prop := InGrid w h a ∧ InGrid w h b ∧ Peer w h a b ∧ g a ≠ 0 ∧ g a = g b

theorem Conflict.symm {g : Grid} {a b : Cell} (c : Conflict w h g a b) : Conflict w h g b a :=
  ⟨c.2.1, c.1, Geometry.peer_symm' c.2.2.1, c.2.2.2.2 ▸ c.2.2.2.1, c.2.2.2.2.symm⟩

theorem conflict_unchanged {g g' : Grid} (hch : ∀ x y, g' x ≠ g x → ¬ Conflict w h g' x y) {a b : Cell} (c : Conflict w h g' a b) :
    g' a = g a ∧ g' b = g b :=
  ⟨Classical.byContradiction fun hne => hch a b hne c, Classical.byContradiction fun hne => hch b a hne c.symm⟩

theorem conflict_mono {g g' : Grid} (hch : ∀ x y, g' x ≠ g x → ¬ Conflict w h g' x y) {a b : Cell} (c : Conflict w h g' a b) :
    Conflict w h g a b := by
  obtain ⟨e1, e2⟩ := conflict_unchanged hch c
  obtain ⟨h1, h2, h3, h4, h5⟩ := c
  exact ⟨h1, h2, h3, e1 ▸ h4, by rw [← e1, ← e2]; exact h5⟩

theorem conflictsAt_none (I : S → Prop) (hI : ∀ s y s', I s → cbody s y = some s' → I s')
    (hch : ∀ s y s', I s → cbody s y = some s' → ∀ x z, num s' x ≠ num s x → ¬ Conflict w h (num s') x z)
    (hdone : ∀ s a b v s', I s → cbody s (a, b, v) = some s' → ¬ Conflict w h (num s') a b) (a : Cell) (v : Int) (l : List Cell) :
    ∀ s, I s → (num s a = v ∨ ∀ y, ¬ Conflict w h (num s) a y) → (conflictsAt num cbody a v l s).2.2 = true →
      I (conflictsAt num cbody a v l s).2.1 ∧ (∀ b ∈ l, ¬ Conflict w h (num (conflictsAt num cbody a v l s).2.1) a b) ∧
      ∀ x y, Conflict w h (num (conflictsAt num cbody a v l s).2.1) x y → Conflict w h (num s) x y := by
  induction l with
  | nil => intro s hs _ _; exact ⟨hs, by simp, fun x y c => c⟩
  | cons b l ih =>
    intro s hs ha
    unfold conflictsAt
    by_cases hv : num s b = v
    · rw [if_pos hv]
      cases hy : cbody s (a, b, v) with
      | none => intro hx; cases hx
      | some s' =>
        intro hx
        have hc := hch s _ s' hs hy
        have ha' : num s' a = v ∨ ∀ y, ¬ Conflict w h (num s') a y := by
          by_cases e : num s' a = num s a
          · rcases ha with ha | ha
            · exact Or.inl (e.trans ha)
            · exact Or.inr fun y c => ha y (conflict_mono hc c)
          · exact Or.inr fun y => hc a y e
        obtain ⟨h1, h2, h3⟩ := ih s' (hI s _ s' hs hy) ha' hx
        refine ⟨h1, fun b' hb' => ?_, fun x y c => conflict_mono hc (h3 x y c)⟩
        rcases List.mem_cons.1 hb' with rfl | hb'
        · exact fun c => hdone s a _ v s' hs hy (h3 _ _ c)
        · exact h2 b' hb'
    · rw [if_neg hv]
      intro hx
      obtain ⟨h1, h2, h3⟩ := ih s hs ha hx
      refine ⟨h1, fun b' hb' => ?_, h3⟩
      rcases List.mem_cons.1 hb' with rfl | hb'
      · intro c
        have c := h3 _ _ c
        rcases ha with ha | ha
        · exact hv (c.2.2.2.2 ▸ ha)
        · exact ha _ c
      · exact h2 b' hb'

theorem conflictsLoop_none (I : S → Prop) (hI : ∀ s y s', I s → cbody s y = some s' → I s')
    (hch : ∀ s y s', I s → cbody s y = some s' → ∀ x z, num s' x ≠ num s x → ¬ Conflict w h (num s') x z)
    (hdone : ∀ s a b v s', I s → cbody s (a, b, v) = some s' → ¬ Conflict w h (num s') a b) (l : List Cell) :
    ∀ s, I s → (conflictsLoop num w h cbody l s).2.2 = true →
      I (conflictsLoop num w h cbody l s).2.1 ∧ (∀ a ∈ l, ∀ b, ¬ Conflict w h (num (conflictsLoop num w h cbody l s).2.1) a b) ∧
      ∀ x y, Conflict w h (num (conflictsLoop num w h cbody l s).2.1) x y → Conflict w h (num s) x y := by
  induction l with
  | nil => intro s hs _; exact ⟨hs, by simp, fun x y c => c⟩
  | cons a l ih =>
    intro s hs
    unfold conflictsLoop
    by_cases h0 : num s a = 0
    · simp only [if_pos h0]
      intro hx
      obtain ⟨h1, h2, h3⟩ := ih s hs hx
      refine ⟨h1, fun a' ha' b c => ?_, h3⟩
      rcases List.mem_cons.1 ha' with rfl | ha'
      · exact (h3 _ _ c).2.2.2.1 h0
      · exact h2 a' ha' b c
    · simp only [if_neg h0]
      have hc := conflictsAt_none (h := h) (w := w) I hI hch hdone a (num s a) ((Sudoku.new w h).surroundingOf a false) s hs (Or.inl rfl)
      generalize conflictsAt num cbody a (num s a) ((Sudoku.new w h).surroundingOf a false) s = r at hc
      obtain ⟨ys, s', x⟩ := r
      cases x with
      | false => intro hx; cases hx
      | true =>
        intro hx
        obtain ⟨g1, g2, g3⟩ := hc rfl
        obtain ⟨h1, h2, h3⟩ := ih s' g1 hx
        refine ⟨h1, fun a' ha' b c => ?_, fun x y c => g3 x y (h3 x y c)⟩
        rcases List.mem_cons.1 ha' with rfl | ha'
        · have c' := h3 _ _ c
          exact g2 b ((Sudoku.mem_surroundingOf_false (Sudoku.new w h) c'.1).2 ⟨c'.2.1, c'.2.2.1⟩) c'
        · exact h2 a' ha' b c

end Lazy
