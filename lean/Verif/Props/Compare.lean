import Verif.Model.Compare
import Verif.Props.Store

set_option autoImplicit false

/-! # `==`, `diff` and `equals` for any object (C101) -/

open Spec Compare

namespace Props

/-- `other` has the number of the sudoku in field `a`. -/
def NumberSame (s : Sudoku) (o : Obj) (a : Cell) : Prop := o.item a = .ok (.int (s.get a))

/-- `other` has the number and the candidates of the sudoku in field `a`. -/
def FieldSame (s : Sudoku) (o : Obj) (a : Cell) : Prop := NumberSame s o a ∧ o.candidates a = .ok (s.getCandidates a)

/-- `a` is the first field of the grid without `P`. -/
def FirstNot (s : Sudoku) (P : Cell → Prop) (a : Cell) : Prop :=
  InGrid s.bw s.bh a ∧ ¬ P a ∧ ∀ b, InGrid s.bw s.bh b → RowMajor b a → P b

/-- The exceptions `==` catches. -/
def Caught (e : PyErr) : Prop := e = .IndexError ∨ e = .KeyError ∨ e = .TypeError

/-- `a` is the first of a list without `P`. -/
def FirstIn (l : List Cell) (P : Cell → Prop) (a : Cell) : Prop := ∃ l1 l2, l = l1 ++ a :: l2 ∧ ¬ P a ∧ ∀ b ∈ l1, P b

theorem rowMajor_asymm {a b : Cell} (h : RowMajor a b) : ¬ RowMajor b a := by
  unfold RowMajor at *; omega

theorem rowMajor_irrefl (a : Cell) : ¬ RowMajor a a := by
  unfold RowMajor; omega

theorem firstIn_cells (s : Sudoku) (P : Cell → Prop) (a : Cell) : FirstIn s.cells P a ↔ FirstNot s P a := by
  have hp := (C08_iter s).1
  constructor
  · rintro ⟨l1, l2, e, hn, h⟩
    rw [e] at hp
    refine ⟨(Sudoku.mem_cells s).1 (by rw [e]; simp), hn, fun b hb hba => ?_⟩
    rw [List.pairwise_append] at hp
    have hb := (Sudoku.mem_cells s).2 hb
    rw [e, List.mem_append, List.mem_cons] at hb
    rcases hb with hb | rfl | hb
    · exact h b hb
    · exact absurd hba (rowMajor_irrefl _)
    · exact absurd hba (rowMajor_asymm ((List.pairwise_cons.1 hp.2.1).1 b hb))
  · rintro ⟨ha, hn, h⟩
    obtain ⟨l1, l2, e⟩ := List.append_of_mem ((Sudoku.mem_cells s).2 ha)
    refine ⟨l1, l2, e, hn, fun b hb => h b ((Sudoku.mem_cells s).1 (by rw [e]; simp [hb])) ?_⟩
    rw [e, List.pairwise_append] at hp
    exact hp.2.2 b hb a (by simp)

theorem firstIn_cons {P : Cell → Prop} {b : Cell} {l : List Cell} (a : Cell) :
    FirstIn (b :: l) P a ↔ (a = b ∧ ¬ P b) ∨ (P b ∧ FirstIn l P a) := by
  constructor
  · rintro ⟨l1, l2, e, hn, h⟩
    cases l1 with
    | nil => injection e with e1 e2; exact Or.inl ⟨e1.symm, e1 ▸ hn⟩
    | cons c l1 =>
      injection e with e1 e2
      exact Or.inr ⟨e1 ▸ h c (by simp), l1, l2, e2, hn, fun x hx => h x (by simp [hx])⟩
  · rintro (⟨rfl, hn⟩ | ⟨hb, l1, l2, e, hn, h⟩)
    · exact ⟨[], l, rfl, hn, by simp⟩
    · refine ⟨b :: l1, l2, by rw [e]; rfl, hn, fun x hx => ?_⟩
      rcases List.mem_cons.1 hx with rfl | hx
      · exact hb
      · exact h x hx

/-- What the comparison of one field gives: `none`: equal. -/
theorem eqLoop_spec (s : Sudoku) (o : Obj) (l : List Cell) :
    ((∀ a ∈ l, NumberSame s o a) ∧ eqLoop s o l = .ok true) ∨
    ∃ a, FirstIn l (NumberSame s o) a ∧ ((∃ e, o.item a = .error e ∧ eqLoop s o l = .error e) ∨ (∃ x, o.item a = .ok x ∧ eqLoop s o l = .ok false)) := by
  induction l with
  | nil => exact Or.inl ⟨by simp, rfl⟩
  | cons b l ih =>
    unfold eqLoop
    cases hi : o.item b with
    | error e => exact Or.inr ⟨b, (firstIn_cons b).2 (Or.inl ⟨rfl, by rw [NumberSame, hi]; simp⟩), Or.inl ⟨e, hi, rfl⟩⟩
    | ok x =>
      by_cases hx : Item.int (s.get b) = x
      · have hb : NumberSame s o b := by rw [NumberSame, hi, hx]
        simp only [hx, ne_eq, not_true_eq_false, if_false]
        rcases ih with ⟨h1, h2⟩ | ⟨a, h1, h2⟩
        · refine Or.inl ⟨fun a ha => ?_, h2⟩
          rcases List.mem_cons.1 ha with rfl | ha
          · exact hb
          · exact h1 a ha
        · exact Or.inr ⟨a, (firstIn_cons a).2 (Or.inr ⟨hb, h1⟩), h2⟩
      · simp only [ne_eq, hx, not_false_eq_true, if_true]
        refine Or.inr ⟨b, (firstIn_cons b).2 (Or.inl ⟨rfl, ?_⟩), Or.inr ⟨x, hi, trivial⟩⟩
        rw [NumberSame, hi]
        intro h
        injection h with h
        exact hx h.symm

theorem equalsLoop_spec (s : Sudoku) (o : Obj) (l : List Cell) :
    ((∀ a ∈ l, FieldSame s o a) ∧ equalsLoop s o true l = .ok true) ∨
    ∃ a, FirstIn l (FieldSame s o) a ∧ ((∃ e, (o.item a = .error e ∨ NumberSame s o a ∧ o.candidates a = .error e) ∧ equalsLoop s o true l = .error e) ∨
      equalsLoop s o true l = .ok false ∧ (∃ x, o.item a = .ok x) ∧ (NumberSame s o a → ∃ c, o.candidates a = .ok c)) := by
  induction l with
  | nil => exact Or.inl ⟨by simp, rfl⟩
  | cons b l ih =>
    unfold equalsLoop
    cases hi : o.item b with
    | error e =>
      exact Or.inr ⟨b, (firstIn_cons b).2 (Or.inl ⟨rfl, by rw [FieldSame, NumberSame, hi]; simp⟩), Or.inl ⟨e, Or.inl hi, rfl⟩⟩
    | ok x =>
      by_cases hx : Item.int (s.get b) = x
      · have hb : NumberSame s o b := by rw [NumberSame, hi, hx]
        simp only [hx, ne_eq, not_true_eq_false, if_false, if_true]
        cases hc : o.candidates b with
        | error e => exact Or.inr ⟨b, (firstIn_cons b).2 (Or.inl ⟨rfl, by rw [FieldSame, hc]; simp⟩), Or.inl ⟨e, Or.inr ⟨hb, hc⟩, rfl⟩⟩
        | ok c =>
          by_cases he : s.getCandidates b = c
          · have hb' : FieldSame s o b := ⟨hb, by rw [hc, he]⟩
            simp only [he, not_true_eq_false, if_false]
            rcases ih with ⟨h1, h2⟩ | ⟨a, h1, h2⟩
            · refine Or.inl ⟨fun a ha => ?_, h2⟩
              rcases List.mem_cons.1 ha with rfl | ha
              · exact hb'
              · exact h1 a ha
            · exact Or.inr ⟨a, (firstIn_cons a).2 (Or.inr ⟨hb', h1⟩), h2⟩
          · simp only [he, not_false_eq_true, if_true]
            refine Or.inr ⟨b, (firstIn_cons b).2 (Or.inl ⟨rfl, ?_⟩), Or.inr ⟨trivial, ⟨x, hi⟩, fun _ => ⟨c, hc⟩⟩⟩
            rintro ⟨-, h⟩
            rw [hc] at h
            injection h with h
            exact he h.symm
      · simp only [ne_eq, hx, not_false_eq_true, if_true]
        have hn : ¬ NumberSame s o b := by
          rw [NumberSame, hi]
          intro h
          injection h with h
          exact hx h.symm
        exact Or.inr ⟨b, (firstIn_cons b).2 (Or.inl ⟨rfl, fun h => hn h.1⟩), Or.inr ⟨trivial, ⟨x, hi⟩, fun h => absurd h hn⟩⟩

theorem equalsLoop_numbers (s : Sudoku) (o : Obj) (l : List Cell) : equalsLoop s o false l = eqLoop s o l := by
  induction l with
  | nil => rfl
  | cons b l ih => unfold equalsLoop eqLoop; simp only [Bool.false_eq_true, if_false, ih]

/-- **C101** `sudoku == x` compares field by field up to the first difference: it is true if `x[row, col]` is the number of the sudoku for all
fields; false if `x[row, col]` is something else in the first field where this is not so, or raises `IndexError`, `KeyError` or `TypeError` there;
and other exceptions raised there are raised. -/
theorem C101_eq (s : Sudoku) (o : Obj) :
    ((∀ a, InGrid s.bw s.bh a → NumberSame s o a) ∧ Compare.eq s o = .ok true) ∨
    ∃ a, FirstNot s (NumberSame s o) a ∧ match o.item a with
      | .ok _ => Compare.eq s o = .ok false
      | .error e => (Caught e → Compare.eq s o = .ok false) ∧ (¬ Caught e → Compare.eq s o = .error e) := by
  unfold Compare.eq
  rcases eqLoop_spec s o s.cells with ⟨h1, h2⟩ | ⟨a, h1, h2⟩
  · exact Or.inl ⟨fun a ha => h1 a ((Sudoku.mem_cells s).2 ha), by rw [h2]⟩
  · refine Or.inr ⟨a, (firstIn_cells s _ a).1 h1, ?_⟩
    rcases h2 with ⟨e, h3, h4⟩ | ⟨x, h3, h4⟩
    · rw [h3, h4]
      exact ⟨fun hc => if_pos hc, fun hc => if_neg hc⟩
    · rw [h3, h4]

/-- **C101** So `sudoku == x` is true exactly if `x[row, col]` is the number of the sudoku for all fields. -/
theorem C101_true (s : Sudoku) (o : Obj) : Compare.eq s o = .ok true ↔ ∀ a, InGrid s.bw s.bh a → NumberSame s o a := by
  rcases C101_eq s o with ⟨h1, h2⟩ | ⟨a, ⟨ha, hn, -⟩, h2⟩
  · exact ⟨fun _ => h1, fun _ => h2⟩
  · refine ⟨fun h => ?_, fun h => absurd (h a ha) hn⟩
    rw [h] at h2
    cases hi : o.item a with
    | ok x => rw [hi] at h2; cases h2
    | error e =>
      rw [hi] at h2
      by_cases hc : Caught e
      · exact absurd (h2.1 hc) (by simp)
      · exact absurd (h2.2 hc) (by simp)

/-- **C101** `equals` raises all exceptions; without candidates it is the comparison of `==`, and with candidates it is true exactly if numbers and
candidates agree. -/
theorem C101_equals (s : Sudoku) (o : Obj) :
    (match equals s o false with
      | .ok b => Compare.eq s o = .ok b
      | .error e => (Caught e → Compare.eq s o = .ok false) ∧ (¬ Caught e → Compare.eq s o = .error e)) ∧
    (equals s o false = .ok true ↔ ∀ a, InGrid s.bw s.bh a → NumberSame s o a) ∧
    (equals s o true = .ok true ↔ ∀ a, InGrid s.bw s.bh a → FieldSame s o a) ∧
    (∀ e, equals s o true = .error e → ∃ a, FirstNot s (FieldSame s o) a ∧ (o.item a = .error e ∨ NumberSame s o a ∧ o.candidates a = .error e)) := by
  have hg : ∀ {P : Cell → Prop}, (∀ a ∈ s.cells, P a) ↔ ∀ a, InGrid s.bw s.bh a → P a := by
    intro P; simp only [Sudoku.mem_cells]
  refine ⟨?_, ?_, ?_, ?_⟩
  · rw [Compare.eq, equals, equalsLoop_numbers]
    cases eqLoop s o s.cells with
    | ok b => rfl
    | error e => exact ⟨fun hc => if_pos hc, fun hc => if_neg hc⟩
  · rw [equals, equalsLoop_numbers, ← hg]
    rcases eqLoop_spec s o s.cells with ⟨h1, h2⟩ | ⟨a, ⟨l1, l2, e, hn, -⟩, h2⟩
    · exact ⟨fun _ => h1, fun _ => h2⟩
    · refine ⟨fun h => ?_, fun h => absurd (h a (by rw [e]; simp)) hn⟩
      rcases h2 with ⟨_, -, h2⟩ | ⟨_, -, h2⟩ <;> rw [h2] at h <;> cases h
  · rw [equals, ← hg]
    rcases equalsLoop_spec s o s.cells with ⟨h1, h2⟩ | ⟨a, ⟨l1, l2, e, hn, -⟩, h2⟩
    · exact ⟨fun _ => h1, fun _ => h2⟩
    · refine ⟨fun h => ?_, fun h => absurd (h a (by rw [e]; simp)) hn⟩
      rcases h2 with ⟨_, -, h2⟩ | ⟨h2, -⟩ <;> rw [h2] at h <;> cases h
  · intro e he
    rw [equals] at he
    rcases equalsLoop_spec s o s.cells with ⟨-, h2⟩ | ⟨a, h1, h2⟩
    · rw [h2] at he; cases he
    · rcases h2 with ⟨e', h3, h4⟩ | ⟨h2, -⟩
      · rw [h4] at he
        injection he with he
        exact ⟨a, (firstIn_cells s _ a).1 h1, he ▸ h3⟩
      · rw [h2] at he; cases he

theorem diffLoop_spec (s : Sudoku) (o : Obj) (l : List Cell) :
    ((diffLoop s o l).2 = none ∧ (∀ a ∈ l, ∃ x, o.item a = .ok x) ∧ (diffLoop s o l).1 = l.filter fun a => decide (o.item a ≠ .ok (.int (s.get a)))) ∨
    ∃ l1 a l2 e, l = l1 ++ a :: l2 ∧ o.item a = .error e ∧ (diffLoop s o l).2 = some e ∧ (∀ b ∈ l1, ∃ x, o.item b = .ok x) ∧
      (diffLoop s o l).1 = l1.filter fun a => decide (o.item a ≠ .ok (.int (s.get a))) := by
  induction l with
  | nil => exact Or.inl ⟨rfl, by simp, rfl⟩
  | cons b l ih =>
    unfold diffLoop
    cases hi : o.item b with
    | error e => exact Or.inr ⟨[], b, l, e, rfl, hi, rfl, by simp, rfl⟩
    | ok x =>
      have hf : ∀ l' : List Cell, ((b :: l').filter fun a => decide (o.item a ≠ .ok (.int (s.get a)))) =
          if Item.int (s.get b) ≠ x then b :: l'.filter (fun a => decide (o.item a ≠ .ok (.int (s.get a))))
          else l'.filter fun a => decide (o.item a ≠ .ok (.int (s.get a))) := by
        intro l'
        by_cases hx : Item.int (s.get b) = x
        · rw [if_neg (by simpa using hx), List.filter_cons_of_neg (by simp [hi, hx])]
        · rw [if_pos hx, List.filter_cons_of_pos (by simpa [hi] using fun h => hx h.symm)]
      rcases ih with ⟨h1, h2, h3⟩ | ⟨l1, a, l2, e, h1, h2, h3, h4, h5⟩
      · refine Or.inl ⟨h1, fun a ha => ?_, ?_⟩
        · rcases List.mem_cons.1 ha with rfl | ha
          · exact ⟨x, hi⟩
          · exact h2 a ha
        · rw [hf, ← h3]
      · refine Or.inr ⟨b :: l1, a, l2, e, by rw [h1]; rfl, h2, h3, fun c hc => ?_, ?_⟩
        · rcases List.mem_cons.1 hc with rfl | hc
          · exact ⟨x, hi⟩
          · exact h4 c hc
        · rw [hf, ← h5]

/-- **C101** `sudoku.diff(x)` yields the fields in which `x[row, col]` is not the number of the sudoku, in order, up to the first one for which it raises
an exception; this is raised then. -/
theorem C101_diff (s : Sudoku) (o : Obj) :
    ((Compare.diff s o).1.Pairwise RowMajor) ∧ match (Compare.diff s o).2 with
      | none => (∀ a, InGrid s.bw s.bh a → ∃ x, o.item a = .ok x) ∧ ∀ a, a ∈ (Compare.diff s o).1 ↔ InGrid s.bw s.bh a ∧ ¬ NumberSame s o a
      | some e => ∃ a, FirstNot s (fun b => ∃ x, o.item b = .ok x) a ∧ o.item a = .error e ∧
          ∀ b, b ∈ (Compare.diff s o).1 ↔ InGrid s.bw s.bh b ∧ RowMajor b a ∧ ¬ NumberSame s o b := by
  have hp := (C08_iter s).1
  rw [Compare.diff]
  rcases diffLoop_spec s o s.cells with ⟨h1, h2, h3⟩ | ⟨l1, a, l2, e, h1, h2, h3, h4, h5⟩
  · rw [h1, h3]
    refine ⟨hp.filter _, fun a ha => h2 a ((Sudoku.mem_cells s).2 ha), fun a => ?_⟩
    rw [List.mem_filter, Sudoku.mem_cells, decide_eq_true_iff]; rfl
  · rw [h3, h5]
    have hfst : FirstIn s.cells (fun b => ∃ x, o.item b = .ok x) a := ⟨l1, l2, h1, fun ⟨x, hx⟩ => (by rw [hx] at h2; cases h2), h4⟩
    have hp' := hp
    rw [h1, List.pairwise_append] at hp'
    refine ⟨hp'.1.filter _, a, (firstIn_cells s _ a).1 hfst, h2, fun b => ?_⟩
    rw [List.mem_filter, decide_eq_true_iff, ← and_assoc]
    refine and_congr_left fun _ => ⟨fun hb => ⟨(Sudoku.mem_cells s).1 (by rw [h1]; simp [hb]), hp'.2.2 b hb a (by simp)⟩, fun ⟨hb, hba⟩ => ?_⟩
    have hb := (Sudoku.mem_cells s).2 hb
    rw [h1, List.mem_append, List.mem_cons] at hb
    rcases hb with hb | rfl | hb
    · exact hb
    · exact absurd hba (rowMajor_irrefl _)
    · exact absurd hba (rowMajor_asymm ((List.pairwise_cons.1 hp'.2.1).1 b hb))

/-- **C101** For sudokus this is `C07`, `C08`. -/
theorem C101_sudoku (s t : Sudoku) : Compare.eq s (.sudoku t) = .ok (s.eq t) := by
  have h : Compare.eq s (.sudoku t) = .ok true ↔ s.eq t = true := by
    rw [C101_true, C07_eq_general]
    refine forall_congr' fun a => forall_congr' fun _ => ?_
    unfold NumberSame Obj.sudoku
    by_cases ha : a.1 < t.n ∧ a.2 < t.n
    · simp only [if_pos ha, Except.ok.injEq, Item.int.injEq]
      exact ⟨fun h => ⟨ha, h.symm⟩, fun h => h.2.symm⟩
    · simp only [if_neg ha, reduceCtorEq, false_iff]
      exact fun h => ha h.1
  have hok : ∃ b, Compare.eq s (.sudoku t) = .ok b := by
    rcases C101_eq s (.sudoku t) with ⟨-, h2⟩ | ⟨a, -, h2⟩
    · exact ⟨_, h2⟩
    · unfold Obj.sudoku at h2
      by_cases ha : a.1 < t.n ∧ a.2 < t.n
      · simp only [if_pos ha] at h2; exact ⟨_, h2⟩
      · simp only [if_neg ha] at h2; exact ⟨_, h2.1 (Or.inl rfl)⟩
  obtain ⟨b, hb⟩ := hok
  rw [hb] at h ⊢
  rw [Except.ok.injEq] at h ⊢
  exact Bool.eq_iff_iff.2 h

/-- **C101** A dict is equal if it has the right number for each field (other keys do not matter); what has no `[row, col]` is equal only to a
sudoku without fields. -/
theorem C101_dict (s : Sudoku) (d : Cell → Option Int) :
    Compare.eq s (.dict d) = .ok (decide (∀ a ∈ s.cells, d a = some (s.get a))) ∧ Compare.eq s .plain = .ok (decide (s.bw * s.bh = 0)) := by
  have decided : ∀ {o : Obj} {P : Prop} [Decidable P], (Compare.eq s o = .ok true ↔ P) → (∀ a e, o.item a = .error e → Caught e) →
      Compare.eq s o = .ok (decide P) := by
    intro o P _ h hc
    have hok : ∃ b, Compare.eq s o = .ok b := by
      rcases C101_eq s o with ⟨-, h2⟩ | ⟨a, -, h2⟩
      · exact ⟨_, h2⟩
      · cases hi : o.item a with
        | ok x => rw [hi] at h2; exact ⟨_, h2⟩
        | error e => rw [hi] at h2; exact ⟨_, h2.1 (hc a e hi)⟩
    obtain ⟨b, hb⟩ := hok
    rw [hb] at h ⊢
    rw [Except.ok.injEq] at h ⊢
    rw [Bool.eq_iff_iff, h, decide_eq_true_iff]
  refine ⟨decided ?_ ?_, decided ?_ ?_⟩
  · rw [C101_true]
    simp only [Sudoku.mem_cells]
    refine forall_congr' fun a => forall_congr' fun _ => ?_
    unfold NumberSame Obj.dict
    cases hd : d a <;> simp [hd]
  · intro a e h
    unfold Obj.dict at h
    cases hd : d a with
    | none => simp only [hd, Except.error.injEq] at h; exact Or.inr (Or.inl h.symm)
    | some v => simp only [hd, reduceCtorEq] at h
  · rw [C101_true]
    unfold NumberSame Obj.plain InGrid
    simp only [reduceCtorEq, imp_false, not_and, not_lt]
    constructor
    · intro h
      have := h (0, 0)
      simp only at this
      omega
    · intro h a h1
      omega
  · intro a e h
    have h : Except.error .TypeError = (Except.error e : Except PyErr Item) := h
    injection h with h
    exact Or.inr (Or.inr h.symm)

/-! ### Samples -/

-- `Sudoku((2, 1)) == None` is false, `Sudoku((0, 3)) == None` is true
example : Compare.eq (Sudoku.new 2 1) .plain = .ok false ∧ Compare.eq (Sudoku.new 0 3) .plain = .ok true := by decide
-- an object whose `[row, col]` raises `ValueError`
example : Compare.eq (Sudoku.new 2 1) ⟨fun _ => .error .ValueError, fun _ => .error .AttributeError⟩ = .error .ValueError := by decide
-- a dict without an entry for (1, 0)
example : let o := Obj.dict fun a => if a = (1, 0) then none else some 1
    Compare.diff (Sudoku.new 2 1) o = ([(0,0), (0,1)], some .KeyError) ∧ equals (Sudoku.new 2 1) o false = .ok false ∧
    equals (Sudoku.new 2 1) (.dict fun a => if a = (1, 0) then none else some 0) true = .error .AttributeError ∧
    equals (Sudoku.new 2 1) (.dict fun a => if a = (1, 0) then none else some 0) false = .error .KeyError := by decide

end Props
