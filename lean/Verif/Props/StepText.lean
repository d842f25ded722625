import Verif.Model.StepText
import Verif.Proofs.Strings
import Verif.Props.Complete

set_option autoImplicit false

/-!
# C87: the texts of steps
-/

open Spec

namespace Props

open Solvers

/-! ## Reading texts -/

theorem span_eq {p : Char → Prop} {c d : Char} {s t : List Char} (hc : ¬ p c) (hd : ¬ p d) :
    ∀ {l l' : List Char}, (∀ x ∈ l, p x) → (∀ x ∈ l', p x) → l ++ c :: s = l' ++ d :: t → l = l' ∧ c :: s = d :: t
  | [], [], _, _, h => ⟨rfl, h⟩
  | [], y :: l', _, h2, h => absurd (h2 y (List.mem_cons_self ..)) (by
      have := (List.cons.inj h).1
      rwa [← this])
  | x :: l, [], h1, _, h => absurd (h1 x (List.mem_cons_self ..)) (by
      have := (List.cons.inj h).1
      rwa [this])
  | x :: l, y :: l', h1, h2, h => by
      obtain ⟨h3, h4⟩ := List.cons.inj h
      obtain ⟨h5, h6⟩ := span_eq hc hd (fun z hz => h1 z (List.mem_cons_of_mem _ hz)) (fun z hz => h2 z (List.mem_cons_of_mem _ hz)) h4
      exact ⟨by rw [h3, h5], h6⟩

def Numeral (c : Char) : Prop := Py.isDigit c = true ∨ c = '-'

theorem intStr_inj {a b : Int} (h : Py.intStr a = Py.intStr b) : a = b := by
  have := congrArg Py.int h
  rw [Py.int_intStr, Py.int_intStr] at this
  exact Except.ok.inj this

private theorem natStr_inj {a b : Nat} (h : Py.natStr a = Py.natStr b) : a = b := by
  have := congrArg Py.int h
  rw [Py.int_natStr, Py.int_natStr] at this
  exact Int.ofNat.inj (Except.ok.inj this)

theorem intStr_next {a b : Int} {c d : Char} {s t : List Char} (hc : ¬ Numeral c) (hd : ¬ Numeral d)
    (h : Py.intStr a ++ c :: s = Py.intStr b ++ d :: t) : a = b ∧ c :: s = d :: t := by
  obtain ⟨h1, h2⟩ := span_eq hc hd (Py.intStr_chars a) (Py.intStr_chars b) h
  exact ⟨intStr_inj h1, h2⟩

private theorem natStr_next {a b : Nat} {c d : Char} {s t : List Char} (hc : ¬ Numeral c) (hd : ¬ Numeral d)
    (h : Py.natStr a ++ c :: s = Py.natStr b ++ d :: t) : a = b ∧ c :: s = d :: t := by
  obtain ⟨h1, h2⟩ := span_eq hc hd (p := Numeral) (fun x hx => .inl (Py.natStr_digits a x hx)) (fun x hx => .inl (Py.natStr_digits b x hx)) h
  exact ⟨natStr_inj h1, h2⟩

private theorem comma : ¬ Numeral ',' := by unfold Numeral; decide
private theorem bracket : ¬ Numeral ')' := by unfold Numeral; decide

/-- Members of a tuple can be read. -/
private structure Code {α : Type} (f : α → List Char) : Prop where
  read : ∀ x y c d s t, c = ',' ∨ c = ')' → d = ',' ∨ d = ')' → f x ++ c :: s = f y ++ d :: t → x = y ∧ c :: s = d :: t
  first : ∀ x s t, f x ++ s ≠ ')' :: t

private theorem code_int : Code Py.intStr := by
  refine ⟨fun x y c d s t hc hd h => ?_, fun x s t h => ?_⟩
  · exact intStr_next (by rcases hc with rfl | rfl; exact comma; exact bracket) (by rcases hd with rfl | rfl; exact comma; exact bracket) h
  · cases hx : Py.intStr x with
    | nil => exact Py.intStr_ne_nil x hx
    | cons c l =>
      rw [hx] at h
      have h1 := (List.cons.inj h).1
      have h2 := Py.intStr_chars x c (by rw [hx]; exact List.mem_cons_self ..)
      rw [h1] at h2
      exact bracket h2

private theorem cellText_read {a b : Cell} {s t : List Char} (h : cellText a ++ s = cellText b ++ t) : a = b ∧ s = t := by
  unfold cellText tupleText Py.join Py.join at h
  simp only [List.append_assoc, List.cons_append, List.nil_append] at h
  obtain ⟨h1, h2⟩ := natStr_next comma comma (List.cons.inj h).2
  obtain ⟨h3, h4⟩ := natStr_next bracket bracket (List.cons.inj (List.cons.inj h2).2).2
  exact ⟨Prod.ext h1 h3, (List.cons.inj h4).2⟩

private theorem code_cell : Code cellText := by
  refine ⟨fun x y c d s t _ _ h => cellText_read h, fun x s t h => ?_⟩
  unfold cellText tupleText at h
  exact absurd (List.cons.inj h).1 (by decide)

private def tail {α : Type} (f : α → List Char) (l : List α) : List Char := l.flatMap fun x => [',', ' '] ++ f x

private theorem tail_head {α : Type} (f : α → List Char) (l : List α) (s : List Char) :
    ∃ c u, (c = ',' ∨ c = ')') ∧ tail f l ++ ')' :: s = c :: u := by
  cases l with
  | nil => exact ⟨')', s, .inr rfl, rfl⟩
  | cons x l => exact ⟨',', _, .inl rfl, rfl⟩

private theorem tail_read {α : Type} {f : α → List Char} (hf : Code f) {s t : List Char} :
    ∀ {l l' : List α}, tail f l ++ ')' :: s = tail f l' ++ ')' :: t → l = l' ∧ s = t
  | [], [], h => ⟨rfl, (List.cons.inj h).2⟩
  | [], _ :: _, h => absurd (List.cons.inj h).1 (by decide)
  | _ :: _, [], h => absurd (List.cons.inj h).1 (by decide)
  | x :: l, y :: l', h => by
      have h' : f x ++ (tail f l ++ ')' :: s) = f y ++ (tail f l' ++ ')' :: t) := by
        have h0 : ∀ (z : α) (m : List α), tail f (z :: m) = ',' :: ' ' :: (f z ++ tail f m) := fun _ _ => rfl
        rw [h0, h0] at h
        simp only [List.cons_append, List.append_assoc] at h
        exact (List.cons.inj (List.cons.inj h).2).2
      obtain ⟨c, u, hc, hcu⟩ := tail_head f l s
      obtain ⟨d, v, hd, hdv⟩ := tail_head f l' t
      rw [hcu, hdv] at h'
      obtain ⟨h1, h2⟩ := hf.read _ _ _ _ _ _ hc hd h'
      rw [← hcu, ← hdv] at h2
      obtain ⟨h3, h4⟩ := tail_read hf h2
      exact ⟨by rw [h1, h3], h4⟩

private theorem join_tail {α : Type} (f : α → List Char) : ∀ (x : α) (l : List α), Py.join [',', ' '] ((x :: l).map f) = f x ++ tail f l
  | x, [] => by simp [Py.join, tail]
  | x, y :: l => by
      have := join_tail f y l
      simp only [List.map_cons] at this ⊢
      rw [Py.join, this]
      simp [tail]

private theorem tuple_nil {α : Type} (f : α → List Char) : tupleText (([] : List α).map f) = ['(', ')'] := rfl
private theorem tuple_one {α : Type} (f : α → List Char) (x : α) : tupleText ([x].map f) = '(' :: (f x ++ [',', ')']) := rfl
private theorem tuple_more {α : Type} (f : α → List Char) (x y : α) (l : List α) :
    tupleText ((x :: y :: l).map f) = '(' :: (f x ++ tail f (y :: l) ++ [')']) := by
  rw [← join_tail]
  rfl

private theorem tuple_read {α : Type} {f : α → List Char} (hf : Code f) {s t : List Char} {l l' : List α}
    (h : tupleText (l.map f) ++ s = tupleText (l'.map f) ++ t) : l = l' ∧ s = t := by
  match l, l', h with
  | [], [], h => exact ⟨rfl, by simpa [tuple_nil] using h⟩
  | [], [y], h =>
    rw [tuple_nil, tuple_one] at h
    simp only [List.cons_append, List.append_assoc, List.nil_append] at h
    have := (List.cons.inj h).2
    exact absurd this.symm (hf.first _ _ _)
  | [], y :: z :: l', h =>
    rw [tuple_nil, tuple_more] at h
    simp only [List.cons_append, List.append_assoc, List.nil_append] at h
    have := (List.cons.inj h).2
    exact absurd this.symm (hf.first _ _ _)
  | [x], [], h =>
    rw [tuple_nil, tuple_one] at h
    simp only [List.cons_append, List.append_assoc, List.nil_append] at h
    have := (List.cons.inj h).2
    exact absurd this (hf.first _ _ _)
  | x :: z :: l, [], h =>
    rw [tuple_nil, tuple_more] at h
    simp only [List.cons_append, List.append_assoc, List.nil_append] at h
    have := (List.cons.inj h).2
    exact absurd this (hf.first _ _ _)
  | [x], [y], h =>
    rw [tuple_one, tuple_one] at h
    simp only [List.cons_append, List.append_assoc, List.nil_append] at h
    have := (List.cons.inj h).2
    obtain ⟨h1, h2⟩ := hf.read _ _ _ _ _ _ (.inl rfl) (.inl rfl) this
    exact ⟨by rw [h1], (List.cons.inj (List.cons.inj h2).2).2⟩
  | [x], y :: z :: l', h =>
    rw [tuple_one, tuple_more] at h
    simp only [List.cons_append, List.append_assoc, List.nil_append] at h
    have := (List.cons.inj h).2
    obtain ⟨h1, h2⟩ := hf.read _ _ _ _ _ _ (.inl rfl) (.inl rfl) this
    exact absurd (List.cons.inj (List.cons.inj h2).2).1 (by decide)
  | x :: z :: l, [y], h =>
    rw [tuple_one, tuple_more] at h
    simp only [List.cons_append, List.append_assoc, List.nil_append] at h
    have := (List.cons.inj h).2
    obtain ⟨h1, h2⟩ := hf.read _ _ _ _ _ _ (.inl rfl) (.inl rfl) this
    exact absurd (List.cons.inj (List.cons.inj h2).2).1 (by decide)
  | x :: y :: l, x' :: y' :: l', h =>
    rw [tuple_more, tuple_more] at h
    simp only [List.cons_append, List.append_assoc, List.nil_append] at h
    have := (List.cons.inj h).2
    obtain ⟨h1, h2⟩ := hf.read _ _ _ _ _ _ (.inl rfl) (.inl rfl) this
    obtain ⟨h3, h4⟩ := tail_read hf (l := y :: l) (l' := y' :: l') (s := s) (t := t) h2
    exact ⟨by rw [h1, h3], h4⟩

private theorem name_read {k k' : Kind} (hk : k ∈ solvers) (hk' : k' ∈ solvers) {c d : Char} {s t : List Char} (hc : c = '(' ∨ c = ' ') (hd : d = '(' ∨ d = ' ')
    (h : k.className ++ c :: s = k'.className ++ d :: t) : k = k' ∧ c :: s = d :: t := by
  have hp : ∀ k ∈ solvers, ∀ x ∈ k.className, ¬ (x = '(' ∨ x = ' ') := by decide
  obtain ⟨h1, h2⟩ := span_eq (p := fun x => ¬ (x = '(' ∨ x = ' ')) (not_not.2 hc) (not_not.2 hd) (hp k hk) (hp k' hk') h
  have : ∀ k ∈ solvers, ∀ k' ∈ solvers, k.className = k'.className → k = k' := by decide
  exact ⟨this k hk k' hk' h1, h2⟩

/-! ## C87 -/

/-- The classes whose constructor takes one field and one number. -/
def oneField (k : Kind) : Bool := k = .nakedSingle ∨ k = .hiddenSingle ∨ k = .bruteforce

private theorem isSingle_eq (k : Kind) : k.isSingle = oneField k := by cases k <;> rfl

/-- Steps of the classes in `SOLVERS`, made by their constructors. -/
inductive Made : Step → Prop
  | single (k : Kind) (a : Cell) (v : Int) (hk : k ∈ solvers) (h1 : oneField k = true) : Made (Step.single k a v)
  | other (k : Kind) (clues affected : List Cell) (values : List Int) (hk : k ∈ solvers) (h1 : oneField k = false) : Made (Step.mk' k clues affected values)

private theorem Made.kind {st : Step} (h : Made st) : st.kind ∈ solvers := by cases h <;> assumption

private theorem repr_single (k : Kind) (a : Cell) (v : Int) (h : oneField k = true) :
    (Step.single k a v).repr = .ok (k.className ++ '(' :: (Py.natStr a.1 ++ [',', ' '] ++ Py.natStr a.2 ++ [',', ' '] ++ Py.intStr v ++ [')'])) := by
  unfold Step.repr
  rw [if_pos (show (Step.single k a v).kind.isSingle = true from (isSingle_eq k).trans h)]
  rfl

private theorem str_single (k : Kind) (a : Cell) (v : Int) (h : oneField k = true) :
    (Step.single k a v).str = .ok (k.className ++ " at ".toList ++ cellText a ++ [':', ' '] ++ Py.intStr v) := by
  unfold Step.str
  rw [if_pos (show (Step.single k a v).kind.isSingle = true from (isSingle_eq k).trans h)]
  rfl

private theorem repr_other (st : Step) (h : oneField st.kind = false) :
    st.repr = .ok (st.kind.className ++ '(' :: (cellsText st.clues ++ [',', ' '] ++ cellsText st.affected ++ [',', ' '] ++ numsText st.values ++ [')'])) := by
  unfold Step.repr
  rw [if_neg (by rw [isSingle_eq, h]; decide)]

private theorem str_other (st : Step) (h : oneField st.kind = false) :
    st.str = .ok (st.kind.className ++ " at ".toList ++ cellsText st.clues ++ [':', ' '] ++ numsText st.values) := by
  unfold Step.str
  rw [if_neg (by rw [isSingle_eq, h]; decide)]

private theorem repr_form {st : Step} (h : Made st) : ∃ u, st.repr = .ok (st.kind.className ++ '(' :: u) := by
  cases h with
  | single k a v hk h1 => exact ⟨_, repr_single k a v h1⟩
  | other k c a v hk h1 => exact ⟨_, repr_other _ h1⟩

private theorem str_form {st : Step} (h : Made st) : ∃ u, st.str = .ok (st.kind.className ++ ' ' :: u) := by
  cases h with
  | single k a v hk h1 => exact ⟨_, by rw [str_single k a v h1]; simp only [List.append_assoc]; rfl⟩
  | other k c a v hk h1 => exact ⟨_, by rw [str_other _ h1]; simp only [List.append_assoc]; rfl⟩

/-- **C87** `repr(step)` tells everything: steps with the same text are the same (class, clues, affected fields, values). -/
theorem C87_repr (st st' : Step) (h : Made st) (h' : Made st') : (∃ t, st.repr = .ok t) ∧ (st.repr = st'.repr → st = st') := by
  obtain ⟨u, hu⟩ := repr_form h
  obtain ⟨u', hu'⟩ := repr_form h'
  refine ⟨⟨_, hu⟩, fun he => ?_⟩
  rw [hu, hu'] at he
  obtain ⟨hk, hr⟩ := name_read h.kind h'.kind (.inl rfl) (.inl rfl) (Except.ok.inj he)
  replace hr := (List.cons.inj hr).2
  cases h with
  | single k a v hs h1 =>
    cases h' with
    | single k' a' v' hs' h1' =>
      rw [repr_single k a v h1] at hu
      rw [repr_single k' a' v' h1'] at hu'
      have e1 := List.append_cancel_left (Except.ok.inj hu)
      have e2 := List.append_cancel_left (Except.ok.inj hu')
      rw [← (List.cons.inj e1).2, ← (List.cons.inj e2).2] at hr
      simp only [List.append_assoc, List.cons_append, List.nil_append] at hr
      obtain ⟨g1, g2⟩ := natStr_next comma comma hr
      obtain ⟨g3, g4⟩ := natStr_next comma comma (List.cons.inj (List.cons.inj g2).2).2
      obtain ⟨g5, _⟩ := intStr_next bracket bracket (List.cons.inj (List.cons.inj g4).2).2
      rw [show k = k' from hk, g5, show a = a' from Prod.ext g1 g3]
    | other k' c' a' v' hs' h1' => rw [show k = k' from hk, h1'] at h1; cases h1
  | other k c a v hs h1 =>
    cases h' with
    | single k' a' v' hs' h1' => rw [show k = k' from hk, h1'] at h1; cases h1
    | other k' c' a' v' hs' h1' =>
      rw [repr_other _ h1] at hu
      rw [repr_other _ h1'] at hu'
      have e1 := List.append_cancel_left (Except.ok.inj hu)
      have e2 := List.append_cancel_left (Except.ok.inj hu')
      rw [← (List.cons.inj e1).2, ← (List.cons.inj e2).2] at hr
      simp only [List.append_assoc] at hr
      obtain ⟨g1, g2⟩ := tuple_read code_cell hr
      obtain ⟨g3, g4⟩ := tuple_read code_cell (List.append_cancel_left g2)
      obtain ⟨g5, _⟩ := tuple_read code_int (List.append_cancel_left g4)
      generalize Step.mk' k c a v = x at *
      generalize Step.mk' k' c' a' v' = y at *
      cases x
      cases y
      simp_all

/-- **C87** `repr(step)` shows the arguments of the constructor, in their order: with these it makes the same step. -/
theorem C87_again (st : Step) (h : Made st) :
    (oneField st.kind = true → ∃ r c v, st.repr = .ok (st.kind.className ++ "(".toList ++ Py.natStr r ++ ", ".toList ++ Py.natStr c ++ ", ".toList ++ Py.intStr v ++ ")".toList) ∧
      Step.single st.kind (r, c) v = st) ∧
    (oneField st.kind = false → st.repr = .ok (st.kind.className ++ "(".toList ++ cellsText st.clues ++ ", ".toList ++ cellsText st.affected ++ ", ".toList ++
        numsText st.values ++ ")".toList) ∧ Step.mk' st.kind st.clues st.affected st.values = st) := by
  have : Std.Total cellLe := ⟨cellLe_total⟩
  have : IsTrans Cell cellLe := ⟨cellLe_trans⟩
  cases h with
  | single k a v hk h1 =>
    refine ⟨fun _ => ⟨a.1, a.2, v, ?_, rfl⟩, fun h2 => ?_⟩
    · rw [repr_single k a v h1]
      simp only [List.append_assoc]
      rfl
    · rw [show (Step.single k a v).kind = k from rfl, h1] at h2
      cases h2
  | other k c a v hk h1 =>
    refine ⟨fun h2 => ?_, fun _ => ⟨?_, ?_⟩⟩
    · rw [show (Step.mk' k c a v).kind = k from rfl, h1] at h2
      cases h2
    · rw [repr_other _ h1]
      simp only [List.append_assoc]
      rfl
    · unfold Step.mk'
      simp only
      congr 1
      · exact List.Pairwise.insertionSort_eq (List.pairwise_insertionSort cellLe c)
      · exact List.Pairwise.insertionSort_eq (List.pairwise_insertionSort cellLe a)
      · exact List.Pairwise.insertionSort_eq (List.pairwise_insertionSort (· ≤ ·) v)

/-- **C87** `str(step)` tells the class, the clues and the values, and nothing else. -/
theorem C87_str (st st' : Step) (h : Made st) (h' : Made st') :
    (∃ t, st.str = .ok t) ∧ (st.str = st'.str ↔ st.kind = st'.kind ∧ st.clues = st'.clues ∧ st.values = st'.values) := by
  obtain ⟨u, hu⟩ := str_form h
  obtain ⟨u', hu'⟩ := str_form h'
  refine ⟨⟨_, hu⟩, fun he => ?_, fun ⟨h1, h2, h3⟩ => ?_⟩
  · rw [hu, hu'] at he
    obtain ⟨hk, hr⟩ := name_read h.kind h'.kind (.inr rfl) (.inr rfl) (Except.ok.inj he)
    refine ⟨hk, ?_⟩
    cases h with
    | single k a v hs h1 =>
      cases h' with
      | single k' a' v' hs' h1' =>
        obtain rfl : k = k' := hk
        rw [str_single k a v h1, str_single k a' v' h1] at *
        have e : (Except.ok (k.className ++ " at ".toList ++ cellText a ++ [':', ' '] ++ Py.intStr v) : Except PyErr (List Char)) =
            .ok (k.className ++ " at ".toList ++ cellText a' ++ [':', ' '] ++ Py.intStr v') := by
          rw [hu, hu', he]
        replace e := Except.ok.inj e
        simp only [List.append_assoc] at e
        obtain ⟨g1, g2⟩ := cellText_read (List.append_cancel_left (List.append_cancel_left e))
        have g3 := intStr_inj (List.append_cancel_left g2)
        rw [g1, g3]
        exact ⟨rfl, rfl⟩
      | other k' c' a' v' hs' h1' => rw [show k = k' from hk, h1'] at h1; cases h1
    | other k c a v hs h1 =>
      cases h' with
      | single k' a' v' hs' h1' => rw [show k = k' from hk, h1'] at h1; cases h1
      | other k' c' a' v' hs' h1' =>
        obtain rfl : k = k' := hk
        generalize hx : Step.mk' k c a v = x at *
        generalize hy : Step.mk' k c' a' v' = y at *
        have kx : x.kind = k := by rw [← hx]; rfl
        have ky : y.kind = k := by rw [← hy]; rfl
        rw [str_other _ (by rw [kx]; exact h1), kx] at hu
        rw [str_other _ (by rw [ky]; exact h1), ky] at hu'
        rw [kx, ky, ← kx] at he
        have e : (Except.ok (k.className ++ " at ".toList ++ cellsText x.clues ++ [':', ' '] ++ numsText x.values) : Except PyErr (List Char)) =
            .ok (k.className ++ " at ".toList ++ cellsText y.clues ++ [':', ' '] ++ numsText y.values) := by
          rw [hu, hu', ← kx, he]
        replace e := Except.ok.inj e
        simp only [List.append_assoc] at e
        obtain ⟨g1, g2⟩ := tuple_read code_cell (List.append_cancel_left (List.append_cancel_left e))
        have g3 := List.append_cancel_left g2
        have g4 := tuple_read code_int (l := x.values) (l' := y.values) (s := []) (t := []) (by
          unfold numsText at g3
          rw [List.append_nil, List.append_nil]
          exact g3)
        exact ⟨g1, g4.1⟩
  · unfold Step.str
    rw [h1, h2, h3]

/-! ### Hints -/

/-- A step of this class for this sudoku, as described in FindSpec. -/
private def StepOf (s : Sudoku) : Kind → Step → Prop
  | .calculateCandidates => CalcStep s
  | .nakedSingle => NakedSingleStep s
  | .hiddenSingle => HiddenSingleStep s
  | .nakedTuple n => NakedTupleStep s n
  | .hiddenTuple n => HiddenTupleStep s n
  | .pointingTuple n => PointingTupleStep s n
  | .basicFish n => FishStep s n
  | .bruteforce => fun _ => False

private theorem stepOf {s : Sudoku} {k : Kind} {L : List Step} (h : Complete s k L) {st : Step} (hst : st ∈ L) : StepOf s k st := by
  cases k with
  | calculateCandidates => exact (h.2 st).1 hst
  | nakedSingle => exact (h.2 st).1 hst
  | hiddenSingle => exact h.2.1 st hst
  | nakedTuple n => exact (h.2 st).1 hst
  | hiddenTuple n => exact (h.1 st).1 hst
  | pointingTuple n => exact (h.2 st).1 hst
  | basicFish n => exact (h.2 st).1 hst
  | bruteforce => exact h

private theorem describes_made {st : Step} {k : Kind} {C A : Finset Cell} {V : Finset Int} (h : Describes st k C A V) (hk : k ∈ solvers)
    (h1 : oneField k = false) : Made st := by
  have n1 : st.clues.Nodup := h.cluesSorted.imp fun {a b} hb => by rintro rfl; exact before_irrefl _ hb
  have n2 : st.affected.Nodup := h.affectedSorted.imp fun {a b} hb => by rintro rfl; exact before_irrefl _ hb
  have n3 : st.values.Nodup := h.valuesSorted.imp fun {a b} hb => ne_of_lt hb
  have h2 := describes_mk' (k := k) n1 n2 n3
  rw [h.clues, h.affected, h.values] at h2
  rw [h.unique h2]
  exact .other _ _ _ _ hk h1

private theorem describes_made_single {st : Step} {k : Kind} {a : Cell} {v : Int} (h : Describes st k {a} {a} {v}) (hk : k ∈ solvers) (h1 : oneField k = true) :
    Made st := by
  rw [h.unique describes_single]
  exact .single _ _ _ hk h1

private theorem stepOf_made {s : Sudoku} {k : Kind} (hk : k ∈ solvers) {st : Step} (h : StepOf s k st) : Made st ∧ st.kind = k := by
  cases k with
  | calculateCandidates => obtain ⟨_, _, _, _, _, h⟩ := h; exact ⟨describes_made h hk rfl, h.kind⟩
  | nakedSingle => obtain ⟨_, _, _, _, _, h⟩ := h; exact ⟨describes_made_single h hk rfl, h.kind⟩
  | hiddenSingle => obtain ⟨_, _, _, _, _, _, _, h⟩ := h; exact ⟨describes_made_single h hk rfl, h.kind⟩
  | nakedTuple n => obtain ⟨_, _, _, _, _, _, _, h⟩ := h; exact ⟨describes_made h hk rfl, h.kind⟩
  | hiddenTuple n => obtain ⟨_, _, _, _, _, _, h⟩ := h; exact ⟨describes_made h hk rfl, h.kind⟩
  | pointingTuple n => obtain ⟨_, _, _, _, _, _, _, h⟩ := h; exact ⟨describes_made h hk rfl, h.kind⟩
  | basicFish n => obtain ⟨_, _, _, _, h⟩ := h; exact ⟨describes_made h hk rfl, h.kind⟩
  | bruteforce => exact h.elim

private theorem same_unit {s : Sudoku} {k : Line} {e f a : Cell} (h1 : a ∈ unitFields s k e) (h2 : a ∈ unitFields s k f) : unitFields s k e = unitFields s k f :=
  (unitFields_eq (mem_unitFields.1 h1).2).trans (unitFields_eq (mem_unitFields.1 h2).2).symm

private theorem places_congr {s : Sudoku} {k k' : Line} {e f : Cell} (h : unitFields s k e = unitFields s k' f) (v : Int) : places s k e v = places s k' f v := by
  unfold places
  rw [h]

private theorem pointing_same {s : Sudoku} {n : Nat} (hn : 2 ≤ n) {k k' l l' : Line} {e f g h : Cell} {v : Int}
    (h1 : k = .box ∧ k' ≠ .box ∨ k ≠ .box ∧ k' = .box) (h2 : l = .box ∧ l' ≠ .box ∨ l ≠ .box ∧ l' = .box)
    (p1 : PointingPattern s n k k' e f v) (p2 : PointingPattern s n l l' g h v) (he : places s k e v = places s l g v) :
    pointingTargets s k' f (places s k e v) v = pointingTargets s l' h (places s l g v) v := by
  obtain ⟨a, ha⟩ : (places s k e v).Nonempty := by
    rw [← Finset.card_pos, p1.card]; omega
  have ha' : a ∈ places s l g v := he ▸ ha
  have k1 : k' ≠ l := by
    rintro rfl
    obtain ⟨x, hx⟩ := p1.useful
    unfold pointingTargets at hx
    rw [he, places_congr (same_unit (p1.sub ha) (places_sub ha')) v, Finset.sdiff_self] at hx
    exact absurd hx (Finset.notMem_empty _)
  have k2 : l' ≠ k := by
    rintro rfl
    obtain ⟨x, hx⟩ := p2.useful
    unfold pointingTargets at hx
    rw [← he, places_congr (same_unit (p2.sub ha') (places_sub ha)) v, Finset.sdiff_self] at hx
    exact absurd hx (Finset.notMem_empty _)
  have k3 : k' = l' := by
    have hcross : ∀ x y : Cell, places s k e v ⊆ unitFields s .row x → places s k e v ⊆ unitFields s .column y → False := by
      intro x y hx hy
      have := row_column hx hy
      rw [p1.card] at this
      omega
    have s1 := p1.sub
    have s2 := p2.sub
    rw [← he] at s2
    cases k' <;> cases l' <;> first
      | rfl
      | exact (hcross _ _ s1 s2).elim
      | exact (hcross _ _ s2 s1).elim
      | (exfalso; simp at h1 h2; simp_all)
  subst k3
  unfold pointingTargets
  rw [he, places_congr (same_unit (p1.sub ha) (p2.sub ha')) v]

private theorem fish_same {s : Sudoku} {n : Nat} {b : Bool} {v : Int} {I J : Finset Nat} (p1 : FishPattern s n b v I)
    (p2 : FishPattern s n (!b) v J) (he : fishBase s b v I = fishBase s (!b) v J) : False := by
  obtain ⟨a, ha⟩ := p1.useful
  unfold fishTargets at ha
  rw [Finset.mem_filter] at ha
  obtain ⟨hg, hx, hn, hv⟩ := ha
  obtain ⟨c, hc, hca⟩ := Finset.mem_image.1 hx
  rw [he] at hc hn
  unfold fishBase at hc hn
  obtain ⟨j, hj, hcj⟩ := Finset.mem_biUnion.1 hc
  refine hn (Finset.mem_biUnion.2 ⟨j, hj, mem_places.2 ⟨mem_unitFields.2 ⟨mem_fields.1 hg, ?_⟩, hv⟩⟩)
  have := (mem_unitFields.1 (mem_places.1 hcj).1).2
  cases b with
  | true =>
    have h1 : j = c.2 := this
    have h2 : c.2 = a.2 := hca
    exact h1.trans h2
  | false =>
    have h1 : j = c.1 := this
    have h2 : c.1 = a.1 := hca
    exact h1.trans h2

private theorem stepOf_same {s : Sudoku} {k : Kind} (hk : k ∈ hintKinds) {st st' : Step} (h : StepOf s k st) (h' : StepOf s k st')
    (hc : st.clues = st'.clues) (hv : st.values = st'.values) : st = st' := by
  cases k with
  | calculateCandidates =>
    obtain ⟨a, V, _, _, _, d⟩ := h
    obtain ⟨a', V', _, _, _, d'⟩ := h'
    have e1 : ({a} : Finset Cell) = {a'} := by rw [← d.clues, ← d'.clues, hc]
    have e2 : V = V' := by rw [← d.values, ← d'.values, hv]
    rw [← e1, ← e2] at d'
    exact d.unique d'
  | nakedSingle =>
    obtain ⟨a, V, _, _, _, d⟩ := h
    obtain ⟨a', V', _, _, _, d'⟩ := h'
    have e1 : ({a} : Finset Cell) = {a'} := by rw [← d.clues, ← d'.clues, hc]
    have e2 : ({V} : Finset Int) = {V'} := by rw [← d.values, ← d'.values, hv]
    rw [← e1, ← e2] at d'
    exact d.unique d'
  | hiddenSingle =>
    obtain ⟨a, _, V, _, _, _, _, d⟩ := h
    obtain ⟨a', _, V', _, _, _, _, d'⟩ := h'
    have e1 : ({a} : Finset Cell) = {a'} := by rw [← d.clues, ← d'.clues, hc]
    have e2 : ({V} : Finset Int) = {V'} := by rw [← d.values, ← d'.values, hv]
    rw [← e1, ← e2] at d'
    exact d.unique d'
  | nakedTuple n =>
    have hn : 0 < n := by simp [hintKinds] at hk; omega
    obtain ⟨k, e, F, he, h0, p, hm, d⟩ := h
    obtain ⟨k', e', F', he', h0', p', hm', d'⟩ := h'
    have e1 : F = F' := by rw [← d.clues, ← d'.clues, hc]
    subst e1
    have e2 : k = k' := by
      have r1 : ¬ k'.rank < k.rank := fun hr => hm k' hr e' he' h0' p'
      have r2 : ¬ k.rank < k'.rank := fun hr => hm' k hr e he h0 p
      revert r1 r2
      cases k <;> cases k' <;> decide
    subst e2
    obtain ⟨a, ha⟩ : F.Nonempty := by rw [← Finset.card_pos, p.card]; exact hn
    have e3 : nakedTargets s k e F = nakedTargets s k e' F := by
      unfold nakedTargets
      rw [same_unit (p.sub ha) (p'.sub ha)]
    rw [← e3] at d'
    exact d.unique d'
  | hiddenTuple n =>
    obtain ⟨k, e, V, he, h0, p, d⟩ := h
    obtain ⟨k', e', V', he', h0', p', d'⟩ := h'
    have e1 : V = V' := by rw [← d.values, ← d'.values, hv]
    have e2 : unitFields s k e = unitFields s k' e' := by rw [← d.clues, ← d'.clues, hc]
    subst e1
    have e3 : hiddenTargets s k e V = hiddenTargets s k' e' V := by
      unfold hiddenTargets
      rw [show places s k e = places s k' e' from funext fun v => places_congr e2 v]
    rw [← e2, ← e3] at d'
    exact d.unique d'
  | pointingTuple n =>
    have hn : 2 ≤ n := by simp [hintKinds] at hk; omega
    obtain ⟨k, k', e, f, v, h1, p, d⟩ := h
    obtain ⟨l, l', g, h, v', h1', p', d'⟩ := h'
    have e1 : v = v' := Finset.singleton_injective (by rw [← d.values, ← d'.values, hv])
    subst e1
    have e2 : places s k e v = places s l g v := by rw [← d.clues, ← d'.clues, hc]
    rw [← pointing_same hn h1 h1' p p' e2, ← e2] at d'
    exact d.unique d'
  | basicFish n =>
    obtain ⟨b, v, I, p, d⟩ := h
    obtain ⟨b', v', J, p', d'⟩ := h'
    have e1 : v = v' := Finset.singleton_injective (by rw [← d.values, ← d'.values, hv])
    subst e1
    have e2 : fishBase s b v I = fishBase s b' v J := by rw [← d.clues, ← d'.clues, hc]
    by_cases hb : b' = b
    · subst hb
      have e3 : fishTargets s b' v I = fishTargets s b' v J := by
        unfold fishTargets
        rw [e2]
      rw [← e2, ← e3] at d'
      exact d.unique d'
    · have hb' : b' = !b := by cases b <;> cases b' <;> simp_all
      subst hb'
      exact (fish_same p p' e2).elim
  | bruteforce => exact h.elim

/-- **C87** In `list(hints(s))` steps with the same text `str(step)` are equal in everything, also in the affected fields, which the text does not show; each has
a text. -/
theorem C87_hints (π : Orders Watch) (hπ : π.Ok) (s : Sudoku) :
    ∃ L : List Step, hints Prod.fst (watch leave) π (s, []) = (s, L.map fun st => (s, st)) ∧
      ∀ st ∈ L, (∃ t, st.str = .ok t) ∧ ∀ st' ∈ L, st.str = st'.str → st = st' := by
  obtain ⟨Ls, h1, h2⟩ := C66_hints π hπ s
  refine ⟨Ls.flatten, h1, ?_⟩
  have hof : ∀ st ∈ Ls.flatten, ∃ k ∈ hintKinds, StepOf s k st := by
    intro st hst
    obtain ⟨L, hL, hst⟩ := List.mem_flatten.1 hst
    obtain ⟨i, hi, rfl⟩ := List.getElem_of_mem hL
    have hi' : i < hintKinds.length := by rw [h2.length_eq]; exact hi
    exact ⟨hintKinds[i], List.getElem_mem _, stepOf (List.Forall₂.get h2 hi' hi) hst⟩
  have hsub : ∀ k ∈ hintKinds, k ∈ solvers := by decide
  intro st hst
  obtain ⟨k, hk, ho⟩ := hof st hst
  obtain ⟨m1, m2⟩ := stepOf_made (hsub k hk) ho
  refine ⟨(C87_str st st m1 m1).1, fun st' hst' he => ?_⟩
  obtain ⟨k', hk', ho'⟩ := hof st' hst'
  obtain ⟨m1', m2'⟩ := stepOf_made (hsub k' hk') ho'
  obtain ⟨g1, g2, g3⟩ := (C87_str st st' m1 m1').2.1 he
  have e : k' = k := by rw [← m2, ← m2', g1]
  subst e
  exact stepOf_same hk ho ho' g2 g3

/-! ## Samples -/

/-- README.rst. -/
example : (Step.single .hiddenSingle (2, 0) 3).str = .ok "HiddenSingle at (2, 0): 3".toList ∧
    (Step.single .hiddenSingle (2, 0) 3).repr = .ok "HiddenSingle(2, 0, 3)".toList := by decide +kernel
example : (Step.mk' .calculateCandidates [(0, 0)] [(0, 0)] [2, 1]).str = .ok "CalculateCandidates at ((0, 0),): (1, 2)".toList := by decide +kernel
example : (Step.mk' (.nakedTuple 2) [(0, 1), (0, 0)] [(0, 12)] [2, 1]).repr = .ok "NakedPair(((0, 0), (0, 1)), ((0, 12),), (1, 2))".toList := by decide +kernel
example : (Step.mk' (.pointingTuple 3) [] [(1, 1)] [7]).str = .ok "PointingTriple at (): (7,)".toList := by decide +kernel
example : Made (Step.mk' (.basicFish 2) [(0, 0), (0, 3), (3, 0), (3, 3)] [(1, 0)] [1]) := .other _ _ _ _ (by decide) rfl

/-- Without the affected fields different steps can have the same text. -/
example : (Step.mk' (.nakedTuple 2) [(0, 0), (0, 1)] [(0, 2)] [1, 2]).str = (Step.mk' (.nakedTuple 2) [(0, 0), (0, 1)] [(1, 0)] [1, 2]).str ∧
    Step.mk' (.nakedTuple 2) [(0, 0), (0, 1)] [(0, 2)] [1, 2] ≠ Step.mk' (.nakedTuple 2) [(0, 0), (0, 1)] [(1, 0)] [1, 2] := by decide +kernel

end Props
