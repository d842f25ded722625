import Verif.Model.ActionText
import Verif.Props.StepText
import Verif.Props.Actions

set_option autoImplicit false

/-!
# C108: the texts of actions
-/

open Spec

namespace Props

open Actions

/-! ## Reading lists and tuples -/

/-- `,` or a closing bracket -/
private def Stop (c : Char) : Prop := c = ',' ∨ c = ']' ∨ c = ')'

private theorem Stop.not_numeral {c : Char} (h : Stop c) : ¬ Numeral c := by
  rcases h with rfl | rfl | rfl <;> unfold Numeral <;> decide

/-- Members of a list can be read. -/
private structure ListCode {α : Type} (f : α → List Char) : Prop where
  read : ∀ x y c d s t, Stop c → Stop d → f x ++ c :: s = f y ++ d :: t → x = y ∧ c :: s = d :: t
  first : ∀ x s c t, Stop c → f x ++ s ≠ c :: t

private theorem listCode_int : ListCode Py.intStr := by
  refine ⟨fun x y c d s t hc hd h => intStr_next hc.not_numeral hd.not_numeral h, fun x s d t hd h => ?_⟩
  cases hx : Py.intStr x with
  | nil => exact Py.intStr_ne_nil x hx
  | cons c l =>
    rw [hx] at h
    have h1 := (List.cons.inj h).1
    have h2 := Py.intStr_chars x c (by rw [hx]; exact List.mem_cons_self ..)
    rw [h1] at h2
    exact hd.not_numeral h2

private theorem pairText_eq (p : Int × Int) : pairText p = '(' :: (Py.intStr p.1 ++ [',', ' '] ++ Py.intStr p.2 ++ [')']) := by
  simp [pairText, Solvers.tupleText, Py.join]

private theorem pairText_read {a b : Int × Int} {s t : List Char} (h : pairText a ++ s = pairText b ++ t) : a = b ∧ s = t := by
  rw [pairText_eq, pairText_eq] at h
  simp only [List.append_assoc, List.cons_append, List.nil_append] at h
  obtain ⟨h1, h2⟩ := intStr_next (Stop.not_numeral (.inl rfl)) (Stop.not_numeral (.inl rfl)) (List.cons.inj h).2
  obtain ⟨h3, h4⟩ := intStr_next (Stop.not_numeral (.inr (.inr rfl))) (Stop.not_numeral (.inr (.inr rfl))) (List.cons.inj (List.cons.inj h2).2).2
  exact ⟨Prod.ext h1 h3, (List.cons.inj h4).2⟩

private theorem listCode_pair : ListCode pairText := by
  refine ⟨fun x y c d s t _ _ h => pairText_read h, fun x s c t hc h => ?_⟩
  rw [pairText_eq] at h
  have := (List.cons.inj h).1
  rcases hc with rfl | rfl | rfl <;> exact absurd this (by decide)

private def more {α : Type} (f : α → List Char) (l : List α) : List Char := l.flatMap fun x => [',', ' '] ++ f x

private theorem more_cons {α : Type} (f : α → List Char) (x : α) (l : List α) : more f (x :: l) = ',' :: ' ' :: (f x ++ more f l) := rfl

private theorem more_head {α : Type} (f : α → List Char) (l : List α) {e : Char} (he : Stop e) (s : List Char) :
    ∃ c u, Stop c ∧ more f l ++ e :: s = c :: u := by
  cases l with
  | nil => exact ⟨e, s, he, rfl⟩
  | cons x l => exact ⟨',', _, .inl rfl, rfl⟩

private theorem one_more {α : Type} {f : α → List Char} (hf : ListCode f) {e : Char} (he : Stop e) {s t : List Char} {x y : α} {l l' : List α}
    (h : f x ++ (more f l ++ e :: s) = f y ++ (more f l' ++ e :: t)) : x = y ∧ more f l ++ e :: s = more f l' ++ e :: t := by
  obtain ⟨c, u, hc, hcu⟩ := more_head f l he s
  obtain ⟨d, v, hd, hdv⟩ := more_head f l' he t
  rw [hcu, hdv] at h ⊢
  exact hf.read _ _ _ _ _ _ hc hd h

private theorem more_read {α : Type} {f : α → List Char} (hf : ListCode f) {e : Char} (he : Stop e) (hc : e ≠ ',') {s t : List Char} :
    ∀ {l l' : List α}, more f l ++ e :: s = more f l' ++ e :: t → l = l' ∧ s = t
  | [], [], h => ⟨rfl, (List.cons.inj h).2⟩
  | [], _ :: _, h => absurd (List.cons.inj h).1 hc
  | _ :: _, [], h => absurd (List.cons.inj h).1.symm hc
  | x :: l, y :: l', h => by
      rw [more_cons, more_cons] at h
      simp only [List.cons_append, List.append_assoc] at h
      obtain ⟨h1, h2⟩ := one_more hf he (List.cons.inj (List.cons.inj h).2).2
      obtain ⟨h3, h4⟩ := more_read hf he hc h2
      exact ⟨by rw [h1, h3], h4⟩

private theorem join_more {α : Type} (f : α → List Char) : ∀ (x : α) (l : List α), Py.join [',', ' '] ((x :: l).map f) = f x ++ more f l
  | x, [] => by simp [Py.join, more]
  | x, y :: l => by
      have := join_more f y l
      simp only [List.map_cons] at this ⊢
      rw [Py.join, this]
      simp [more]

private theorem tuple_nil {α : Type} (f : α → List Char) : Solvers.tupleText (([] : List α).map f) = ['(', ')'] := rfl

private theorem tuple_one {α : Type} (f : α → List Char) (x : α) : Solvers.tupleText ([x].map f) = '(' :: (f x ++ [',', ')']) := rfl

private theorem tuple_more {α : Type} (f : α → List Char) (x y : α) (l : List α) :
    Solvers.tupleText ((x :: y :: l).map f) = '(' :: (f x ++ more f (y :: l) ++ [')']) := by
  rw [← join_more]; rfl

private theorem list_read {α : Type} {f : α → List Char} (hf : ListCode f) {s t : List Char} {l l' : List α}
    (h : seqText .list (l.map f) ++ s = seqText .list (l'.map f) ++ t) : l = l' ∧ s = t := by
  have he : Stop ']' := .inr (.inl rfl)
  unfold seqText at h
  simp only [List.append_assoc, List.cons_append, List.nil_append] at h
  replace h := (List.cons.inj h).2
  cases l with
  | nil =>
    cases l' with
    | nil => exact ⟨rfl, (List.cons.inj h).2⟩
    | cons y l' =>
      rw [join_more, List.append_assoc] at h
      exact absurd h.symm (hf.first _ _ _ _ he)
  | cons x l =>
    cases l' with
    | nil =>
      rw [join_more, List.append_assoc] at h
      exact absurd h (hf.first _ _ _ _ he)
    | cons y l' =>
      rw [join_more, join_more, List.append_assoc, List.append_assoc] at h
      obtain ⟨h1, h2⟩ := one_more hf he h
      obtain ⟨h3, h4⟩ := more_read hf he (by decide) h2
      exact ⟨by rw [h1, h3], h4⟩

private theorem tuple_read {α : Type} {f : α → List Char} (hf : ListCode f) {s t : List Char} {l l' : List α}
    (h : seqText .tuple (l.map f) ++ s = seqText .tuple (l'.map f) ++ t) : l = l' ∧ s = t := by
  have he : Stop ')' := .inr (.inr rfl)
  have hc : Stop ',' := .inl rfl
  replace h : Solvers.tupleText (l.map f) ++ s = Solvers.tupleText (l'.map f) ++ t := h
  match l, l', h with
  | [], [], h => exact ⟨rfl, (List.cons.inj (List.cons.inj h).2).2⟩
  | [], [y], h =>
    rw [tuple_nil, tuple_one] at h
    simp only [List.cons_append, List.nil_append, List.append_assoc] at h
    exact absurd (List.cons.inj h).2.symm (hf.first _ _ _ _ he)
  | [], y :: z :: l', h =>
    rw [tuple_nil, tuple_more] at h
    simp only [List.cons_append, List.nil_append, List.append_assoc] at h
    exact absurd (List.cons.inj h).2.symm (hf.first _ _ _ _ he)
  | [x], [], h =>
    rw [tuple_nil, tuple_one] at h
    simp only [List.cons_append, List.nil_append, List.append_assoc] at h
    exact absurd (List.cons.inj h).2 (hf.first _ _ _ _ he)
  | x :: y :: l, [], h =>
    rw [tuple_nil, tuple_more] at h
    simp only [List.cons_append, List.nil_append, List.append_assoc] at h
    exact absurd (List.cons.inj h).2 (hf.first _ _ _ _ he)
  | [x], [y], h =>
    rw [tuple_one, tuple_one] at h
    simp only [List.cons_append, List.nil_append, List.append_assoc] at h
    obtain ⟨h1, h2⟩ := hf.read _ _ _ _ _ _ hc hc (List.cons.inj h).2
    exact ⟨by rw [h1], (List.cons.inj (List.cons.inj h2).2).2⟩
  | [x], y :: z :: l', h =>
    rw [tuple_one, tuple_more, more_cons] at h
    simp only [List.cons_append, List.nil_append, List.append_assoc] at h
    obtain ⟨-, h2⟩ := hf.read _ _ _ _ _ _ hc hc (List.cons.inj h).2
    exact absurd (List.cons.inj (List.cons.inj h2).2).1 (by decide)
  | x :: y :: l, [z], h =>
    rw [tuple_one, tuple_more, more_cons] at h
    simp only [List.cons_append, List.nil_append, List.append_assoc] at h
    obtain ⟨-, h2⟩ := hf.read _ _ _ _ _ _ hc hc (List.cons.inj h).2
    exact absurd (List.cons.inj (List.cons.inj h2).2).1 (by decide)
  | x :: y :: l, x' :: y' :: l', h =>
    rw [tuple_more, tuple_more] at h
    simp only [List.cons_append, List.nil_append, List.append_assoc] at h
    obtain ⟨h1, h2⟩ := one_more hf he (List.cons.inj h).2
    obtain ⟨h3, h4⟩ := more_read hf he (by decide) h2
    exact ⟨by rw [h1, h3], h4⟩

private theorem seq_head (q : Seq) (l : List (List Char)) : ∃ u, seqText q l = (if q = .list then '[' else '(') :: u := by
  cases q with
  | list => exact ⟨_, rfl⟩
  | tuple =>
    match l with
    | [] => exact ⟨_, rfl⟩
    | [x] => exact ⟨_, rfl⟩
    | x :: y :: l => exact ⟨_, rfl⟩

private theorem seq_read {α : Type} {f : α → List Char} (hf : ListCode f) {q q' : Seq} {s t : List Char} {l l' : List α}
    (h : seqText q (l.map f) ++ s = seqText q' (l'.map f) ++ t) : q = q' ∧ l = l' ∧ s = t := by
  have hq : q = q' := by
    obtain ⟨u, hu⟩ := seq_head q (l.map f)
    obtain ⟨v, hv⟩ := seq_head q' (l'.map f)
    rw [hu, hv] at h
    have := (List.cons.inj h).1
    revert this
    cases q <;> cases q' <;> decide
  subst hq
  cases q with
  | list => exact ⟨rfl, list_read hf h⟩
  | tuple => exact ⟨rfl, tuple_read hf h⟩

/-! ## C108 -/

/-- **C108** The text of an action tells everything: actions with the same text are the same, whether the coordinates and
candidates are in lists or in tuples (which the text shows as well). -/
theorem C108_injective (a b : Action Int) (p p' q q' : Seq) (h : str p q a = str p' q' b) : a = b ∧ p = p' := by
  cases a with
  | removeCandidates cs vs =>
    cases b with
    | removeCandidates cs' vs' =>
      unfold str at h
      simp only [List.append_assoc] at h
      obtain ⟨h0, h1, h2⟩ := seq_read listCode_pair (List.append_cancel_left h)
      obtain ⟨-, h3, -⟩ := seq_read listCode_int (List.append_cancel_left h2)
      exact ⟨by rw [h1, h3], h0⟩
    | setNumber cs' v' => exact absurd (List.cons.inj h).1 (by decide)
  | setNumber cs v =>
    cases b with
    | removeCandidates cs' vs' => exact absurd (List.cons.inj h).1 (by decide)
    | setNumber cs' v' =>
      unfold str at h
      simp only [List.append_assoc] at h
      obtain ⟨h0, h1, h2⟩ := seq_read listCode_pair (List.append_cancel_left h)
      have hb : Stop ')' := .inr (.inr rfl)
      obtain ⟨h3, -⟩ := intStr_next hb.not_numeral hb.not_numeral (List.append_cancel_left h2)
      exact ⟨by rw [h1, h3], h0⟩

/-- The text of a pair. -/
private theorem pairSpec_eq (p : Int × Int) : pairText p = "(".toList ++ Py.intStr p.1 ++ ", ".toList ++ Py.intStr p.2 ++ ")".toList := by
  have e4 : ", ".toList = [',', ' '] := by decide
  have e5 : ")".toList = [')'] := by decide
  have e8 : "(".toList = ['('] := by decide
  rw [pairText_eq, e4, e5, e8]
  simp

/-- **C108** The texts: the names of the classes, the coordinates and the numbers, as Python shows them. -/
theorem C108_text (p q : Seq) (cs : List (Int × Int)) (v : Int) (vs : List Int) :
    str p q (.setNumber cs v) = "SetNumber(".toList ++
      seqText p (cs.map fun a => "(".toList ++ Py.intStr a.1 ++ ", ".toList ++ Py.intStr a.2 ++ ")".toList) ++ ", ".toList ++ Py.intStr v ++ ")".toList ∧
    str p q (.removeCandidates cs vs) = "RemoveCandidates(".toList ++
      seqText p (cs.map fun a => "(".toList ++ Py.intStr a.1 ++ ", ".toList ++ Py.intStr a.2 ++ ")".toList) ++ ", ".toList ++
      seqText q (vs.map Py.intStr) ++ ")".toList := by
  have e4 : ", ".toList = [',', ' '] := by decide
  have e5 : ")".toList = [')'] := by decide
  have e9 : pairText = fun a : Int × Int => "(".toList ++ Py.intStr a.1 ++ ", ".toList ++ Py.intStr a.2 ++ ")".toList := funext pairSpec_eq
  rw [← e9, e4, e5]
  exact ⟨rfl, rfl⟩

/-- **C108** How Python shows lists and tuples: the members between brackets, separated by `", "`; a comma after the only
member of a tuple. -/
theorem C108_sequences (l : List (List Char)) :
    seqText .list l = "[".toList ++ Py.join ", ".toList l ++ "]".toList ∧
    seqText .tuple l = "(".toList ++ Py.join ", ".toList l ++ (if l.length = 1 then ",)".toList else ")".toList) := by
  have e1 : "[".toList = ['['] := by decide
  have e2 : "]".toList = [']'] := by decide
  have e3 : ",)".toList = [',', ')'] := by decide
  have e4 : ", ".toList = [',', ' '] := by decide
  have e5 : ")".toList = [')'] := by decide
  have e8 : "(".toList = ['('] := by decide
  rw [e1, e2, e3, e4, e5, e8]
  refine ⟨rfl, ?_⟩
  match l with
  | [] => rfl
  | [x] => simp [seqText, Solvers.tupleText, Py.join]
  | x :: y :: l => simp [seqText, Solvers.tupleText]

-- with several fields and numbers
example : str .list .list (.removeCandidates [(0, 0), (10, -2)] [1, 12, 3]) = "RemoveCandidates([(0, 0), (10, -2)], [1, 12, 3])".toList := by decide +kernel
example : str .tuple .tuple (.removeCandidates [(0, 0)] [5]) = "RemoveCandidates(((0, 0),), (5,))".toList := by decide +kernel
example : str .list .list (.setNumber [] 0) = "SetNumber([], 0)".toList := by decide +kernel

-- the actions made by `decode_action`: coordinates in a tuple, candidates in a list
example : (Notation.decodeAction "r1c2,r12c3<>47".toList 3 3).map (str decodedCoordinates decodedCandidates) =
    .ok "RemoveCandidates(((0, 1), (0, 2), (1, 2)), [4, 7])".toList := by decide +kernel
example : (Notation.decodeAction "r1c2=4".toList 3 3).map (str decodedCoordinates decodedCandidates) =
    .ok "SetNumber(((0, 1),), 4)".toList := by decide +kernel

end Props
