import Verif.Props.CandidateText

set_option autoImplicit false

/-!
# What a text means if a number separator is given (C105)

`decode(s, number_sep=d, sudoku_sep=b, candidate_sep=k)` for any strings `d`, `b` and `k` without common characters, such as `", "`, `"\n\n"` and `";"`.
A text consists of items (without whitespace and characters of `d` and `b`), with a gap between two items: `d` or a single
whitespace character not in `d`, `b` and `k`.  There may be whitespace before the first and behind the last item.
-/

open Spec Codec

namespace Props

/-- The arguments of `decode`: the separators, which are not empty; `empty` and `box_size` as in `Standard`. -/
structure Separated (p : Args) (e : Char) (d b k : List Char) : Prop where
  empty : p.empty = [e]
  latin : e.toNat < 256
  visible : Py.isSpace e = false
  numberSep : p.numberSep = d
  numberSep_ne : d ≠ []
  sudokuSep : p.sudokuSep = b
  sudokuSep_ne : b ≠ []
  apart : ∀ c ∈ d, c ∉ b
  candidateSep : p.candidateSep = k
  same : SameOk p

/-- The first item, and each gap with the next item. -/
def woven (x : List Char) (rest : List (List Char × List Char)) : List Char := x ++ rest.flatMap fun gy => gy.1 ++ gy.2

/-- The items. -/
def itemsOf (x : List Char) (rest : List (List Char × List Char)) : List (List Char) := x :: rest.map Prod.snd

/-- No whitespace, no character of the separators. -/
def PlainItem (d b x : List Char) : Prop := ∀ c ∈ x, Py.isSpace c = false ∧ c ∉ d ∧ c ∉ b

/-- What may stand between two items. -/
def Gap (d b k g : List Char) : Prop := g = d ∨ ∃ c ∈ Py.whitespace, c ∉ d ∧ c ∉ b ∧ c ∉ k ∧ g = [c]

/-- A text of items as described above; the first and the last item are not empty (the others may be). -/
structure Woven (d b k : List Char) (x : List Char) (rest : List (List Char × List Char)) : Prop where
  item : ∀ y ∈ itemsOf x rest, PlainItem d b y
  gap : ∀ gy ∈ rest, Gap d b k gy.1
  first : x ≠ []
  last : ∀ y, (itemsOf x rest).getLast? = some y → y ≠ []

/-- The number an item stands for; `int` is Python's. -/
def itemValue (e : Char) (x : List Char) : Except PyErr Int := if x = [e] then .ok 0 else Py.int x

private theorem itemNumber_eq {p : Args} {e : Char} {d b k : List Char} (hp : Separated p e d b k) (x : List Char) : itemNumber p x = itemValue e x := by
  unfold itemNumber itemValue
  by_cases hx : x = [e]
  · subst hx
    rw [if_pos (hp.same.2 e hp.latin hp.empty), if_pos rfl]
  · rw [if_neg fun h => hx ((hp.same.1 _ h).trans hp.empty), if_neg hx]

private theorem join_woven (d x : List Char) (rest : List (List Char × List Char)) :
    Py.join d (itemsOf x rest) = x ++ rest.flatMap fun gy => d ++ gy.2 := by
  unfold itemsOf
  induction rest generalizing x with
  | nil => simp [Py.join]
  | cons gy rest ih =>
    rw [List.map_cons, Py.join_cons _ _ (by simp), ih, List.flatMap_cons]
    simp

private theorem space_special {p : Args} {e : Char} {d b k : List Char} (hp : Separated p e d b k) {c : Char} (hc : c ∈ Py.whitespace)
    (hd : c ∉ d) (hb : c ∉ b) (hk : c ∉ k) : c ∉ special p := by
  intro hs
  unfold special at hs
  rw [hp.empty, hp.sudokuSep, hp.candidateSep, hp.numberSep] at hs
  simp only [List.mem_append, List.mem_singleton] at hs
  rcases hs with ((rfl | hs) | hs) | hs
  · have h1 := hp.visible
    rw [whitespace_isSpace hc] at h1
    cases h1
  · exact hb hs
  · exact hk hs
  · exact hd hs

private theorem removeSpace_append (p : Args) (a b : List Char) : removeSpace p (a ++ b) = removeSpace p a ++ removeSpace p b := by
  rw [removeSpace_eq, removeSpace_eq, removeSpace_eq, List.flatMap_append]

private theorem removeSpace_item {p : Args} {d b x : List Char} (hx : PlainItem d b x) : removeSpace p x = x := by
  refine removeSpace_id p fun c hc hw => ?_
  have := (hx c hc).1
  rw [whitespace_isSpace hw] at this
  cases this

private theorem removeSpace_gap {p : Args} {e : Char} {d b k g : List Char} (hp : Separated p e d b k) (hg : Gap d b k g) :
    removeSpace p g = d := by
  rcases hg with rfl | ⟨c, hw, hd, hb, hk, rfl⟩
  · refine removeSpace_id p fun c hc _ => ?_
    unfold special
    rw [hp.numberSep]
    simp [hc]
  · rw [removeSpace_eq, List.flatMap_cons, List.flatMap_nil, List.append_nil, if_pos ⟨hw, space_special hp hw hd hb hk⟩, hp.numberSep]

private theorem removeSpace_woven {p : Args} {e : Char} {d b k : List Char} (hp : Separated p e d b k) {x : List Char} {rest : List (List Char × List Char)}
    (hi : ∀ y ∈ itemsOf x rest, PlainItem d b y) (hg : ∀ gy ∈ rest, Gap d b k gy.1) :
    removeSpace p (woven x rest) = Py.join d (itemsOf x rest) := by
  rw [join_woven]
  unfold woven
  rw [removeSpace_append, removeSpace_item (hi x (by simp [itemsOf]))]
  congr 1
  have hi' : ∀ gy ∈ rest, PlainItem d b gy.2 := fun gy h => hi _ (by simp only [itemsOf, List.mem_cons, List.mem_map]; exact Or.inr ⟨gy, h, rfl⟩)
  clear hi
  induction rest with
  | nil => rw [removeSpace_eq]; rfl
  | cons gy rest ih =>
    rw [List.flatMap_cons, List.flatMap_cons, removeSpace_append, ih (fun z hz => hg z (by simp [hz])) (fun z hz => hi' z (by simp [hz]))]
    congr 1
    rw [removeSpace_append, removeSpace_gap hp (hg gy (by simp)), removeSpace_item (hi' gy (by simp))]

private theorem woven_last {x : List Char} {rest : List (List Char × List Char)}
    (h : ∀ y, (itemsOf x rest).getLast? = some y → y ≠ []) :
    ∃ y ∈ itemsOf x rest, y ≠ [] ∧ (woven x rest).getLast? = y.getLast? := by
  rcases List.eq_nil_or_concat rest with rfl | ⟨l, gy, rfl⟩
  · exact ⟨x, by simp [itemsOf], h x (by simp [itemsOf]), by simp [woven]⟩
  · have h1 := h gy.2 (by simp [itemsOf, List.getLast?_cons])
    refine ⟨gy.2, by simp [itemsOf], h1, ?_⟩
    unfold woven
    rw [List.concat_eq_append, List.flatMap_append, List.flatMap_cons, List.flatMap_nil, List.append_nil, ← List.append_assoc,
      ← List.append_assoc, List.getLast?_append]
    obtain ⟨z, hz⟩ := Option.isSome_iff_exists.1 (List.getLast?_isSome.2 h1)
    rw [hz]; rfl

private theorem strip_woven {d b k x : List Char} {rest : List (List Char × List Char)} (hw : Woven d b k x rest)
    {pre post : List Char} (h1 : ∀ c ∈ pre, Py.isSpace c = true) (h2 : ∀ c ∈ post, Py.isSpace c = true) :
    Py.strip (pre ++ woven x rest ++ post) = woven x rest := by
  refine Py.strip_blanks h1 h2 ?_ ?_ ?_
  · intro h
    exact hw.first (List.append_eq_nil_iff.1 h).1
  · intro c hc
    have hx := hw.item x (by simp [itemsOf])
    have hf := hw.first
    unfold woven at hc
    cases x with
    | nil => exact absurd rfl hf
    | cons a x =>
      rw [List.cons_append, List.head?_cons] at hc
      cases hc
      exact (hx c (by simp)).1
  · intro c hc
    obtain ⟨y, hy, -, h⟩ := woven_last hw.last
    rw [h] at hc
    exact (hw.item y hy c (List.mem_of_getLast? hc)).1

private theorem cut_none {b s : List Char} (hb : b ≠ []) (h : ∀ c ∈ s, c ∉ b) : Py.cut b s = none := by
  induction s with
  | nil => rw [Py.cut, if_neg hb]
  | cons c s ih =>
    rw [Py.cut, if_neg, ih fun a ha => h a (by simp [ha])]
    intro hp
    obtain ⟨a, b, rfl⟩ := List.exists_cons_of_ne_nil hb
    rw [List.isPrefixOf_iff_prefix, List.cons_prefix_cons] at hp
    exact h c (by simp) (by rw [hp.1]; simp)

private theorem cut_some {b s : List Char} (hb : b ≠ []) (h : ∀ c ∈ s, c ∉ b) (t : List Char) :
    Py.cut b (s ++ (b ++ t)) = some (s, t) := by
  induction s with
  | nil =>
    rw [List.nil_append]
    obtain ⟨a, b, rfl⟩ := List.exists_cons_of_ne_nil hb
    rw [List.cons_append, Py.cut, if_pos]
    · simp
    · rw [List.isPrefixOf_iff_prefix, ← List.cons_append]; exact List.prefix_append ..
  | cons c s ih =>
    rw [List.cons_append, Py.cut, if_neg, ih fun a ha => h a (by simp [ha])]
    intro hp
    obtain ⟨a, b, rfl⟩ := List.exists_cons_of_ne_nil hb
    rw [List.isPrefixOf_iff_prefix, List.cons_prefix_cons] at hp
    exact h c (by simp) (by rw [hp.1]; simp)

private theorem bar_join {d b : List Char} (hd : ∀ c ∈ d, c ∉ b) {l : List (List Char)} (h : ∀ y ∈ l, PlainItem d b y) :
    ∀ c ∈ Py.join d l, c ∉ b := by
  intro c hm
  rcases Py.mem_join hm with h1 | ⟨y, hy, h1⟩
  · exact hd c h1
  · exact (h y hy c h1).2.2

private theorem items_join {p : Args} {e : Char} {d b k : List Char} (hp : Separated p e d b k) {l : List (List Char)} (hne : l ≠ [])
    (h : ∀ y ∈ l, PlainItem d b y) : items p (Py.join d l) = .ok l := by
  rw [items_split (by rw [hp.numberSep]; exact hp.numberSep_ne), hp.numberSep]
  exact Py.split_join hp.numberSep_ne hne fun y hy c hc => (h y hy c hc).2.1

private theorem decode_woven {p : Args} {e : Char} {d b k : List Char} (hp : Separated p e d b k) {x : List Char} {rest : List (List Char × List Char)}
    (hw : Woven d b k x rest) {pre post : List Char} (h1 : ∀ c ∈ pre, Py.isSpace c = true) (h2 : ∀ c ∈ post, Py.isSpace c = true) :
    decode p (pre ++ woven x rest ++ post) = match p.boxSize with
      | some (w, h) => readNumbers p (itemsOf x rest) 0 0 (Sudoku.new w h)
      | none => match guessBox (itemsOf x rest).length with
        | .error er => .error er
        | .ok (w, h) => readNumbers p (itemsOf x rest) 0 0 (Sudoku.new w h) := by
  unfold decode
  rw [strip_woven hw h1 h2, removeSpace_woven hp hw.item hw.gap]
  have hne : itemsOf x rest ≠ [] := by simp [itemsOf]
  have hparts : parts p (Py.join d (itemsOf x rest)) = .ok (Py.join d (itemsOf x rest), []) := by
    unfold parts
    rw [hp.sudokuSep, cut_none hp.sudokuSep_ne (bar_join hp.apart hw.item)]
  rw [hparts]
  simp only
  unfold boxFor
  rw [items_join hp hne hw.item]
  have hlast : ∀ w h, (match readNumbers p (itemsOf x rest) 0 0 (Sudoku.new w h) with
      | Except.error er => Except.error er
      | Except.ok t => decodeCandidates p [] t) = readNumbers p (itemsOf x rest) 0 0 (Sudoku.new w h) := by
    intro w h
    cases readNumbers p (itemsOf x rest) 0 0 (Sudoku.new w h) <;> rfl
  cases p.boxSize with
  | some b => obtain ⟨w, h⟩ := b; exact hlast w h
  | none =>
    simp only
    cases guessBox (itemsOf x rest).length with
    | error er => rfl
    | ok b => obtain ⟨w, h⟩ := b; exact hlast w h

/-- **C105** (given box size) The fields are the items, row by row; missing ones are empty, surplus ones ignored; `ValueError`
exactly if one of the items used is no number (and not `empty`). -/
theorem C105_fields (p : Args) (e : Char) (d b k : List Char) (hp : Separated p e d b k) (w h : Nat) (hN : 0 < w * h) (hbox : p.boxSize = some (w, h))
    (x : List Char) (rest : List (List Char × List Char)) (hw : Woven d b k x rest) (pre post : List Char)
    (hpre : ∀ c ∈ pre, Py.isSpace c = true) (hpost : ∀ c ∈ post, Py.isSpace c = true) :
    (∀ v : Nat → Int, (∀ i < (w * h) ^ 2, ∀ y, (itemsOf x rest)[i]? = some y → itemValue e y = .ok (v i)) →
      ∃ u, decode p (pre ++ woven x rest ++ post) = .ok u ∧ Plain w h u ∧ ∀ r c, r < w * h → c < w * h →
        u.get (r, c) = if r * (w * h) + c < (itemsOf x rest).length then v (r * (w * h) + c) else 0) ∧
    ((∃ i < (w * h) ^ 2, ∃ y er, (itemsOf x rest)[i]? = some y ∧ itemValue e y = .error er) →
      decode p (pre ++ woven x rest ++ post) = .error .ValueError) := by
  rw [decode_woven hp hw hpre hpost, hbox]
  simp only
  constructor
  · intro v hall
    have hok := readNumbers_ok p hN (itemsOf x rest) v (by
      intro i hi h1
      rw [itemNumber_eq hp]
      exact hall i (by rw [Nat.pow_two]; exact h1) _ (List.getElem?_eq_getElem hi))
    refine ⟨_, hok, ⟨rfl, rfl, ?_, fun _ => rfl⟩, ?_⟩
    · intro a ha
      show (if _ then _ else _) = _
      rw [if_neg fun h => ha ⟨h.1, h.2.1⟩]
    · intro r c hr hc
      show (if _ then _ else _) = _
      simp only [hr, hc, true_and]
  · rintro ⟨i, h1, y, er, h2, h3⟩
    obtain ⟨hi, h4⟩ := List.getElem?_eq_some_iff.1 h2
    refine readNumbers_error p hN _ ⟨i, hi, by rw [← Nat.pow_two]; exact h1, ?_⟩
    rw [h4, itemNumber_eq hp, h3]
    rw [← itemNumber_eq hp] at h3
    rw [itemNumber_error h3]

/-- **C105** (inferred box size) As in C11, with the number of items in place of the number of characters. -/
theorem C105_inferred (p : Args) (e : Char) (d b k : List Char) (hp : Separated p e d b k) (hbox : p.boxSize = none)
    (x : List Char) (rest : List (List Char × List Char)) (hw : Woven d b k x rest) (pre post : List Char)
    (hpre : ∀ c ∈ pre, Py.isSpace c = true) (hpost : ∀ c ∈ post, Py.isSpace c = true) :
    (∀ m, (itemsOf x rest).length = (m * m) * (m * m) → decode p (pre ++ woven x rest ++ post) =
      decode { p with boxSize := some (m, m) } (pre ++ woven x rest ++ post)) ∧
    (∀ m, (itemsOf x rest).length = m * m → (∀ j, m ≠ j * j) → ¬ m.Prime → decode p (pre ++ woven x rest ++ post) =
      decode { p with boxSize := some (m.minFac, m / m.minFac) } (pre ++ woven x rest ++ post)) ∧
    (∀ m, (itemsOf x rest).length = m * m → m.Prime → decode p (pre ++ woven x rest ++ post) = .error .ValueError) ∧
    ((∀ m, (itemsOf x rest).length ≠ m * m) → decode p (pre ++ woven x rest ++ post) = .error .ValueError) := by
  have hp' : ∀ b', Separated { p with boxSize := b' } e d b k := fun _ =>
    ⟨hp.empty, hp.latin, hp.visible, hp.numberSep, hp.numberSep_ne, hp.sudokuSep, hp.sudokuSep_ne, hp.apart, hp.candidateSep, hp.same⟩
  have hread : ∀ b : Option (Nat × Nat), ∀ (l : List (List Char)) row col (t : Sudoku),
      readNumbers { p with boxSize := b } l row col t = readNumbers p l row col t := by
    intro b l
    induction l with
    | nil => intros; rfl
    | cons x l ih => intro row col t; simp only [readNumbers, itemNumber, ih]
  rw [decode_woven hp hw hpre hpost, hbox]
  simp only
  refine ⟨?_, ?_, ?_, ?_⟩
  · intro m hm
    rw [decode_woven (hp' _) hw hpre hpost, hm, guessBox_square]
    simp only [hread]
  · intro m hm hsq hnp
    rw [decode_woven (hp' _) hw hpre hpost, hm, guessBox_rect hsq, if_neg hnp]
    simp only [hread]
  · intro m hm hpr
    have hsq : ∀ j, m ≠ j * j := by
      rintro j rfl
      exact Nat.not_prime_mul (fun h => by subst h; exact absurd hpr (by decide))
        (fun h => by subst h; exact absurd hpr (by decide)) hpr
    rw [hm, guessBox_rect hsq, if_pos hpr]
  · intro hno
    rw [guessBox_none hno]

/-- **C105** (whitespace counts) Two gap characters in a row, among the fields used, are an error, although "whitespace is
ignored while parsing the string". -/
theorem C105_two_gaps (p : Args) (e : Char) (d b k : List Char) (hp : Separated p e d b k) (w h : Nat) (hN : 0 < w * h) (hbox : p.boxSize = some (w, h))
    (x : List Char) (rest : List (List Char × List Char)) (hw : Woven d b k x rest) (pre post : List Char)
    (hpre : ∀ c ∈ pre, Py.isSpace c = true) (hpost : ∀ c ∈ post, Py.isSpace c = true)
    (i : Nat) (hi : i < (w * h) ^ 2) (hnil : (itemsOf x rest)[i]? = some []) :
    decode p (pre ++ woven x rest ++ post) = .error .ValueError :=
  (C105_fields p e d b k hp w h hN hbox x rest hw pre post hpre hpost).2 ⟨i, hi, [], .ValueError, hnil, rfl⟩

/-! ## Candidates -/

/-- The candidates of a field: numbers separated by `d`. -/
def pieceText (d : List Char) (l : List (List Char)) : List Char := Py.join d l

private theorem strip_piece {d b : List Char} {l : List (List Char)} (h : ∀ y ∈ l, PlainItem d b y) (hne : ∀ y ∈ l, y ≠ []) :
    Py.strip (pieceText d l) = pieceText d l := by
  unfold pieceText
  cases l with
  | nil => rfl
  | cons x l =>
    apply Py.stripBy_ends
    · intro c hc
      rw [Py.head_join (hne x (by simp))] at hc
      exact (h x (by simp) c (List.mem_of_mem_head? hc)).1
    · intro c hc
      obtain ⟨y, hy, h1⟩ := Py.last_join (sep := d) (l := x :: l) (by simp) hne
      rw [h1] at hc
      exact (h y hy c (List.mem_of_getLast? hc)).1

/-- The numbers of a piece, none if there is a bad one; the empty piece is a bad one. -/
def pieceValue (l : List (List Char)) : Except PyErr (List Int) := if l = [] then .error .ValueError else Py.ints l

private theorem pieceCandidates_eq {p : Args} {e : Char} {d b k : List Char} (hp : Separated p e d b k) {l : List (List Char)}
    (h : ∀ y ∈ l, PlainItem d b y) (hne : ∀ y ∈ l, y ≠ []) : pieceCandidates p (pieceText d l) = pieceValue l := by
  unfold pieceCandidates pieceValue
  rw [if_pos (by rw [hp.numberSep]; exact hp.numberSep_ne), strip_piece h hne, hp.numberSep]
  by_cases hl : l = []
  · subst hl
    rw [if_pos rfl]
    have h0 : Py.split (pieceText d []) d = .ok [[]] :=
      Py.split_join (l := [[]]) hp.numberSep_ne (by simp) (fun y hy c hc => by rw [List.mem_singleton.1 hy] at hc; cases hc)
    rw [h0]
    rfl
  · rw [if_neg hl]
    unfold pieceText
    rw [Py.split_join hp.numberSep_ne hl fun y hy c hc => (h y hy c hc).2.1]

private theorem piece_nil {d : List Char} {l : List (List Char)} (hne : ∀ y ∈ l, y ≠ []) (h : pieceText d l = []) : l = [] := by
  cases l with
  | nil => rfl
  | cons y q =>
    exfalso
    have hy := hne y (by simp)
    have h1 := Py.head_join (sep := d) hy q
    unfold pieceText at h
    rw [h] at h1
    exact hy (List.head?_eq_none_iff.1 h1.symm)

private theorem last_commas {k : List Char} (hk : k ≠ []) {c : Char} : ∀ l : List (List Char), (Py.join k l).getLast? = some c →
    (k.getLast? = some c ∧ l.getLast? = some []) ∨ ∃ x ∈ l, x.getLast? = some c := by
  intro l
  induction l with
  | nil => intro h; cases h
  | cons x l ih =>
    by_cases hl : l = []
    · subst hl; intro h; exact Or.inr ⟨x, by simp, h⟩
    · rw [Py.join_cons _ _ hl, List.getLast?_append]
      intro h
      cases hj : (Py.join k l).getLast? with
      | none =>
        rw [hj, Option.none_or, List.getLast?_append] at h
        obtain ⟨z, hz⟩ := Option.isSome_iff_exists.1 (List.getLast?_isSome.2 hk)
        rw [hz] at h
        cases h
        refine Or.inl ⟨hz, ?_⟩
        have h0 : Py.join k l = [] := List.getLast?_eq_none_iff.1 hj
        obtain ⟨y, l', rfl⟩ := List.exists_cons_of_ne_nil hl
        by_cases hl' : l' = []
        · subst hl'
          have : y = [] := h0
          rw [this]; rfl
        · rw [Py.join_cons _ _ hl'] at h0
          exact absurd (List.append_eq_nil_iff.1 (List.append_eq_nil_iff.1 h0).1).2 hk
      | some z =>
        rw [hj] at h
        cases h
        rcases ih hj with ⟨h1, h2⟩ | ⟨y, hy, h1⟩
        · refine Or.inl ⟨h1, ?_⟩
          rw [List.getLast?_cons, h2]; rfl
        · exact Or.inr ⟨y, by simp [hy], h1⟩

/-- **C105** (candidates) With a separator, the candidates of each field used must be given: an empty piece is a
`ValueError`, so that no field in front of another one with candidates can be without candidates.  Here the text is exactly
`d.join(items) + b + k.join(d.join(numbers) for each field)`, with anything behind `b`; if `k` ends with whitespace, which is
removed at the end of the text, the last piece must not be empty. -/
theorem C105_candidates (p : Args) (e : Char) (d b k : List Char) (hp : Separated p e d b k) (hk0 : k ≠ []) (hdk : ∀ c ∈ d, c ∉ k) (w h : Nat) (hN : 0 < w * h)
    (hbox : p.boxSize = some (w, h)) (l : List (List Char)) (hl : l ≠ []) (hitem : ∀ y ∈ l, PlainItem d b y ∧ y ≠ [])
    (v : Nat → Int) (hv : ∀ i < (w * h) ^ 2, ∀ y, l[i]? = some y → itemValue e y = .ok (v i))
    (pieces : List (List (List Char))) (hp1 : ∀ q ∈ pieces, ∀ y ∈ q, PlainItem d b y ∧ y ≠ [] ∧ ∀ c ∈ y, c ∉ k)
    (hpne : pieces ≠ []) (hone : pieces ≠ [[]])
    (hend : pieces.getLast? = some [] → ∀ c, k.getLast? = some c → Py.isSpace c = false) :
    (∀ f : Nat → List Int, (∀ i < (w * h) ^ 2, ∀ q, pieces[i]? = some q → pieceValue q = .ok (f i)) →
      ∃ u, decode p (Py.join d l ++ (b ++ Py.join k (pieces.map (pieceText d)))) = .ok u ∧ u.bw = w ∧ u.bh = h ∧
        ∀ r c, r < w * h → c < w * h →
          (u.get (r, c) = if r * (w * h) + c < l.length then v (r * (w * h) + c) else 0) ∧
          ∀ n, n ∈ u.getCandidates (r, c) ↔ r * (w * h) + c < pieces.length ∧ n ∈ f (r * (w * h) + c)) ∧
    ((∃ i < (w * h) ^ 2, ∃ q er, pieces[i]? = some q ∧ pieceValue q = .error er) →
      decode p (Py.join d l ++ (b ++ Py.join k (pieces.map (pieceText d)))) = .error .ValueError) := by
  have hpl : ∀ y ∈ l, PlainItem d b y := fun y hy => (hitem y hy).1
  have hsplit : Py.split (Py.join k (pieces.map (pieceText d))) k = .ok (pieces.map (pieceText d)) := by
    refine Py.split_join hk0 (by simpa using hpne) ?_
    intro y hy c hc
    obtain ⟨q, hq, rfl⟩ := List.mem_map.1 hy
    rcases Py.mem_join hc with h1 | ⟨y, hy, h1⟩
    · exact hdk c h1
    · exact (hp1 q hq y hy).2.2 c h1
  have hnonempty : Py.join k (pieces.map (pieceText d)) ≠ [] := by
    intro h0
    rw [h0] at hsplit
    have h1 : pieces.map (pieceText d) = [[]] := by
      have : Py.split [] k = .ok [[]] :=
        Py.split_join (l := [[]]) hk0 (by simp) (fun y hy c hc => by rw [List.mem_singleton.1 hy] at hc; cases hc)
      rw [this] at hsplit
      exact (Except.ok.inj hsplit).symm
    obtain ⟨q, rest, rfl⟩ := List.exists_cons_of_ne_nil hpne
    rw [List.map_cons, List.cons.injEq, List.map_eq_nil_iff] at h1
    obtain ⟨h2, rfl⟩ := h1
    exact hone (by rw [piece_nil (fun y hy => (hp1 q (by simp) y hy).2.1) h2])
  -- the text is not changed by the first steps
  have hstrip : Py.strip (Py.join d l ++ (b ++ Py.join k (pieces.map (pieceText d)))) =
      Py.join d l ++ (b ++ Py.join k (pieces.map (pieceText d))) := by
    apply Py.stripBy_ends
    · intro c hc
      cases l with
      | nil => exact absurd rfl hl
      | cons x l =>
        have hx := hitem x (by simp)
        have h1 := Py.head_join (sep := d) hx.2 l
        have h2 : (Py.join d (x :: l)).head? ≠ none := by
          rw [h1]; simpa using hx.2
        rw [List.head?_append, Option.or_of_isSome (by rw [Option.isSome_iff_ne_none]; exact h2), h1] at hc
        exact (hx.1 c (List.mem_of_mem_head? hc)).1
    · intro c hc
      rw [← List.append_assoc, List.getLast?_append] at hc
      cases hj : (Py.join k (pieces.map (pieceText d))).getLast? with
      | none =>
        exact absurd (List.getLast?_eq_none_iff.1 hj) hnonempty
      | some z =>
        rw [hj] at hc
        cases hc
        rcases last_commas hk0 _ hj with ⟨h1, h2⟩ | ⟨x, hx, h1⟩
        · rw [List.getLast?_map] at h2
          obtain ⟨q, hq, h3⟩ := Option.map_eq_some_iff.1 h2
          rw [piece_nil (fun y hy => (hp1 q (List.mem_of_getLast? hq) y hy).2.1) h3] at hq
          exact hend hq c h1
        · obtain ⟨q, hq, rfl⟩ := List.mem_map.1 hx
          by_cases hq0 : q = []
          · subst hq0; cases h1
          · obtain ⟨y, hy, h2⟩ := Py.last_join (sep := d) (l := q) hq0 fun y hy => (hp1 q hq y hy).2.1
            have h3 : (pieceText d q).getLast? = y.getLast? := h2
            rw [h3] at h1
            exact ((hp1 q hq y hy).1 c (List.mem_of_getLast? h1)).1
  have hrs : removeSpace p (Py.join d l ++ (b ++ Py.join k (pieces.map (pieceText d)))) =
      Py.join d l ++ (b ++ Py.join k (pieces.map (pieceText d))) := by
    refine removeSpace_id p fun c hc hw => ?_
    have hitems : ∀ y, PlainItem d b y → c ∉ y := by
      intro y hy hm
      have := (hy c hm).1
      rw [whitespace_isSpace hw] at this
      cases this
    have hds : c ∈ d → c ∈ special p := by unfold special; rw [hp.numberSep]; simp +contextual
    have hbs : c ∈ b → c ∈ special p := by unfold special; rw [hp.sudokuSep]; simp +contextual
    have hks : c ∈ k → c ∈ special p := by unfold special; rw [hp.candidateSep]; simp +contextual
    rw [List.mem_append, List.mem_append] at hc
    rcases hc with hc | hc | hc
    · rcases Py.mem_join hc with h1 | ⟨y, hy, h1⟩
      · exact hds h1
      · exact absurd h1 (hitems y (hpl y hy))
    · exact hbs hc
    · rcases Py.mem_join hc with h1 | ⟨y, hy, h1⟩
      · exact hks h1
      · obtain ⟨q, hq, rfl⟩ := List.mem_map.1 hy
        rcases Py.mem_join h1 with h2 | ⟨y, hy, h2⟩
        · exact hds h2
        · exact absurd h2 (hitems y (hp1 q hq y hy).1)
  have hparts : parts p (Py.join d l ++ (b ++ Py.join k (pieces.map (pieceText d)))) =
      .ok (Py.join d l, Py.join k (pieces.map (pieceText d))) := by
    unfold parts
    rw [hp.sudokuSep, cut_some hp.sudokuSep_ne (bar_join hp.apart hpl)]
    simp only
    rw [if_neg hp.sudokuSep_ne]
  have hnum := readNumbers_ok p hN l v (by
    intro i hi h1
    rw [itemNumber_eq hp]
    exact hv i (by rw [Nat.pow_two]; exact h1) _ (List.getElem?_eq_getElem hi))
  have hbf : boxFor p (Py.join d l) = .ok (w, h) := by unfold boxFor; rw [hbox]
  have hdec : decode p (Py.join d l ++ (b ++ Py.join k (pieces.map (pieceText d)))) =
      readCandidates p (pieces.map (pieceText d)) 0 0 { Sudoku.new w h with
        num := fun a => if a.1 < w * h ∧ a.2 < w * h ∧ a.1 * (w * h) + a.2 < l.length then v (a.1 * (w * h) + a.2) else 0 } := by
    unfold decode
    rw [hstrip, hrs, hparts]
    simp only
    rw [hbf]
    simp only
    rw [items_join hp hl hpl]
    simp only
    rw [hnum]
    simp only
    unfold decodeCandidates
    rw [if_neg hnonempty, hp.candidateSep, hsplit]
  rw [hdec]
  generalize hs : ({ Sudoku.new w h with num := fun a =>
    if a.1 < w * h ∧ a.2 < w * h ∧ a.1 * (w * h) + a.2 < l.length then v (a.1 * (w * h) + a.2) else 0 } : Sudoku) = s
  have hsn : s.n = w * h := by rw [← hs]; rfl
  have hNs : 0 < s.n := hsn ▸ hN
  have hpiece : ∀ q ∈ pieces, pieceCandidates p (pieceText d q) = pieceValue q := fun q hq =>
    pieceCandidates_eq hp (fun y hy => (hp1 q hq y hy).1) fun y hy => (hp1 q hq y hy).2.1
  constructor
  · intro f hf
    have hok := readCandidates_ok p (s := s) hNs (pieces.map (pieceText d)) f (by
      intro i hi h1
      rw [List.length_map] at hi
      rw [List.getElem_map, hpiece _ (List.getElem_mem hi)]
      exact hf i (by rw [Nat.pow_two, ← hsn]; exact h1) _ (List.getElem?_eq_getElem hi))
    refine ⟨_, hok, by rw [← hs]; rfl, by rw [← hs]; rfl, ?_⟩
    intro r c hr hc
    constructor
    · show s.num (r, c) = _
      rw [← hs]
      simp only [hr, hc, true_and]
    · intro n
      show n ∈ (if _ then _ else _) ↔ _
      simp only [hsn, hr, hc, true_and, List.length_map]
      by_cases hlen : r * (w * h) + c < pieces.length
      · rw [if_pos hlen, List.mem_toFinset]; simp [hlen]
      · rw [if_neg hlen, ← hs]
        simp [hlen, Sudoku.new]
  · rintro ⟨i, h1, q, er, h2, h3⟩
    obtain ⟨hi, h4⟩ := List.getElem?_eq_some_iff.1 h2
    have hval : ∀ (y : List Char) e', (pieceCandidates p y).map List.toFinset = .error e' → e' = .ValueError := by
      intro y e' he
      cases hy : pieceCandidates p y with
      | error e'' => rw [hy] at he; cases he; exact pieceCandidates_error hy
      | ok v => rw [hy] at he; cases he
    have hfill := readCandidates_fill p (N := s.n) (pieces.map (pieceText d)) 0 s rfl (Nat.mul_pos hNs hNs)
    rw [Nat.zero_div, Nat.zero_mod] at hfill
    have hqm : q ∈ pieces := h4 ▸ List.getElem_mem hi
    have her : er = .ValueError := by
      have := hpiece q hqm
      rw [h3] at this
      exact pieceCandidates_error this
    subst her
    rw [hfill, fill_error (e := .ValueError) hval _ 0 _
      ⟨i, by rw [List.length_map]; exact hi, by rw [Nat.zero_add, ← Nat.pow_two, hsn]; exact h1, ?_⟩]
    · rfl
    · rw [List.getElem_map, h4, hpiece q hqm, h3]
      rfl

/-- **C105** (a blank before the `'|'`) With a separator, whitespace in front of the `'|'` makes an additional, empty item: with
the inferred box size the text is refused. -/
theorem C105_blank_before_bar :
    decode { standardArgs '0' none with numberSep := [' '] } "1 |1".toList matches .error .ValueError ∧
    (decode { standardArgs '0' none with numberSep := [' '] } "1|1".toList matches .ok _) ∧
    (decode { standardArgs '0' none with numberSep := [';'] } "1; 2; 2; 1".toList matches .error .ValueError) := by
  decide +kernel

/-- The arguments meant by the theorems exist. -/
theorem separatedArgs_ok (box : Option (Nat × Nat)) :
    Separated { standardArgs '.' box with numberSep := [' '] } '.' [' '] ['|'] [','] :=
  ⟨rfl, by decide, by decide, rfl, by decide, rfl, by decide, by decide, rfl, fun item h => of_decide_eq_true h, fun c _ h => by
    show decide ([c] = ['.']) = true
    rw [decide_eq_true_eq]; exact h.symm⟩

/-- `" 10 .\n2 -3\n"`. -/
example : woven ['1', '0'] [([' '], ['.']), (['\n'], ['2']), ([' '], ['-', '3'])] = "10 .\n2 -3".toList := by decide +kernel
example : Woven [' '] ['|'] [','] ['1', '0'] [([' '], ['.']), (['\n'], ['2']), ([' '], ['-', '3'])] := by
  refine ⟨?_, ?_, by decide, ?_⟩
  · unfold PlainItem; decide
  · unfold Gap; decide
  · intro y hy; cases hy; decide
example : ((decode { standardArgs '.' (some (2, 1)) with numberSep := [' '] } " 10 .\n2 -3\n".toList).toOption.map fun t =>
    [t.get (0, 0), t.get (0, 1), t.get (1, 0), t.get (1, 1)]) = some [10, 0, 2, -3] := by decide +kernel
example : ((decode { standardArgs '.' (some (2, 1)) with numberSep := [' '] } "10 . 2 -3|1 10,2".toList).toOption.map fun t =>
    [(0, 0), (0, 1), (1, 0), (1, 1)].map fun a => Solvers.sortSet (t.getCandidates a)) = some [[1, 10], [2], [], []] := by
  decide +kernel
example : decode { standardArgs '.' (some (2, 1)) with numberSep := [' '] } "10 . 2 -3|1 10,,2".toList
    matches .error .ValueError := by decide +kernel

/-- `", "` between numbers, an empty line before the candidates, `";"` between the candidates of two fields. -/
def wideArgs (box : Option (Nat × Nat)) : Args :=
  { standardArgs '.' box with numberSep := [',', ' '], sudokuSep := ['\n', '\n'], candidateSep := [';'] }

theorem wideArgs_ok (box : Option (Nat × Nat)) : Separated (wideArgs box) '.' [',', ' '] ['\n', '\n'] [';'] :=
  ⟨rfl, by decide, by decide, rfl, by decide, rfl, by decide, by decide, rfl, fun item h => of_decide_eq_true h, fun c _ h => by
    show decide ([c] = ['.']) = true
    rw [decide_eq_true_eq]; exact h.symm⟩

example : Woven [',', ' '] ['\n', '\n'] [';'] ['1', '0'] [([',', ' '], ['.']), (['\t'], ['2']), ([',', ' '], ['-', '3'])] := by
  refine ⟨?_, ?_, by decide, ?_⟩
  · unfold PlainItem; decide
  · unfold Gap; decide
  · intro y hy; cases hy; decide
example : ((decode (wideArgs none) "10, .\t2, -3, 5, 6, 7, 8, 9, 1, 2, 3, 4, 5, 6, 7\n\n1, 10;2".toList).toOption.map fun t =>
    (t.bw, [t.get (0, 0), t.get (0, 1), t.get (0, 2), t.get (0, 3)],
      [(0, 0), (0, 1), (1, 0)].map fun a => Solvers.sortSet (t.getCandidates a))) = some (2, [10, 0, 2, -3], [[1, 10], [2], []]) := by
  decide +kernel

end Props
