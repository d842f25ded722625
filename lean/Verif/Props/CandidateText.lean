import Verif.Props.Codec

set_option autoImplicit false

/-!
# What the candidate part of a text means (C104)

C11 tells how `Sudoku.decode` reads a text without `'|'`.  Here the text is `f ++ '|' :: c` with no `'|'` in `f`.  Every `c` is
`",".join(pieces)` for exactly one non-empty list of pieces without `','` (`C104_pieces`).
-/

open Spec Codec

namespace Props

/-- Decimal digits and whitespace only. -/
def Digits (s : List Char) : Prop := ∀ c ∈ s, c ∈ Py.whitespace ∨ Py.decimal c ≠ none

/-- The numbers 0 - 9 with a digit that occurs in the text. -/
def digitsIn (s : List Char) : Set Int := { v | ∃ c ∈ s, ∃ d : Nat, Py.decimal c = some d ∧ v = d }

/-- The value of a digit. -/
private def value (c : Char) : Int := ((Py.decimal c).getD 0 : Nat)

/-- **C104** (pieces) Every text has exactly one list of pieces. -/
theorem C104_pieces (c : List Char) :
    ∃! pieces : List (List Char), pieces ≠ [] ∧ (∀ x ∈ pieces, ',' ∉ x) ∧ Py.join [','] pieces = c := by
  have hex : ∃ pieces : List (List Char), pieces ≠ [] ∧ (∀ x ∈ pieces, ',' ∉ x) ∧ Py.join [','] pieces = c := by
    induction c with
    | nil => exact ⟨[[]], by simp, by simp, rfl⟩
    | cons d c ih =>
      obtain ⟨l, h1, h2, h3⟩ := ih
      by_cases hd : d = ','
      · subst hd
        refine ⟨[] :: l, by simp, ?_, ?_⟩
        · intro x hx
          rcases List.mem_cons.1 hx with rfl | hx
          · simp
          · exact h2 x hx
        · rw [Py.join_cons _ _ h1, h3]; rfl
      · cases l with
        | nil => exact absurd rfl h1
        | cons y l =>
          refine ⟨(d :: y) :: l, by simp, ?_, ?_⟩
          · intro x hx
            rcases List.mem_cons.1 hx with rfl | hx
            · intro hm
              rcases List.mem_cons.1 hm with h | h
              · exact hd h.symm
              · exact h2 y (by simp) h
            · exact h2 x (by simp [hx])
          · rw [← h3]
            cases l with
            | nil => rfl
            | cons z l => rfl
  obtain ⟨l, h1, h2, h3⟩ := hex
  refine ⟨l, ⟨h1, h2, h3⟩, ?_⟩
  rintro l' ⟨h1', h2', h3'⟩
  have a := Py.split_join (sep := [',']) (by simp) h1 (fun x hx c hc hm => h2 x hx (List.mem_singleton.1 hm ▸ hc))
  have b := Py.split_join (sep := [',']) (by simp) h1' (fun x hx c hc hm => h2' x hx (List.mem_singleton.1 hm ▸ hc))
  rw [h3] at a
  rw [h3', a] at b
  exact (Except.ok.inj b).symm

/-- **C104** (layout) Whitespace does not matter, wherever it is. -/
theorem C104_layout (p : Args) (e : Char) (hp : Standard p e) (s s' : List Char) (hs : Ordinary s) (hs' : Ordinary s')
    (h : visible s = visible s') : decode p s = decode p s' := by
  cases hq : parts p (visible s) with
  | error er =>
    exfalso
    unfold parts at hq
    rw [hp.sudokuSep] at hq
    split at hq
    · rw [if_neg (by simp)] at hq; cases hq
    · cases hq
  | ok ab =>
    obtain ⟨A, B⟩ := ab
    rw [decode_visible hp hs hq, decode_visible hp hs' (h ▸ hq)]

private theorem visible_pieces (l : List (List Char)) : visible (Py.join [','] l) = Py.join [','] (l.map visible) := by
  induction l with
  | nil => rfl
  | cons x l ih =>
    by_cases hl : l = []
    · subst hl; rfl
    · rw [Py.join_cons _ _ hl, visible_append, visible_append, ih, List.map_cons, Py.join_cons _ _ (by simpa using hl)]
      rfl

private theorem visible_sub {s : List Char} {c : Char} (h : c ∈ visible s) : c ∈ s := (List.mem_filter.1 h).1

private theorem strip_visible {s : List Char} (hs : Ordinary s) : Py.strip (visible s) = visible s :=
  Py.stripBy_none fun c hc => by
    have h := List.mem_filter.1 hc
    cases hsp : Py.isSpace c with
    | false => rfl
    | true => exact absurd (hs c h.1 hsp) (by simpa using h.2)

private theorem ints_ok {l : List Char} (h : ∀ c ∈ l, Py.decimal c ≠ none) :
    Py.ints (l.map fun c => [c]) = .ok (l.map value) := by
  rw [Py.ints_map (f := fun x => value (x.headD '0')), List.map_map]
  · rfl
  · intro x hx
    obtain ⟨c, hc, rfl⟩ := List.mem_map.1 hx
    rw [Py.int_char]
    unfold value
    simp only [List.headD_cons]
    cases hd : Py.decimal c with
    | none => exact absurd hd (h c hc)
    | some d => rfl

private theorem ints_bad {l : List Char} (h : ¬ ∀ c ∈ l, Py.decimal c ≠ none) :
    Py.ints (l.map fun c => [c]) = .error .ValueError := by
  induction l with
  | nil => exact absurd (by simp) h
  | cons c l ih =>
    rw [List.map_cons, Py.ints, Py.int_char]
    cases hc : Py.decimal c with
    | some v =>
      simp only
      rw [ih]
      intro hl
      apply h
      intro d hd
      rcases List.mem_cons.1 hd with rfl | hd
      · rw [hc]; simp
      · exact hl d hd
    | none => rfl

private theorem digits_visible {x : List Char} : Digits x ↔ ∀ c ∈ visible x, Py.decimal c ≠ none := by
  constructor
  · intro h c hc
    have h1 := List.mem_filter.1 hc
    rcases h c h1.1 with h2 | h2
    · exact absurd h2 (by simpa using h1.2)
    · exact h2
  · intro h c hc
    by_cases hw : c ∈ Py.whitespace
    · exact Or.inl hw
    · exact Or.inr (h c (List.mem_filter.2 ⟨hc, by simpa using hw⟩))

private theorem piece_ok {p : Args} (hp : p.numberSep = []) {x : List Char} (hx : Ordinary x) (hd : Digits x) :
    pieceCandidates p (visible x) = .ok ((visible x).map value) := by
  unfold pieceCandidates
  rw [if_neg (not_not.2 hp), strip_visible hx, ints_ok (digits_visible.1 hd)]

private theorem piece_bad {p : Args} (hp : p.numberSep = []) {x : List Char} (hx : Ordinary x) (hd : ¬ Digits x) :
    pieceCandidates p (visible x) = .error .ValueError := by
  unfold pieceCandidates
  rw [if_neg (not_not.2 hp), strip_visible hx, ints_bad (mt digits_visible.2 hd)]

private theorem mem_piece {x : List Char} {v : Int} :
    v ∈ ((visible x).map value).toFinset ↔ v ∈ digitsIn x ∨ ∃ c ∈ visible x, Py.decimal c = none ∧ v = 0 := by
  have hv : ∀ (c : Char) (d : Nat), Py.decimal c = some d → value c = d := by
    intro c d h; unfold value; rw [h]; rfl
  have h0 : ∀ c : Char, Py.decimal c = none → value c = 0 := by
    intro c h; unfold value; rw [h]; rfl
  rw [List.mem_toFinset, List.mem_map]
  constructor
  · rintro ⟨c, hc, rfl⟩
    cases hd : Py.decimal c with
    | some d => exact Or.inl ⟨c, visible_sub hc, d, hd, hv c d hd⟩
    | none => exact Or.inr ⟨c, hc, hd, h0 c hd⟩
  · rintro (⟨c, hc, d, hd, rfl⟩ | ⟨c, hc, hd, rfl⟩)
    · refine ⟨c, List.mem_filter.2 ⟨hc, ?_⟩, hv c d hd⟩
      rw [decide_eq_true_eq]
      intro hw
      rw [show Py.decimal c = none from (by decide : ∀ c ∈ Py.whitespace, Py.decimal c = none) c hw] at hd
      cases hd
    · exact ⟨c, hc, h0 c hd⟩

private theorem mem_piece_digits {x : List Char} (hd : Digits x) {v : Int} :
    v ∈ ((visible x).map value).toFinset ↔ v ∈ digitsIn x := by
  rw [mem_piece, or_iff_left]
  rintro ⟨c, hc, h1, -⟩
  exact digits_visible.1 hd c hc h1

/-- The numbers are read first, as if there were no candidates; then the candidates. -/
private theorem decode_two {p : Args} {e : Char} (hp : Standard p e) {f c : List Char} (hf : Ordinary f) (hc : Ordinary c)
    (hb : '|' ∉ f) : decode p (f ++ '|' :: c) = match decode p f with
      | .error er => .error er
      | .ok t => decodeCandidates p (visible c) t := by
  have hs : Ordinary (f ++ '|' :: c) := by
    intro d hd hsp
    rw [List.mem_append, List.mem_cons] at hd
    rcases hd with hd | rfl | hd
    · exact hf d hd hsp
    · exact absurd hsp (by decide)
    · exact hc d hd hsp
  have hv : visible (f ++ '|' :: c) = visible f ++ '|' :: visible c := by
    rw [visible_append]
    rfl
  have hparts : parts p (visible (f ++ '|' :: c)) = .ok (visible f, visible c) := by
    rw [hv]
    unfold parts
    rw [hp.sudokuSep, Py.cut_some fun h => hb (visible_sub h)]
    rfl
  rw [decode_visible hp hs hparts, decode_chars hp hf hb]
  cases boxFor p (visible f) with
  | error er => rfl
  | ok b => rfl

/-- **C104** (fields first) The text before the `'|'` is read as if it stood alone: its exception is raised, and nothing after
the `'|'` changes the size or a number. -/
theorem C104_fields (p : Args) (e : Char) (hp : Standard p e) (f c : List Char) (hf : Ordinary f) (hc : Ordinary c)
    (hb : '|' ∉ f) :
    (∀ er, decode p f = .error er → decode p (f ++ '|' :: c) = .error er) ∧
    ∀ u, decode p (f ++ '|' :: c) = .ok u →
      ∃ t, decode p f = .ok t ∧ u.bw = t.bw ∧ u.bh = t.bh ∧ ∀ a, u.get a = t.get a := by
  rw [decode_two hp hf hc hb]
  constructor
  · intro er h; rw [h]
  · intro u h
    cases hd : decode p f with
    | error er => rw [hd] at h; cases h
    | ok t =>
      rw [hd] at h
      simp only at h
      refine ⟨t, rfl, ?_⟩
      have key : ∀ (l : List (List Char)) row col (t u : Sudoku), readCandidates p l row col t = .ok u →
          u.bw = t.bw ∧ u.bh = t.bh ∧ ∀ a, u.get a = t.get a := by
        intro l
        induction l with
        | nil => intro row col t u h; cases h; exact ⟨rfl, rfl, fun _ => rfl⟩
        | cons x l ih =>
          intro row col t u h
          rw [readCandidates] at h
          cases hx : pieceCandidates p x with
          | error er => rw [hx] at h; cases h
          | ok v =>
            rw [hx] at h
            simp only at h
            repeat' split at h
            all_goals first
              | (cases h; exact ⟨rfl, rfl, fun _ => rfl⟩)
              | (have := ih _ _ _ _ h; exact this)
              | cases h
      unfold decodeCandidates at h
      split at h
      · cases h; exact ⟨rfl, rfl, fun _ => rfl⟩
      · split at h
        · cases h
        · exact key _ _ _ _ _ h

/-- **C104** (candidates) The `i`-th piece holds the candidates of the `i`-th field, row by row: every digit is a candidate,
their order and repetitions do not matter.  Fields without a piece have no candidates, surplus pieces are ignored whatever
they contain, and `ValueError` is raised exactly if one of the pieces used contains something other than digits and
whitespace. -/
theorem C104_candidates (p : Args) (e : Char) (hp : Standard p e) (f : List Char) (pieces : List (List Char))
    (hf : Ordinary f) (hc : Ordinary (Py.join [','] pieces)) (hb : '|' ∉ f) (hne : pieces ≠ [])
    (hcomma : ∀ x ∈ pieces, ',' ∉ x) (t : Sudoku) (ht : decode p f = .ok t) (hN : 0 < t.n) :
    ((∀ i < t.n ^ 2, ∀ x, pieces[i]? = some x → Digits x) →
      ∃ u, decode p (f ++ '|' :: Py.join [','] pieces) = .ok u ∧ u.bw = t.bw ∧ u.bh = t.bh ∧ (∀ a, u.get a = t.get a) ∧
        ∀ r c, r < t.n → c < t.n → ∀ v, v ∈ u.getCandidates (r, c) ↔
          ∃ x, pieces[r * t.n + c]? = some x ∧ v ∈ digitsIn x) ∧
    (¬ (∀ i < t.n ^ 2, ∀ x, pieces[i]? = some x → Digits x) →
      decode p (f ++ '|' :: Py.join [','] pieces) = .error .ValueError) := by
  have htc : ∀ a, t.getCandidates a = ∅ := by
    have key : ∀ (l : List (List Char)) row col (s u : Sudoku), readNumbers p l row col s = .ok u → u.cand = s.cand := by
      intro l
      induction l with
      | nil => intro row col s u h; cases h; rfl
      | cons x l ih =>
        intro row col s u h
        rw [readNumbers] at h
        cases hx : itemNumber p x with
        | error er => rw [hx] at h; cases h
        | ok v =>
          rw [hx] at h
          simp only at h
          repeat' split at h
          all_goals first
            | (cases h; rfl)
            | (have := ih _ _ _ _ h; exact this)
            | cases h
    rw [decode_chars hp hf hb] at ht
    cases hbox : boxFor p (visible f) with
    | error er => rw [hbox] at ht; cases ht
    | ok b =>
      rw [hbox] at ht
      obtain ⟨w, h⟩ := b
      have := key _ _ _ _ _ ht
      intro a
      show t.cand a = ∅
      rw [this]
      rfl
  have hord : ∀ x ∈ pieces, Ordinary x := by
    intro x hx d hd hsp
    refine hc d ?_ hsp
    clear ht hc hne hcomma
    induction pieces with
    | nil => cases hx
    | cons y l ih =>
      by_cases hl : l = []
      · subst hl; rw [List.mem_singleton] at hx; subst hx; exact hd
      · rw [Py.join_cons _ _ hl]
        rcases List.mem_cons.1 hx with rfl | hx
        · simp [hd]
        · exact List.mem_append_right _ (ih hx)
  have hsplit : Py.split (Py.join [','] (pieces.map visible)) [','] = .ok (pieces.map visible) := by
    refine Py.split_join (by simp) (by simpa using hne) ?_
    intro x hx d hd hm
    obtain ⟨y, hy, rfl⟩ := List.mem_map.1 hx
    exact hcomma y hy (List.mem_singleton.1 hm ▸ visible_sub hd)
  rw [decode_two hp hf hc hb, ht]
  simp only
  rw [visible_pieces]
  unfold decodeCandidates
  by_cases hnil : Py.join [','] (pieces.map visible) = []
  · rw [if_pos hnil]
    have hall : ∀ x ∈ pieces, visible x = [] := by
      rw [hnil] at hsplit
      have h1 : pieces.map visible = [[]] := by
        have : Py.split [] [','] = .ok [[]] := rfl
        rw [this] at hsplit
        exact (Except.ok.inj hsplit).symm
      intro x hx
      have : visible x ∈ pieces.map visible := List.mem_map.2 ⟨x, hx, rfl⟩
      rw [h1] at this
      exact List.mem_singleton.1 this
    have hdig : ∀ x ∈ pieces, Digits x := fun x hx => digits_visible.2 (by rw [hall x hx]; simp)
    refine ⟨fun _ => ⟨t, rfl, rfl, rfl, fun _ => rfl, ?_⟩, fun h => absurd ?_ h⟩
    · intro r c _ _ v
      rw [htc]
      simp only [Finset.notMem_empty, false_iff]
      rintro ⟨x, hx, hv⟩
      have hx := List.mem_of_getElem? hx
      have := (mem_piece_digits (hdig x hx)).2 hv
      rw [hall x hx] at this
      simp at this
    · intro i _ x hx
      exact hdig x (List.mem_of_getElem? hx)
  · rw [if_neg hnil, hp.candidateSep, hsplit]
    simp only
    constructor
    · intro hall
      have hok := readCandidates_ok p (s := t) hN (pieces.map visible)
        (fun i => (visible (pieces[i]?.getD [])).map value) (by
        intro i hi h1
        rw [List.length_map] at hi
        rw [List.getElem_map, List.getElem?_eq_getElem hi, Option.getD_some]
        exact piece_ok hp.numberSep (hord _ (List.getElem_mem hi))
          (hall i (by rw [Nat.pow_two]; exact h1) _ (List.getElem?_eq_getElem hi)))
      refine ⟨_, hok, rfl, rfl, fun _ => rfl, ?_⟩
      intro r c hr hc' v
      show v ∈ (if _ then _ else _) ↔ _
      simp only [hr, hc', true_and, List.length_map]
      by_cases hl : r * t.n + c < pieces.length
      · rw [if_pos hl, List.getElem?_eq_getElem hl, Option.getD_some,
          mem_piece_digits (hall _ (by rw [Nat.pow_two]; exact pos_lt hr hc') _ (List.getElem?_eq_getElem hl))]
        constructor
        · intro h; exact ⟨_, rfl, h⟩
        · rintro ⟨x, hx, h⟩; cases hx; exact h
      · rw [if_neg hl, List.getElem?_eq_none (Nat.le_of_not_lt hl)]
        rw [show t.cand (r, c) = ∅ from htc (r, c)]
        simp
    · intro hno
      push Not at hno
      obtain ⟨i, h1, x, h2, h3⟩ := hno
      obtain ⟨hi, h4⟩ := List.getElem?_eq_some_iff.1 h2
      have hval : ∀ (y : List Char) e', (pieceCandidates p y).map List.toFinset = .error e' → e' = .ValueError := by
        intro y e' he
        cases hy : pieceCandidates p y with
        | error e'' => rw [hy] at he; cases he; exact pieceCandidates_error hy
        | ok v => rw [hy] at he; cases he
      have hfill := readCandidates_fill p (N := t.n) (pieces.map visible) 0 t rfl (Nat.mul_pos hN hN)
      rw [Nat.zero_div, Nat.zero_mod] at hfill
      rw [hfill, fill_error (e := .ValueError) hval _ 0 _
        ⟨i, by rw [List.length_map]; exact hi, by rw [Nat.zero_add, ← Nat.pow_two]; exact h1, ?_⟩]
      · rfl
      · rw [List.getElem_map, h4, piece_bad hp.numberSep (hord _ (h4 ▸ List.getElem_mem hi)) h3]
        rfl

/-- **C104** (no fields) If the sudoku has no fields (no visible character before the `'|'`, no box size), anything visible
behind the `'|'` is an error: `IndexError` if the first piece consists of digits, `ValueError` otherwise. -/
theorem C104_no_fields (p : Args) (e : Char) (hp : Standard p e) (f : List Char) (pieces : List (List Char))
    (hf : Ordinary f) (hc : Ordinary (Py.join [','] pieces)) (hb : '|' ∉ f) (hne : pieces ≠ [])
    (hcomma : ∀ x ∈ pieces, ',' ∉ x) (t : Sudoku) (ht : decode p f = .ok t) (hN : t.n = 0)
    (hv : visible (Py.join [','] pieces) ≠ []) :
    decode p (f ++ '|' :: Py.join [','] pieces) =
      .error (open Classical in if ∃ x, pieces.head? = some x ∧ Digits x then .IndexError else .ValueError) := by
  have hsplit : Py.split (Py.join [','] (pieces.map visible)) [','] = .ok (pieces.map visible) := by
    refine Py.split_join (by simp) (by simpa using hne) ?_
    intro x hx d hd hm
    obtain ⟨y, hy, rfl⟩ := List.mem_map.1 hx
    exact hcomma y hy (List.mem_singleton.1 hm ▸ visible_sub hd)
  rw [decode_two hp hf hc hb, ht]
  simp only
  rw [visible_pieces] at hv ⊢
  unfold decodeCandidates
  rw [if_neg hv, hp.candidateSep, hsplit]
  cases pieces with
  | nil => exact absurd rfl hne
  | cons x l =>
    have hx : Ordinary x := by
      intro d hd hsp
      refine hc d ?_ hsp
      by_cases hl : l = []
      · subst hl; exact hd
      · rw [Py.join_cons _ _ hl]; simp [hd]
    simp only [List.map_cons]
    rw [readCandidates]
    by_cases hd : Digits x
    · rw [piece_ok hp.numberSep hx hd, if_pos ⟨x, rfl, hd⟩]
      simp only
      rw [if_neg (by omega)]
    · rw [piece_bad hp.numberSep hx hd, if_neg]
      rintro ⟨y, hy, h⟩
      cases hy
      exact hd h

/-- The text in the documentation, shortened to four fields: candidates {1, 2} (twice 1, with a blank) and {2}; the last
pieces are surplus. -/
example : decode (standardArgs '0' (some (2, 1))) "0 0\n2 1".toList matches .ok _ := by decide +kernel
example : ((decode (standardArgs '0' (some (2, 1))) "0 0\n2 1 | 2 11, 2,,,x|".toList).toOption.map fun t =>
    ([t.get (0, 0), t.get (1, 0)], [(0, 0), (0, 1), (1, 0), (1, 1)].map fun a => Solvers.sortSet (t.getCandidates a))) =
    some ([0, 2], [[1, 2], [2], [], []]) := by decide +kernel
example : Py.join [','] [" 2 11".toList, " 2".toList, [], [], "x|".toList] = " 2 11, 2,,,x|".toList := by decide +kernel
example : Digits " 2 11".toList ∧ ¬ Digits "x|".toList := by
  constructor
  · unfold Digits; decide
  · intro h
    exact absurd (h 'x' (by decide)) (by decide)
/-- A second `'|'` among the pieces used is no separator but an error. -/
example : decode (standardArgs '0' (some (2, 1))) "0021|1|2".toList matches .error .ValueError := by decide +kernel
example : decode (standardArgs '0' none) "|1".toList matches .error .IndexError := by decide +kernel
example : decode (standardArgs '0' none) "|,".toList matches .error .IndexError := by decide +kernel
example : decode (standardArgs '0' none) "|x".toList matches .error .ValueError := by decide +kernel

end Props
