import Verif.Proofs.Codec
import Verif.Props.Solve

set_option autoImplicit false

/-!
# Properties of `Sudoku.encode` and `Sudoku.decode` (C09 - C11)

Strings are lists of characters.  `p : Args` are the arguments of `decode`; `p.same` says which items are identical
(`is`) with the argument `empty`.
-/

open Spec Codec

namespace Props

/-- The default arguments of `decode`, except for `empty`, which is any single character below 256 other than whitespace
and the separators, and `box_size`. -/
structure Standard (p : Args) (e : Char) : Prop where
  empty : p.empty = [e]
  latin : e.toNat < 256
  visible : e ∉ Py.whitespace
  noBar : e ≠ '|'
  numberSep : p.numberSep = []
  sudokuSep : p.sudokuSep = ['|']
  candidateSep : p.candidateSep = [',']
  same : SameOk p

/-- Only the six whitespace characters known to the module `string` are used. -/
def Ordinary (s : List Char) : Prop := ∀ c ∈ s, Py.isSpace c = true → c ∈ Py.whitespace

/-- The number a character stands for; decimal digits of other scripts count, too. -/
def charValue (e c : Char) : Option Int :=
  if c = e then some 0 else (Py.decimal c).map fun d : Nat => (d : Int)

/-- The characters of a string that are no whitespace. -/
def visible (s : List Char) : List Char := s.filter fun c => decide (c ∉ Py.whitespace)

theorem isDigit_iff (c : Char) : Py.isDigit c = true ↔ '0' ≤ c ∧ c ≤ '9' := by
  unfold Py.isDigit
  simp only [Bool.and_eq_true, decide_eq_true_eq]
  exact Iff.rfl

private theorem special_visible {p : Args} {e : Char} (hp : Standard p e) : ∀ c ∈ Py.whitespace, c ∉ special p := by
  intro c hc hs
  unfold special at hs
  rw [hp.empty, hp.sudokuSep, hp.candidateSep, hp.numberSep] at hs
  simp only [List.append_nil, List.cons_append, List.nil_append, List.mem_cons, List.not_mem_nil, or_false] at hs
  rcases hs with rfl | rfl | rfl
  · exact hp.visible hc
  · exact absurd hc (by decide)
  · exact absurd hc (by decide)

theorem itemNumber_char {p : Args} {e : Char} (hp : Standard p e) (c : Char) :
    itemNumber p [c] = match charValue e c with
      | some v => .ok v
      | none => .error .ValueError := by
  unfold itemNumber charValue
  by_cases hce : c = e
  · subst hce
    rw [if_pos (hp.same.2 c hp.latin hp.empty), if_pos rfl]
  · rw [if_neg fun h => hce (List.cons.inj ((hp.same.1 _ h).trans hp.empty)).1, if_neg hce, Py.int_char]
    cases Py.decimal c <;> rfl

theorem decode_visible {p : Args} {e : Char} (hp : Standard p e) {s : List Char} (hs : Ordinary s) {A B : List Char}
    (hparts : parts p (visible s) = .ok (A, B)) :
    decode p s = match boxFor p A with
      | .error er => .error er
      | .ok (w, h) => match readNumbers p (A.map fun c => [c]) 0 0 (Sudoku.new w h) with
        | .error er => .error er
        | .ok t => decodeCandidates p B t := by
  unfold decode
  rw [removeSpace_filter p hp.numberSep (special_visible hp), filter_strip hs,
    show (s.filter fun c => decide (c ∉ Py.whitespace)) = visible s from rfl, hparts]
  simp only
  rw [items_chars hp.numberSep]
  cases boxFor p A <;> rfl

theorem decode_chars {p : Args} {e : Char} (hp : Standard p e) {s : List Char} (hs : Ordinary s) (hb : '|' ∉ s) :
    decode p s = match boxFor p (visible s) with
      | .error er => .error er
      | .ok (w, h) => readNumbers p ((visible s).map fun c => [c]) 0 0 (Sudoku.new w h) := by
  rw [decode_visible hp hs (A := visible s) (B := [])]
  · cases boxFor p (visible s) with
    | error er => rfl
    | ok b =>
      obtain ⟨w, h⟩ := b
      simp only
      cases readNumbers p ((visible s).map fun c => [c]) 0 0 (Sudoku.new w h) with
      | error er => rfl
      | ok t => rfl
  · unfold parts
    rw [hp.sudokuSep, Py.cut_none (s := visible s) fun h => hb (List.mem_filter.1 h).1]

/-! ## C11 -/

/-- **C11** (given box size) The fields are read row by row from the visible characters; missing ones are empty, surplus ones
ignored; `ValueError` exactly if one of the characters used is no digit (and not `empty`). -/
theorem C11_fields (p : Args) (e : Char) (hp : Standard p e) (w h : Nat) (hN : 0 < w * h) (hbox : p.boxSize = some (w, h))
    (s : List Char) (hs : Ordinary s) (hb : '|' ∉ s) :
    ((∀ i < (w * h) ^ 2, ∀ c, (visible s)[i]? = some c → charValue e c ≠ none) →
      ∃ u, decode p s = .ok u ∧ Plain w h u ∧ ∀ r c, r < w * h → c < w * h →
        u.get (r, c) = match (visible s)[r * (w * h) + c]? with
          | some d => (charValue e d).getD 0
          | none => 0) ∧
    (¬ (∀ i < (w * h) ^ 2, ∀ c, (visible s)[i]? = some c → charValue e c ≠ none) → decode p s = .error .ValueError) := by
  have hbf : boxFor p (visible s) = .ok (w, h) := by unfold boxFor; rw [hbox]
  rw [decode_chars hp hs hb, hbf]
  simp only
  constructor
  · intro hall
    have hok := readNumbers_ok p hN ((visible s).map fun c => [c])
      (fun i => match (visible s)[i]? with
        | some d => (charValue e d).getD 0
        | none => 0) (by
      intro i hi h1
      rw [List.length_map] at hi
      rw [List.getElem_map, itemNumber_char hp, List.getElem?_eq_getElem hi]
      simp only
      have := hall i (by rw [Nat.pow_two]; exact h1) _ (List.getElem?_eq_getElem hi)
      cases hv : charValue e (visible s)[i] with
      | none => exact absurd hv this
      | some v => rfl)
    refine ⟨_, hok, ⟨rfl, rfl, ?_, fun _ => rfl⟩, ?_⟩
    · intro a ha
      show (if _ then _ else _) = _
      rw [if_neg fun h => ha ⟨h.1, h.2.1⟩]
    · intro r c hr hc
      show (if _ then _ else _) = _
      simp only [hr, hc, true_and, List.length_map]
      by_cases hl : r * (w * h) + c < (visible s).length
      · rw [if_pos hl]
      · rw [if_neg hl, List.getElem?_eq_none (Nat.le_of_not_lt hl)]
  · intro hno
    push Not at hno
    obtain ⟨i, h1, c, h2, h3⟩ := hno
    obtain ⟨hi, h4⟩ := List.getElem?_eq_some_iff.1 h2
    refine readNumbers_error p hN _ ⟨i, by rw [List.length_map]; exact hi, by rw [← Nat.pow_two]; exact h1, ?_⟩
    rw [List.getElem_map, h4, itemNumber_char hp, h3]

private theorem box_irrelevant {p : Args} {e : Char} (hp : Standard p e) {s : List Char} (hs : Ordinary s) (hb : '|' ∉ s)
    (hbox : p.boxSize = none) : decode p s = match guessBox (visible s).length with
      | .error er => .error er
      | .ok b => decode { p with boxSize := some b } s := by
  have hp' : ∀ b, Standard { p with boxSize := some b } e := fun b =>
    ⟨hp.empty, hp.latin, hp.visible, hp.noBar, hp.numberSep, hp.sudokuSep, hp.candidateSep, hp.same⟩
  have hread : ∀ b : Option (Nat × Nat), ∀ (l : List (List Char)) row col (t : Sudoku),
      readNumbers { p with boxSize := b } l row col t = readNumbers p l row col t := by
    intro b l
    induction l with
    | nil => intros; rfl
    | cons x l ih => intro row col t; simp only [readNumbers, itemNumber, ih]
  rw [decode_chars hp hs hb]
  have h1 : boxFor p (visible s) = guessBox (visible s).length := by
    unfold boxFor; rw [hbox]; simp only
    rw [items_chars hp.numberSep]; simp
  rw [h1]
  cases guessBox (visible s).length with
  | error er => rfl
  | ok b =>
    obtain ⟨w, h⟩ := b
    simp only
    rw [decode_chars (hp' (w, h)) hs hb]
    simp only [boxFor, hread]

/-- **C11** (inferred box size) Let `k` be the number of visible characters.  If `k` is no square or the square of a prime:
`ValueError`.  Otherwise the box size is the square one if there is one, and else the width is the smallest divisor greater
than 1 of the row length. -/
theorem C11_inferred (p : Args) (e : Char) (hp : Standard p e) (hbox : p.boxSize = none)
    (s : List Char) (hs : Ordinary s) (hb : '|' ∉ s) :
    (∀ m, (visible s).length = (m * m) * (m * m) → decode p s = decode { p with boxSize := some (m, m) } s) ∧
    (∀ m, (visible s).length = m * m → (∀ j, m ≠ j * j) → ¬ m.Prime →
      decode p s = decode { p with boxSize := some (m.minFac, m / m.minFac) } s ∧ m.minFac * (m / m.minFac) = m) ∧
    (∀ m, (visible s).length = m * m → m.Prime → decode p s = .error .ValueError) ∧
    ((∀ m, (visible s).length ≠ m * m) → decode p s = .error .ValueError) := by
  rw [box_irrelevant hp hs hb hbox]
  refine ⟨?_, ?_, ?_, ?_⟩
  · intro m hm
    rw [hm, guessBox_square]
  · intro m hm hsq hnp
    rw [hm, guessBox_rect hsq, if_neg hnp]
    exact ⟨rfl, Nat.mul_div_cancel' (Nat.minFac_dvd m)⟩
  · intro m hm hpr
    have hsq : ∀ j, m ≠ j * j := by
      rintro j rfl
      exact Nat.not_prime_mul (fun h => by subst h; exact absurd hpr (by decide))
        (fun h => by subst h; exact absurd hpr (by decide)) hpr
    rw [hm, guessBox_rect hsq, if_pos hpr]
  · intro hno
    rw [guessBox_none hno]

/-- **C11** (exceptions) Whatever the arguments and the string: `decode` raises nothing but `ValueError`, apart from an
`IndexError` if the sudoku has no fields. -/
theorem C11_exceptions (p : Args) (s : List Char) (er : PyErr) (h : decode p s = .error er) :
    er = .ValueError ∨ er = .IndexError ∧
      ∃ fields candidates w h, parts p (removeSpace p (Py.strip s)) = .ok (fields, candidates) ∧
        boxFor p fields = .ok (w, h) ∧ w * h = 0 := decode_error h

/-- **C11** This `IndexError` exists. -/
theorem C11_index_error : decode {} ['|', '1'] = .error .IndexError := by rfl

/-- **C11** (a blank as `empty`) Blanks at the beginning are lost, even if they stand for empty fields: the number in column 1
is read into column 0. -/
theorem C11_blank : ∃ u, decode { empty := [' '], boxSize := some (2, 1), same := fun i => decide (i = [' ']) }
    [' ', '1', '2', ' '] = .ok u ∧ u.get (0, 0) = 1 ∧ u.get (0, 1) = 2 := ⟨_, rfl, by decide, by decide⟩

/-! ## C09 -/

/-- The sudoku contains only one-digit numbers. -/
def OneDigit (s : Sudoku) : Prop := ∀ a, InGrid s.bw s.bh a → 0 ≤ s.get a ∧ s.get a ≤ 9

/-- `t` has the size and the numbers of `s`. -/
def SameNumbers (s t : Sudoku) : Prop :=
  t.bw = s.bw ∧ t.bh = s.bh ∧ ∀ a, InGrid s.bw s.bh a → t.get a = s.get a

/-- The box size is given, or it is a square one. -/
def BoxKnown (p : Args) (s : Sudoku) : Prop := p.boxSize = some (s.bw, s.bh) ∨ p.boxSize = none ∧ s.bw = s.bh

theorem visible_append (a b : List Char) : visible (a ++ b) = visible a ++ visible b := List.filter_append ..

private theorem visible_join {sep : List Char} (hsep : ∀ c ∈ sep, c ∈ Py.whitespace) (l : List (List Char)) :
    visible (Py.join sep l) = (l.map visible).flatten := by
  have h0 : visible sep = [] := by
    unfold visible
    rw [List.filter_eq_nil_iff]
    intro c hc; simp [hsep c hc]
  induction l with
  | nil => rfl
  | cons x l ih =>
    by_cases hl : l = []
    · subst hl; simp [Py.join]
    · rw [Py.join_cons _ _ hl, visible_append, visible_append, ih, h0]; simp

private theorem visible_digit {n : Int} (h : 0 ≤ n ∧ n ≤ 9) : visible (Py.intStr n) = [Py.digitChar n.toNat] := by
  rw [Py.intStr_small h.1 h.2]
  unfold visible
  have := Py.not_whitespace_of_digit (Py.isDigit_digitChar (d := n.toNat) (by omega))
  simp [this]

private theorem visible_encode {s : Sudoku} (hs : OneDigit s) {rowSep colSep : List Char}
    (hr : ∀ c ∈ rowSep, c ∈ Py.whitespace) (hc : ∀ c ∈ colSep, c ∈ Py.whitespace) :
    visible (encodeNumbers s rowSep colSep) = s.cells.map fun a => Py.digitChar (s.get a).toNat := by
  unfold encodeNumbers
  rw [visible_join hr, List.map_map]
  unfold Sudoku.cells Coordinates.product
  rw [List.map_flatMap, List.flatMap_def]
  congr 1
  refine List.map_congr_left fun row hrow => ?_
  simp only [Function.comp_apply]
  rw [visible_join hc, List.map_map, List.map_map, ← List.flatMap_def]
  have hrow : row < s.n := List.mem_range.1 hrow
  have hind : ∀ l : List Nat, (∀ c ∈ l, c < s.n) →
      l.flatMap (visible ∘ fun col => Py.intStr (s.get (row, col))) =
        l.map ((fun a => Py.digitChar (s.get a).toNat) ∘ fun y => (row, y)) := by
    intro l hl
    induction l with
    | nil => rfl
    | cons c l ih =>
      rw [List.flatMap_cons, ih fun d hd => hl d (List.mem_cons_of_mem _ hd)]
      simp only [Function.comp_apply]
      rw [visible_digit (hs (row, c) ⟨hrow, hl c List.mem_cons_self⟩)]
      rfl
  exact hind _ fun c hc => List.mem_range.1 hc

private theorem digit_value {n : Int} (h : 0 ≤ n ∧ n ≤ 9) : charValue '0' (Py.digitChar n.toNat) = some n := by
  have key : ∀ k < 10, charValue '0' (Py.digitChar k) = some (k : Int) := by decide
  have := key n.toNat (by omega)
  rw [this]; congr 1; omega

private theorem encode_ordinary {s : Sudoku} {rowSep colSep : List Char}
    (hr : ∀ c ∈ rowSep, c ∈ Py.whitespace) (hc : ∀ c ∈ colSep, c ∈ Py.whitespace) :
    ∀ c ∈ encodeNumbers s rowSep colSep, c ∈ Py.whitespace ∨ Py.isDigit c = true ∨ c = '-' := by
  intro c h
  rcases Py.mem_join h with h | ⟨x, hx, h⟩
  · exact Or.inl (hr c h)
  · obtain ⟨row, -, rfl⟩ := List.mem_map.1 hx
    rcases Py.mem_join h with h | ⟨y, hy, h⟩
    · exact Or.inl (hc c h)
    · obtain ⟨col, -, rfl⟩ := List.mem_map.1 hy
      exact Or.inr (Py.intStr_chars _ c h)

private theorem cells_get (s : Sudoku) {r c : Nat} (hr : r < s.n) (hc : c < s.n) {α : Type} (f : Cell → α) :
    (s.cells.map f)[r * s.n + c]? = some (f (r, c)) := by
  rw [cells_eq, List.map_map, List.getElem?_map, List.getElem?_range (pos_lt hr hc)]
  simp [pos_div hc, pos_mod hc]

private theorem read_back {s : Sudoku} (hs : OneDigit s) {p : Args} (hp : Standard p '0') (hbox : BoxKnown p s) :
    ∃ t, boxFor p (s.cells.map fun a => Py.digitChar (s.get a).toNat) = .ok (s.bw, s.bh) ∧
      readNumbers p ((s.cells.map fun a => Py.digitChar (s.get a).toNat).map fun c => [c]) 0 0 (Sudoku.new s.bw s.bh) = .ok t ∧
      SameNumbers s t ∧ Plain s.bw s.bh t := by
  have hlen : s.cells.length = s.n * s.n := by rw [cells_eq]; simp
  have hbf : boxFor p (s.cells.map fun a => Py.digitChar (s.get a).toNat) = .ok (s.bw, s.bh) := by
    unfold boxFor
    rcases hbox with h | ⟨h, hsq⟩
    · rw [h]
    · rw [h]
      simp only
      rw [items_chars hp.numberSep]
      simp only [List.length_map]
      have := guessBox_square s.bw
      rw [hlen]
      unfold Sudoku.n
      rw [← hsq]
      exact this
  by_cases hN : 0 < s.bw * s.bh
  · have hok := readNumbers_ok p hN ((s.cells.map fun a => Py.digitChar (s.get a).toNat).map fun c => [c])
      (fun i => s.get (i / s.n, i % s.n)) (by
      intro i hi h1
      simp only [cells_eq, List.getElem_map, List.getElem_range]
      have hg : InGrid s.bw s.bh (i / s.n, i % s.n) := ⟨Nat.div_lt_of_lt_mul h1, Nat.mod_lt _ hN⟩
      rw [itemNumber_char hp, digit_value (hs _ hg)])
    refine ⟨_, hbf, hok, ⟨rfl, rfl, ?_⟩, rfl, rfl, ?_, fun _ => rfl⟩
    · rintro ⟨r, c⟩ ⟨h1, h2⟩
      show (if _ then _ else _) = _
      rw [if_pos]
      · simp only at h1 h2
        unfold Sudoku.n
        rw [pos_div h2, pos_mod h2]
      · simp only [List.length_map, hlen]
        exact ⟨h1, h2, pos_lt h1 h2⟩
    · intro a ha
      show (if _ then _ else _) = _
      rw [if_neg fun h => ha ⟨h.1, h.2.1⟩]
  · have h0 : s.n = 0 := Nat.eq_zero_of_not_pos hN
    have hnil : s.cells = [] := List.eq_nil_of_length_eq_zero (by rw [hlen, h0])
    rw [hnil] at hbf ⊢
    refine ⟨_, hbf, rfl, ⟨rfl, rfl, ?_⟩, rfl, rfl, fun _ _ => rfl, fun _ => rfl⟩
    intro a ha
    exact absurd ha.1 (by unfold Sudoku.n at h0; omega)

/-- **C09** (default format) `decode` restores the numbers written by `encode`, also if whitespace is used as separator.  The
character `'0'` is the default of `empty`. -/
theorem C09_roundtrip (s : Sudoku) (hs : OneDigit s) (p : Args) (hp : Standard p '0') (hbox : BoxKnown p s)
    (rowSep colSep : List Char) (hr : ∀ c ∈ rowSep, c ∈ Py.whitespace) (hc : ∀ c ∈ colSep, c ∈ Py.whitespace) :
    ∃ t, decode p (encode s rowSep colSep false) = .ok t ∧ SameNumbers s t ∧ Plain s.bw s.bh t := by
  obtain ⟨t, h1, h2, h3⟩ := read_back hs hp hbox
  have hchars := encode_ordinary (s := s) hr hc
  refine ⟨t, ?_, h3⟩
  rw [decode_chars hp]
  · have hvis : visible (encode s rowSep colSep false) = _ := visible_encode hs hr hc
    rw [hvis, h1]
    exact h2
  · intro c hc hsp
    rcases hchars c hc with h | h | rfl
    · exact h
    · rw [Py.not_isSpace_of_digit h] at hsp; cases hsp
    · exact absurd hsp (by decide)
  · intro hm
    rcases hchars _ hm with h | h | h <;> revert h <;> decide

/-- **C09** (with separators) Any numbers survive, also negative ones and ones with several digits, if a separator without
digits, `'-'` and `'|'` is used; rows may also be separated by a whitespace character (not occurring in the separator). -/
theorem C09_separator (s : Sudoku) (hN : 0 < s.bw * s.bh) (p : Args) (hbox : BoxKnown p s)
    (hsep : p.numberSep ≠ []) (hchars : ∀ c ∈ p.numberSep, Py.isDigit c = false ∧ c ≠ '-' ∧ c ≠ '|')
    (hempty : p.empty = ['0']) (hbar : p.sudokuSep = ['|']) (hcomma : p.candidateSep = [',']) (hsame : SameOk p)
    (rowSep : List Char) (hrow : rowSep = p.numberSep ∨ ∃ c ∈ Py.whitespace, c ∉ p.numberSep ∧ rowSep = [c]) :
    ∃ t, decode p (encode s rowSep p.numberSep false) = .ok t ∧ SameNumbers s t ∧ Plain s.bw s.bh t := by
  have hlen : s.cells.length = s.n * s.n := by rw [cells_eq]; simp
  have hnn : s.indices ≠ [] := by
    intro h0
    have := congrArg List.length h0
    unfold Sudoku.indices Sudoku.n at this
    simp only [List.length_range, List.length_nil] at this
    omega
  have hcells : s.cells ≠ [] := by
    intro h0
    rw [h0] at hlen
    have := Nat.mul_pos hN hN
    unfold Sudoku.n at hlen
    rw [List.length_nil] at hlen
    omega
  have hdisj : ∀ c, Py.isDigit c = true ∨ c = '-' → c ∉ p.numberSep := by
    rintro c (h | rfl) hm
    · rw [(hchars c hm).1] at h; cases h
    · exact (hchars _ hm).2.1 rfl
  have hsp : ∀ c, Py.isDigit c = true ∨ c = '-' → Py.isSpace c = false := by
    rintro c (h | rfl)
    · exact Py.not_isSpace_of_digit h
    · decide
  -- stripping
  have hraw : encode s rowSep p.numberSep false = encodeNumbers s rowSep p.numberSep := rfl
  have hrows : ∀ row, s.indices.map (fun col => Py.intStr (s.get (row, col))) ≠ [] := fun row => by simpa using hnn
  have hrowne : ∀ row, Py.join p.numberSep (s.indices.map fun col => Py.intStr (s.get (row, col))) ≠ [] := by
    intro row h0
    obtain ⟨i, l, hi⟩ := List.exists_cons_of_ne_nil hnn
    rw [hi, List.map_cons] at h0
    have h1 := Py.head_join (sep := p.numberSep) (Py.intStr_ne_nil (s.get (row, i))) (l.map fun col => Py.intStr (s.get (row, col)))
    rw [h0] at h1
    exact Py.intStr_ne_nil _ (List.head?_eq_none_iff.1 h1.symm)
  have hstrip : Py.strip (encodeNumbers s rowSep p.numberSep) = encodeNumbers s rowSep p.numberSep := by
    apply Py.stripBy_ends
    · intro c hc
      unfold encodeNumbers at hc
      obtain ⟨i, l, hi⟩ := List.exists_cons_of_ne_nil hnn
      have h0 := hrowne i
      rw [hi] at hc h0
      rw [List.map_cons, Py.head_join h0, List.map_cons, Py.head_join (Py.intStr_ne_nil _)] at hc
      exact hsp c (Py.intStr_chars _ c (List.mem_of_mem_head? hc))
    · intro c hc
      unfold encodeNumbers at hc
      obtain ⟨x, hx, h1⟩ := Py.last_join (sep := rowSep)
        (l := s.indices.map fun row => Py.join p.numberSep (s.indices.map fun col => Py.intStr (s.get (row, col))))
        (by simpa using hnn) (by
          intro x hx
          obtain ⟨row, -, rfl⟩ := List.mem_map.1 hx
          exact hrowne row)
      obtain ⟨row, -, rfl⟩ := List.mem_map.1 hx
      obtain ⟨y, hy, h2⟩ := Py.last_join (sep := p.numberSep) (hrows row) (by
          intro x hx
          obtain ⟨col, -, rfl⟩ := List.mem_map.1 hx
          exact Py.intStr_ne_nil _)
      obtain ⟨col, -, rfl⟩ := List.mem_map.1 hy
      rw [h1, h2] at hc
      exact hsp c (Py.intStr_chars _ c (List.mem_of_getLast? hc))
  -- replacing whitespace
  have hitem : ∀ n : Int, (Py.intStr n).flatMap (fun c => if c ∈ Py.whitespace ∧ c ∉ special p then p.numberSep else [c]) =
      Py.intStr n := by
    intro n
    rw [← removeSpace_eq]
    refine removeSpace_id p fun c hc hw => ?_
    have := hsp c (Py.intStr_chars n c hc)
    rw [whitespace_isSpace hw] at this
    cases this
  have hsepf : p.numberSep.flatMap (fun c => if c ∈ Py.whitespace ∧ c ∉ special p then p.numberSep else [c]) = p.numberSep := by
    rw [← removeSpace_eq]
    refine removeSpace_id p fun c hc _ => ?_
    unfold special; simp [hc]
  have hrowf : rowSep.flatMap (fun c => if c ∈ Py.whitespace ∧ c ∉ special p then p.numberSep else [c]) = p.numberSep := by
    rcases hrow with rfl | ⟨c, hw, hn, rfl⟩
    · exact hsepf
    · rw [List.flatMap_cons, List.flatMap_nil, List.append_nil, if_pos]
      refine ⟨hw, fun hs => ?_⟩
      unfold special at hs
      rw [hempty, hbar, hcomma] at hs
      simp only [List.cons_append, List.nil_append, List.mem_cons] at hs
      rcases hs with rfl | rfl | rfl | hs
      · exact absurd hw (by decide)
      · exact absurd hw (by decide)
      · exact absurd hw (by decide)
      · exact hn hs
  have hrepl : removeSpace p (encodeNumbers s rowSep p.numberSep) =
      Py.join p.numberSep (s.cells.map fun a => Py.intStr (s.get a)) := by
    rw [removeSpace_eq]
    unfold encodeNumbers
    rw [Py.join_flatMap, hrowf, List.map_map]
    have h1 : s.indices.map ((fun x => x.flatMap fun c => if c ∈ Py.whitespace ∧ c ∉ special p then p.numberSep else [c]) ∘
        fun row => Py.join p.numberSep (s.indices.map fun col => Py.intStr (s.get (row, col)))) =
        (s.indices.map fun row => s.indices.map fun col => Py.intStr (s.get (row, col))).map (Py.join p.numberSep) := by
      rw [List.map_map]
      refine List.map_congr_left fun row _ => ?_
      simp only [Function.comp_apply]
      rw [Py.join_flatMap, hsepf, List.map_map]
      congr 1
      exact List.map_congr_left fun col _ => hitem _
    rw [h1, Py.join_flatten]
    · congr 1
      unfold Sudoku.cells Coordinates.product
      rw [List.map_flatMap, List.flatMap_def]
      congr 1
      refine List.map_congr_left fun row _ => ?_
      rw [List.map_map]; rfl
    · intro l hl
      obtain ⟨row, -, rfl⟩ := List.mem_map.1 hl
      exact hrows row
  have hnobar : '|' ∉ Py.join p.numberSep (s.cells.map fun a => Py.intStr (s.get a)) := by
    intro hm
    rcases Py.mem_join hm with h | ⟨x, hx, h⟩
    · exact (hchars _ h).2.2 rfl
    · obtain ⟨a, -, rfl⟩ := List.mem_map.1 hx
      rcases Py.intStr_chars _ _ h with h | h <;> revert h <;> decide
  have hparts : parts p (removeSpace p (Py.strip (encode s rowSep p.numberSep false))) =
      .ok (Py.join p.numberSep (s.cells.map fun a => Py.intStr (s.get a)), []) := by
    rw [hraw, hstrip, hrepl]
    unfold parts
    rw [hbar, Py.cut_none hnobar]
  have hitems : items p (Py.join p.numberSep (s.cells.map fun a => Py.intStr (s.get a))) =
      .ok (s.cells.map fun a => Py.intStr (s.get a)) := by
    rw [items_split hsep, Py.split_join hsep (by simpa using hcells)]
    intro x hx c hc
    obtain ⟨a, -, rfl⟩ := List.mem_map.1 hx
    exact hdisj c (Py.intStr_chars _ c hc)
  have hbf : boxFor p (Py.join p.numberSep (s.cells.map fun a => Py.intStr (s.get a))) = .ok (s.bw, s.bh) := by
    unfold boxFor
    rcases hbox with h | ⟨h, hsq⟩
    · rw [h]
    · rw [h]
      simp only
      rw [hitems]
      simp only [List.length_map]
      have := guessBox_square s.bw
      rw [hlen]
      unfold Sudoku.n
      rw [← hsq]
      exact this
  have hok := readNumbers_ok p hN (s.cells.map fun a => Py.intStr (s.get a)) (fun i => s.get (i / s.n, i % s.n)) (by
    intro i hi h1
    simp only [cells_eq, List.getElem_map, List.getElem_range]
    unfold itemNumber
    split
    · rename_i h2
      have h3 := (hsame.1 _ h2).trans hempty
      have h4 := Py.int_intStr (s.get (i / s.n, i % s.n))
      rw [h3] at h4
      exact h4
    · exact Py.int_intStr _)
  have hdec : decode p (encode s rowSep p.numberSep false) =
      readNumbers p (s.cells.map fun a => Py.intStr (s.get a)) 0 0 (Sudoku.new s.bw s.bh) := by
    unfold decode
    rw [hparts]
    simp only
    rw [hbf]
    simp only
    rw [hitems]
    simp only
    rw [hok]
    rfl
  refine ⟨_, hdec.trans hok, ⟨rfl, rfl, ?_⟩, rfl, rfl, ?_, fun _ => rfl⟩
  · rintro ⟨r, c⟩ ⟨h1, h2⟩
    show (if _ then _ else _) = _
    rw [if_pos]
    · simp only at h1 h2
      unfold Sudoku.n
      rw [pos_div h2, pos_mod h2]
    · simp only [List.length_map, hlen]
      exact ⟨h1, h2, pos_lt h1 h2⟩
  · intro a ha
    show (if _ then _ else _) = _
    rw [if_neg fun h => ha ⟨h.1, h.2.1⟩]

/-! ## C10 -/

/-- The sudoku contains only one-digit candidates. -/
def OneDigitCandidates (s : Sudoku) : Prop := ∀ a, InGrid s.bw s.bh a → ∀ v ∈ s.getCandidates a, 0 ≤ v ∧ v ≤ 9

/-- **C10** Numbers and candidates survive. -/
theorem C10_roundtrip (s : Sudoku) (hs : OneDigit s) (hcand : OneDigitCandidates s) (p : Args) (hp : Standard p '0')
    (hbox : BoxKnown p s) (rowSep colSep : List Char) (hr : ∀ c ∈ rowSep, c ∈ Py.whitespace)
    (hc : ∀ c ∈ colSep, c ∈ Py.whitespace) :
    ∃ t, decode p (encode s rowSep colSep true) = .ok t ∧ SameNumbers s t ∧
      ∀ a, InGrid s.bw s.bh a → t.getCandidates a = s.getCandidates a := by
  obtain ⟨t, h1, h2, h3, h4⟩ := read_back hs hp hbox
  have hfield : ∀ a, InGrid s.bw s.bh a →
      encodeField (s.getCandidates a) = (Solvers.sortSet (s.getCandidates a)).map fun v => Py.digitChar v.toNat := by
    intro a ha
    unfold encodeField
    rw [← List.flatMap_def]
    have hind : ∀ l : List Int, (∀ v ∈ l, 0 ≤ v ∧ v ≤ 9) → l.flatMap Py.intStr = l.map fun v => Py.digitChar v.toNat := by
      intro l hl
      induction l with
      | nil => rfl
      | cons v l ih =>
        have := hl v List.mem_cons_self
        rw [List.flatMap_cons, ih fun d hd => hl d (List.mem_cons_of_mem _ hd), Py.intStr_small this.1 this.2]
        rfl
    exact hind _ fun v hv => hcand a ha v (Solvers.mem_sortSet.1 hv)
  have hdig : ∀ a, InGrid s.bw s.bh a → ∀ c ∈ encodeField (s.getCandidates a), Py.isDigit c = true := by
    intro a ha c hc
    rw [hfield a ha] at hc
    obtain ⟨v, hv, rfl⟩ := List.mem_map.1 hc
    have := hcand a ha v (Solvers.mem_sortSet.1 hv)
    exact Py.isDigit_digitChar (by omega)
  have hmem : ∀ a ∈ s.cells, InGrid s.bw s.bh a := fun a ha => (Sudoku.mem_cells s).1 ha
  have hcchars : ∀ c ∈ Py.join [','] (s.cells.map fun a => encodeField (s.getCandidates a)), Py.isDigit c = true ∨ c = ',' := by
    intro c hc
    rcases Py.mem_join hc with h | ⟨x, hx, h⟩
    · exact Or.inr (List.mem_singleton.1 h)
    · obtain ⟨a, ha, rfl⟩ := List.mem_map.1 hx
      exact Or.inl (hdig a (hmem a ha) c h)
  have hnchars := encode_ordinary (s := s) hr hc
  have hvis : visible (encode s rowSep colSep true) =
      (s.cells.map fun a => Py.digitChar (s.get a).toNat) ++
        '|' :: Py.join [','] (s.cells.map fun a => encodeField (s.getCandidates a)) := by
    unfold encode
    rw [if_pos rfl, visible_append, visible_encode hs hr hc]
    congr 1
    unfold visible
    rw [List.filter_eq_self]
    intro c hc
    rcases List.mem_cons.1 hc with rfl | hc
    · decide
    · rcases hcchars c hc with h | rfl
      · simpa using Py.not_whitespace_of_digit h
      · decide
  have hord : Ordinary (encode s rowSep colSep true) := by
    intro c hc hsp
    unfold encode at hc
    rw [if_pos rfl, List.mem_append, List.mem_cons] at hc
    rcases hc with hc | rfl | hc
    · rcases hnchars c hc with h | h | rfl
      · exact h
      · rw [Py.not_isSpace_of_digit h] at hsp; cases hsp
      · exact absurd hsp (by decide)
    · exact absurd hsp (by decide)
    · rcases hcchars c hc with h | rfl
      · rw [Py.not_isSpace_of_digit h] at hsp; cases hsp
      · exact absurd hsp (by decide)
  have hparts : parts p (visible (encode s rowSep colSep true)) = .ok (s.cells.map fun a => Py.digitChar (s.get a).toNat,
      Py.join [','] (s.cells.map fun a => encodeField (s.getCandidates a))) := by
    rw [hvis]
    unfold parts
    rw [hp.sudokuSep, Py.cut_some]
    · rfl
    · intro hm
      obtain ⟨a, ha, h5⟩ := List.mem_map.1 hm
      have h6 := hs a (hmem a ha)
      have h7 := Py.isDigit_digitChar (d := (s.get a).toNat) (by omega)
      rw [h5] at h7
      exact absurd h7 (by decide)
  rw [decode_visible hp hord hparts, h1]
  simp only
  rw [h2]
  simp only
  have htn : t.n = s.n := by unfold Sudoku.n; rw [h3.1, h3.2.1]
  have hlen : s.cells.length = s.n * s.n := by rw [cells_eq]; simp
  unfold decodeCandidates
  by_cases hnil : Py.join [','] (s.cells.map fun a => encodeField (s.getCandidates a)) = []
  · rw [if_pos hnil]
    refine ⟨t, rfl, h3, fun a ha => ?_⟩
    rw [show t.getCandidates a = ∅ from h4.2.2.2 a]
    -- a sudoku with at most one field, without candidates
    have hmc : a ∈ s.cells := (Sudoku.mem_cells s).2 ha
    have hf0 : encodeField (s.getCandidates a) = [] := by
      rw [List.eq_nil_iff_forall_not_mem]
      intro c hc
      have : ∀ l : List (List Char), Py.join [','] l = [] → ∀ x ∈ l, x = [] := by
        intro l hl x hx
        cases l with
        | nil => cases hx
        | cons y l =>
          by_cases hl' : l = []
          · subst hl'; rw [List.mem_singleton] at hx; subst hx; exact hl
          · rw [Py.join_cons _ _ hl'] at hl
            have := (List.append_eq_nil_iff.1 (List.append_eq_nil_iff.1 hl).1).2
            cases this
      rw [this _ hnil _ (List.mem_map.2 ⟨a, hmc, rfl⟩)] at hc
      cases hc
    rw [hfield a ha, List.map_eq_nil_iff] at hf0
    symm
    rw [Finset.eq_empty_iff_forall_notMem]
    intro v hv
    have := Solvers.mem_sortSet.2 hv
    rw [hf0] at this; cases this
  · rw [if_neg hnil, hp.candidateSep, Py.split_join (by simp) (fun h0 => hnil (by rw [h0]; rfl))]
    · simp only
      have hN : 0 < s.n := Nat.pos_of_ne_zero fun h0 => hnil (by
        rw [List.eq_nil_of_length_eq_zero (l := s.cells) (by rw [hlen, h0])]; rfl)
      have hok := readCandidates_ok p (s := t) (by rw [htn]; exact hN) (s.cells.map fun a => encodeField (s.getCandidates a))
        (fun i => Solvers.sortSet (s.getCandidates (i / s.n, i % s.n))) (by
        intro i hi h5
        rw [htn] at h5
        simp only [cells_eq, List.getElem_map, List.getElem_range]
        have hg : InGrid s.bw s.bh (i / s.n, i % s.n) := ⟨Nat.div_lt_of_lt_mul h5, Nat.mod_lt _ hN⟩
        unfold pieceCandidates
        rw [if_neg (not_not.2 hp.numberSep)]
        have hst : Py.strip (encodeField (s.getCandidates (i / s.n, i % s.n))) = encodeField (s.getCandidates (i / s.n, i % s.n)) :=
          Py.stripBy_none fun c hc => Py.not_isSpace_of_digit (hdig _ hg c hc)
        rw [hst, hfield _ hg, List.map_map]
        have hind : ∀ l : List Int, (∀ v ∈ l, 0 ≤ v ∧ v ≤ 9) →
            Py.ints (l.map ((fun c => [c]) ∘ fun v => Py.digitChar v.toNat)) = .ok l := by
          intro l hl
          induction l with
          | nil => rfl
          | cons v l ih =>
            have hv := hl v List.mem_cons_self
            rw [List.map_cons, Py.ints]
            simp only [Function.comp_apply]
            rw [← Py.intStr_small hv.1 hv.2, Py.int_intStr]
            simp only
            rw [ih fun d hd => hl d (List.mem_cons_of_mem _ hd)]
        exact hind _ fun v hv => hcand _ hg v (Solvers.mem_sortSet.1 hv))
      refine ⟨_, hok, ⟨h3.1, h3.2.1, h3.2.2⟩, ?_⟩
      rintro ⟨r, c⟩ ⟨h5, h6⟩
      simp only at h5 h6
      show (if _ then _ else _) = _
      rw [htn]
      simp only [List.length_map, hlen]
      rw [if_pos ⟨h5, h6, pos_lt h5 h6⟩]
      unfold Sudoku.n
      rw [pos_div h6, pos_mod h6]
      ext v
      rw [List.mem_toFinset, Solvers.mem_sortSet]
    · intro x hx c hc hm
      obtain ⟨a, ha, rfl⟩ := List.mem_map.1 hx
      have := hdig a (hmem a ha) c hc
      rw [List.mem_singleton.1 hm] at this
      exact absurd this (by decide)

/-- The arguments meant by the theorems exist, for every size and every such character. -/
def standardArgs (e : Char) (box : Option (Nat × Nat)) : Args :=
  { empty := [e], boxSize := box, same := fun i => decide (i = [e]) }

theorem standardArgs_ok (e : Char) (h1 : e.toNat < 256) (h2 : e ∉ Py.whitespace) (h3 : e ≠ '|') (box : Option (Nat × Nat)) :
    Standard (standardArgs e box) e :=
  ⟨rfl, h1, h2, h3, rfl, rfl, rfl, fun item h => of_decide_eq_true h, fun c _ h => by
    show decide ([c] = [e]) = true
    rw [decide_eq_true_eq]; exact h.symm⟩

/-- 0 2 / 2 1, with candidates {1, 2} and {} -/
def exCodec : Sudoku :=
  ((((Sudoku.new 2 1).setNumber (0, 1) 2).setNumber (1, 0) 2).setNumber (1, 1) 1).setCandidates (0, 0) {1, 2}

example : OneDigit exCodec ∧ OneDigitCandidates exCodec := by
  have h : ∀ r < 2, ∀ c < 2, (0 ≤ exCodec.get (r, c) ∧ exCodec.get (r, c) ≤ 9) ∧
      ∀ v ∈ exCodec.getCandidates (r, c), 0 ≤ v ∧ v ≤ 9 := by decide
  exact ⟨fun a ha => (h a.1 ha.1 a.2 ha.2).1, fun a ha => (h a.1 ha.1 a.2 ha.2).2⟩
example : BoxKnown (standardArgs '0' (some (2, 1))) exCodec := Or.inl rfl
example : encode exCodec ['\n'] [' '] true = "0 2\n2 1|12,,,".toList := by decide +kernel
example : encode exCodec [] [] false = "0221".toList := by decide +kernel

/-- A 4x4 string without the box size, with surplus whitespace and `'.'` for empty fields. -/
example : ((decode (standardArgs '.' none) " 12.. \n\t34..\n.... 4..1".toList).toOption.map fun t =>
    (t.bw, t.bh, [t.get (0, 0), t.get (0, 1), t.get (1, 1), t.get (3, 0), t.get (3, 3)])) = some (2, 2, [1, 2, 4, 4, 1]) := by
  decide +kernel

/-- **C09** (why one digit) Without separators a 10 is read as 1 and 0. -/
theorem C09_two_digits :
    ((decode (standardArgs '0' (some (5, 2))) (encode ((Sudoku.new 5 2).setNumber (0, 0) 10) [] [] false)).toOption.map fun t =>
      (t.get (0, 0), t.get (0, 1))) = some (1, 0) ∧
    decode (standardArgs '0' none) (encode ((Sudoku.new 5 2).setNumber (0, 0) 10) [] [] false) matches .error .ValueError := by
  decide +kernel

/-- **C10** (why one digit) The candidate 10 is read as 1 and 0. -/
theorem C10_two_digits :
    ((decode (standardArgs '0' (some (5, 2))) (encode ((Sudoku.new 5 2).setCandidates (0, 0) {10}) [] [] true)).toOption.map fun t =>
      t.getCandidates (0, 0)) = some {0, 1} := by
  decide +kernel

/-- **C10** (with a separator) Candidates are written without the separator `decode` expects: the candidates 1 and 2 are read
as 12 if all fields have candidates, and otherwise a `ValueError` is raised. -/
theorem C10_separator :
    ((decode { standardArgs '0' (some (1, 1)) with numberSep := [' '] }
      (encode ((Sudoku.new 1 1).setCandidates (0, 0) {1, 2}) [' '] [' '] true)).toOption.map fun t =>
      t.getCandidates (0, 0)) = some {12} ∧
    decode { standardArgs '0' (some (2, 1)) with numberSep := [' '] } (encode exCodec [' '] [' '] true)
      matches .error .ValueError := by
  decide +kernel

/-- The separator and the size meant by `C09_separator` exist. -/
example : ∀ c ∈ [' '], Py.isDigit c = false ∧ c ≠ '-' ∧ c ≠ '|' := by decide
example : SameOk { standardArgs '0' (some (5, 2)) with numberSep := [' '] } :=
  ⟨fun item h => of_decide_eq_true h, fun c _ h => by
    show decide ([c] = ['0']) = true
    rw [decide_eq_true_eq]; exact h.symm⟩

end Props
