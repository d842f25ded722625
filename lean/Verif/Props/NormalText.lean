import Verif.Props.CandidateText

set_option autoImplicit false

/-!
# The text of a sudoku that was read from a text (C111)

What `encode` returns for a sudoku made by `decode` is described in terms of the original text alone: its normal form.
-/

open Spec Codec

namespace Props

/-- A decimal digit written as one of 0 - 9; other characters stay. -/
def plainDigit (c : Char) : Char := match Py.decimal c with
  | some d => Py.digitChar d
  | none => c

/-- The first `k` visible characters, with `'0'` for empty fields, filled up with `'0'`. -/
def normalFields (e : Char) (k : Nat) (s : List Char) : List Char :=
  let t := ((visible s).map fun c => if c = e then '0' else plainDigit c).take k
  t ++ List.replicate (k - t.length) '0'

/-- The digits that occur, each once and in order. -/
def normalPiece (x : List Char) : List Char := "0123456789".toList.filter fun c => decide (c ∈ x.map plainDigit)

/-- The pieces of the first `k` fields. -/
def normalPieces (k : Nat) (pieces : List (List Char)) : List (List Char) :=
  (List.range k).map fun i => normalPiece (pieces[i]?.getD [])

private theorem encode_digits {s : Sudoku} (hs : OneDigit s) :
    encode s [] [] false = s.cells.map fun a => Py.digitChar (s.get a).toNat := by
  show encodeNumbers s [] [] = _
  unfold encodeNumbers
  rw [Py.join_nil_sep]
  unfold Sudoku.cells Coordinates.product
  rw [List.map_flatMap, List.flatMap_def]
  congr 1
  refine List.map_congr_left fun row hrow => ?_
  rw [Py.join_nil_sep, List.map_map]
  have hrow : row < s.n := List.mem_range.1 hrow
  have hind : ∀ l : List Nat, (∀ c ∈ l, c < s.n) → (l.map fun col => Py.intStr (s.get (row, col))).flatten =
      l.map ((fun a => Py.digitChar (s.get a).toNat) ∘ fun y => (row, y)) := by
    intro l hl
    induction l with
    | nil => rfl
    | cons c l ih =>
      have h := hs (row, c) ⟨hrow, hl c List.mem_cons_self⟩
      rw [List.map_cons, List.flatten_cons, ih fun d hd => hl d (List.mem_cons_of_mem _ hd), Py.intStr_small h.1 h.2]
      rfl
  exact hind _ fun c hc => List.mem_range.1 hc

private theorem decode_box {p : Args} {e : Char} (hp : Standard p e) {s : List Char} (hs : Ordinary s) (hb : '|' ∉ s) {u : Sudoku}
    (h : decode p s = .ok u) : decode { p with boxSize := some (u.bw, u.bh) } s = .ok u := by
  have hp' : ∀ b, Standard { p with boxSize := some b } e := fun b =>
    ⟨hp.empty, hp.latin, hp.visible, hp.noBar, hp.numberSep, hp.sudokuSep, hp.candidateSep, hp.same⟩
  have hread : ∀ b : Option (Nat × Nat), ∀ (l : List (List Char)) row col (t : Sudoku),
      readNumbers { p with boxSize := b } l row col t = readNumbers p l row col t := by
    intro b l
    induction l with
    | nil => intros; rfl
    | cons x l ih => intro row col t; simp only [readNumbers, itemNumber, ih]
  rw [decode_chars hp hs hb] at h
  rw [decode_chars (hp' _) hs hb]
  simp only [boxFor, hread]
  cases hbf : boxFor p (visible s) with
  | error er => rw [hbf] at h; cases h
  | ok b =>
    obtain ⟨w, h'⟩ := b
    rw [hbf] at h
    simp only at h
    have := readNumbers_size _ _ _ _ _ h
    rw [this.1, this.2]
    exact h

private theorem plain_digit {c : Char} (h : Py.isDigit c = true) : plainDigit c = c := by
  unfold plainDigit
  rw [Py.decimal_digit h]
  apply Char.toNat_inj.1
  unfold Py.isDigit at h
  simp only [Bool.and_eq_true, decide_eq_true_eq] at h
  simp only
  rw [Py.digitChar_toNat (by omega)]
  omega

private theorem digit_char {e c : Char} {v : Int} (h : charValue e c = some v) :
    (0 ≤ v ∧ v ≤ 9) ∧ Py.digitChar v.toNat = if c = e then '0' else plainDigit c := by
  unfold charValue at h
  split at h
  · cases h; rename_i hc; rw [if_pos hc]; decide
  · rename_i hc
    rw [if_neg hc]
    unfold plainDigit
    cases hd : Py.decimal c with
    | none => rw [hd] at h; cases h
    | some d =>
      rw [hd] at h
      cases h
      have := Py.decimal_lt hd
      exact ⟨by show (0:Int) ≤ (d : Int) ∧ (d : Int) ≤ 9; omega, rfl⟩

private theorem fields_of {p : Args} {e : Char} (hp : Standard p e) {s : List Char} (hs : Ordinary s) (hb : '|' ∉ s) {u : Sudoku}
    (h : decode p s = .ok u) (hN : 0 < u.n) :
    OneDigit u ∧ encode u [] [] false = normalFields e (u.n ^ 2) s := by
  have hp' : Standard { p with boxSize := some (u.bw, u.bh) } e :=
    ⟨hp.empty, hp.latin, hp.visible, hp.noBar, hp.numberSep, hp.sudokuSep, hp.candidateSep, hp.same⟩
  have hd := decode_box hp hs hb h
  obtain ⟨h1, h2⟩ := C11_fields _ e hp' u.bw u.bh hN rfl s hs hb
  rw [hd] at h1 h2
  have hall : ∀ i < (u.bw * u.bh) ^ 2, ∀ c, (visible s)[i]? = some c → charValue e c ≠ none := by
    by_contra hno
    exact absurd (h2 hno) (by simp)
  obtain ⟨u', h3, -, h4⟩ := h1 hall
  cases h3
  have hval : ∀ r c, r < u.n → c < u.n → (0 ≤ u.get (r, c) ∧ u.get (r, c) ≤ 9) ∧
      Py.digitChar (u.get (r, c)).toNat = match (visible s)[r * u.n + c]? with
        | some d => if d = e then '0' else plainDigit d
        | none => '0' := by
    intro r c hr hc
    have h5 := h4 r c hr hc
    rw [h5]
    show _ ∧ _ = match (visible s)[r * (u.bw * u.bh) + c]? with | some d => _ | none => _
    cases hv : (visible s)[r * (u.bw * u.bh) + c]? with
    | none => exact ⟨⟨Int.le_refl 0, show (0 : Int) ≤ 9 by decide⟩, rfl⟩
    | some d =>
      have h6 := hall _ (by rw [Nat.pow_two]; exact pos_lt hr hc) d hv
      simp only
      cases hcv : charValue e d with
      | none => exact absurd hcv h6
      | some v => exact digit_char hcv
  have hone : OneDigit u := fun a ha => (hval a.1 a.2 ha.1 ha.2).1
  refine ⟨hone, ?_⟩
  rw [encode_digits hone, cells_eq, List.map_map]
  apply List.ext_getElem?
  intro i
  unfold normalFields
  simp only
  rw [List.getElem?_map]
  by_cases hi : i < u.n * u.n
  · rw [List.getElem?_range hi]
    have h5 := (hval (i / u.n) (i % u.n) (Nat.div_lt_of_lt_mul hi) (Nat.mod_lt _ hN)).2
    have h6 : i / u.n * u.n + i % u.n = i := by rw [Nat.mul_comm]; exact Nat.div_add_mod i u.n
    rw [h6] at h5
    simp only [Option.map_some, Function.comp_apply]
    rw [h5, List.getElem?_append]
    by_cases hl : i < (visible s).length
    · rw [if_pos (by simp only [List.length_take, List.length_map, Nat.pow_two]; omega), List.getElem?_take,
        if_pos (by rw [Nat.pow_two]; exact hi), List.getElem?_map, List.getElem?_eq_getElem hl]
      rfl
    · rw [if_neg (by simp only [List.length_take, List.length_map, Nat.pow_two]; omega), List.getElem?_replicate, if_pos (by
        simp only [List.length_take, List.length_map, Nat.pow_two]; omega), List.getElem?_eq_none (Nat.le_of_not_lt hl)]
  · rw [List.getElem?_eq_none (by simpa using hi), Option.map_none, eq_comm, List.getElem?_eq_none]
    simp only [List.length_append, List.length_take, List.length_map, List.length_replicate, Nat.pow_two]
    omega

/-- **C111** (numbers) The text of a sudoku read from `s` is the normal form of `s`. -/
theorem C111_numbers (p : Args) (e : Char) (hp : Standard p e) (s : List Char) (hs : Ordinary s) (hb : '|' ∉ s) (u : Sudoku)
    (h : decode p s = .ok u) (hN : 0 < u.n) : encode u [] [] false = normalFields e (u.n ^ 2) s :=
  (fields_of hp hs hb h hN).2

private theorem sorted_sortSet (S : Finset Int) : (Solvers.sortSet S).Pairwise (· < ·) := by
  obtain ⟨l, h, rfl⟩ := Solvers.exists_list S
  rw [Solvers.sortSet_coe]
  have h1 : (Solvers.sortInts l).Pairwise (· ≤ ·) := List.pairwise_insertionSort (· ≤ ·) l
  have h2 : (Solvers.sortInts l).Pairwise (· ≠ ·) := (List.perm_insertionSort _ l).nodup_iff.2 h
  exact (h1.and h2).imp fun h => lt_of_le_of_ne h.1 h.2

private theorem encodeField_digits {S : Finset Int} {x : List Char} (h : ∀ v, v ∈ S ↔ v ∈ digitsIn x) :
    encodeField S = normalPiece x := by
  have hrange : ∀ v ∈ Solvers.sortSet S, 0 ≤ v ∧ v ≤ 9 := by
    intro v hv
    obtain ⟨c, -, d, h1, rfl⟩ := (h v).1 (Solvers.mem_sortSet.1 hv)
    have := Py.decimal_lt h1
    omega
  have hflat : encodeField S = (Solvers.sortSet S).map fun v => Py.digitChar v.toNat := by
    unfold encodeField
    generalize Solvers.sortSet S = l at hrange
    induction l with
    | nil => rfl
    | cons v l ih =>
      have hv := hrange v (by simp)
      rw [List.map_cons, List.flatten_cons, ih fun w hw => hrange w (by simp [hw]), Py.intStr_small hv.1 hv.2]
      rfl
  rw [hflat]
  have hnum : ∀ v : Int, 0 ≤ v ∧ v ≤ 9 → (Py.digitChar v.toNat).toNat = 48 + v.toNat := fun v hv => Py.digitChar_toNat (by omega)
  have : Std.Irrefl fun a b : Char => a.toNat < b.toNat := ⟨fun a h => absurd h (Nat.lt_irrefl _)⟩
  have : Std.Antisymm fun a b : Char => a.toNat < b.toNat := ⟨fun a b h h' => absurd h (Nat.lt_asymm h')⟩
  refine List.Pairwise.eq_of_mem_iff (r := fun a b : Char => a.toNat < b.toNat) ?_ ?_ ?_
  · rw [List.pairwise_map]
    refine (sorted_sortSet S).imp_of_mem ?_
    intro a b ha hb hab
    rw [hnum a (hrange a ha), hnum b (hrange b hb)]
    have := hrange a ha
    omega
  · unfold normalPiece
    apply List.Pairwise.filter
    decide
  · intro c
    unfold normalPiece
    rw [List.mem_map, List.mem_filter, decide_eq_true_eq]
    constructor
    · rintro ⟨v, hv, rfl⟩
      obtain ⟨c, hc, d, h1, rfl⟩ := (h v).1 (Solvers.mem_sortSet.1 hv)
      have key : ∀ k < 10, Py.digitChar k ∈ "0123456789".toList := by decide
      refine ⟨key _ (Py.decimal_lt h1), List.mem_map.2 ⟨c, hc, ?_⟩⟩
      unfold plainDigit
      rw [h1]; rfl
    · rintro ⟨hc, h2⟩
      obtain ⟨d, hd, rfl⟩ := List.mem_map.1 h2
      cases h1 : Py.decimal d with
      | some k => exact ⟨k, Solvers.mem_sortSet.2 ((h _).2 ⟨d, hd, k, h1, rfl⟩), by unfold plainDigit; rw [h1]; rfl⟩
      | none =>
        exfalso
        unfold plainDigit at hc
        rw [h1] at hc
        exact (by decide : ∀ c ∈ "0123456789".toList, Py.decimal c ≠ none) d hc h1

/-- **C111** (candidates) The text of a sudoku read from a text with candidates: the normal form of the fields, and for every
field the digits of its piece. -/
theorem C111_candidates (p : Args) (e : Char) (hp : Standard p e) (f : List Char) (pieces : List (List Char))
    (hf : Ordinary f) (hc : Ordinary (Py.join [','] pieces)) (hb : '|' ∉ f) (hne : pieces ≠ [])
    (hcomma : ∀ x ∈ pieces, ',' ∉ x) (u : Sudoku) (h : decode p (f ++ '|' :: Py.join [','] pieces) = .ok u) (hN : 0 < u.n) :
    encode u [] [] true = normalFields e (u.n ^ 2) f ++ '|' :: Py.join [','] (normalPieces (u.n ^ 2) pieces) := by
  obtain ⟨t, ht, h1, h2, h3⟩ := (C104_fields p e hp f _ hf hc hb).2 u h
  have hn : u.n = t.n := by unfold Sudoku.n; rw [h1, h2]
  obtain ⟨ho, hfe⟩ := fields_of hp hf hb ht (hn ▸ hN)
  obtain ⟨h4, h5⟩ := C104_candidates p e hp f pieces hf hc hb hne hcomma t ht (hn ▸ hN)
  have hall : ∀ i < t.n ^ 2, ∀ x, pieces[i]? = some x → Digits x := by
    by_contra hno
    rw [h5 hno] at h
    cases h
  obtain ⟨u', h6, -, -, -, h7⟩ := h4 hall
  rw [h] at h6
  cases h6
  have hnums : encode u [] [] false = encode t [] [] false := by
    show encodeNumbers u [] [] = encodeNumbers t [] []
    unfold encodeNumbers Sudoku.indices
    rw [hn]
    simp only [h3]
  have henc : encode u [] [] true = encode u [] [] false ++ '|' :: Py.join [','] (u.cells.map fun a => encodeField (u.getCandidates a)) := rfl
  rw [henc, hnums, hfe, hn]
  congr 3
  unfold normalPieces
  rw [cells_eq, List.map_map, hn, Nat.pow_two]
  refine List.map_congr_left fun i hi => ?_
  have hi : i < t.n * t.n := List.mem_range.1 hi
  have hN' : 0 < t.n := hn ▸ hN
  simp only [Function.comp_apply]
  have h8 := h7 (i / t.n) (i % t.n) (Nat.div_lt_of_lt_mul hi) (Nat.mod_lt _ hN')
  rw [show i / t.n * t.n + i % t.n = i by rw [Nat.mul_comm]; exact Nat.div_add_mod i t.n] at h8
  apply encodeField_digits
  intro v
  rw [h8]
  constructor
  · rintro ⟨x, hx, hv⟩; rw [hx]; exact hv
  · intro hv
    cases hx : pieces[i]? with
    | none =>
      rw [hx] at hv
      obtain ⟨c, hc, -⟩ := hv
      cases hc
    | some x => exact ⟨x, rfl, by rw [hx] at hv; exact hv⟩

/-- **C111** (same sudoku) Two texts mean the same numbers exactly if their normal forms are the same. -/
theorem C111_same (p q : Args) (e e' : Char) (hp : Standard p e) (hq : Standard q e') (s t : List Char) (hs : Ordinary s)
    (ht : Ordinary t) (hbs : '|' ∉ s) (hbt : '|' ∉ t) (u v : Sudoku) (hu : decode p s = .ok u) (hv : decode q t = .ok v)
    (hN : 0 < u.n) (h1 : v.bw = u.bw) (h2 : v.bh = u.bh) :
    SameNumbers u v ↔ normalFields e (u.n ^ 2) s = normalFields e' (u.n ^ 2) t := by
  have hn : v.n = u.n := by unfold Sudoku.n; rw [h1, h2]
  obtain ⟨hou, heu⟩ := fields_of hp hs hbs hu hN
  obtain ⟨hov, hev⟩ := fields_of hq ht hbt hv (hn ▸ hN)
  rw [hn] at hev
  rw [← heu, ← hev, encode_digits hou, encode_digits hov, cells_eq, cells_eq, hn]
  constructor
  · rintro ⟨-, -, h⟩
    refine List.map_congr_left fun a ha => ?_
    obtain ⟨i, hi, rfl⟩ := List.mem_map.1 ha
    have hi : i < u.n * u.n := List.mem_range.1 hi
    rw [h _ ⟨Nat.div_lt_of_lt_mul hi, Nat.mod_lt _ hN⟩]
  · intro h
    refine ⟨h1, h2, fun a ha => ?_⟩
    have hm : a ∈ (List.range (u.n * u.n)).map fun i => (i / u.n, i % u.n) :=
      List.mem_map.2 ⟨a.1 * u.n + a.2, List.mem_range.2 (pos_lt ha.1 ha.2), by
        rw [pos_div (N := u.n) ha.2, pos_mod (N := u.n) ha.2]⟩
    have h3 := List.map_inj_left.1 h a hm
    have h4 := congrArg Char.toNat h3
    have h5 := hou a ha
    have h6 := hov a (by rw [InGrid, h1, h2]; exact ha)
    rw [Py.digitChar_toNat (by omega), Py.digitChar_toNat (by omega)] at h4
    omega

/-- **C111** (normal forms are texts) Reading the text written gives the same numbers, and the text is its own normal form.  (If a digit other than 0 stands for empty
fields, the text must not contain digits of other scripts: see the example with `'٢'` below.) -/
theorem C111_again (p : Args) (e : Char) (hp : Standard p e) (s : List Char) (hs : Ordinary s) (hb : '|' ∉ s) (u : Sudoku)
    (h : decode p s = .ok u) (hN : 0 < u.n) (hbox : p.boxSize = some (u.bw, u.bh))
    (hdig : e = '0' ∨ Py.decimal e = none ∨ ∀ c ∈ s, c.toNat < 128) :
    (∃ v, decode p (encode u [] [] false) = .ok v ∧ SameNumbers u v) ∧
    normalFields e (u.n ^ 2) (normalFields e (u.n ^ 2) s) = normalFields e (u.n ^ 2) s := by
  obtain ⟨hou, heu⟩ := fields_of hp hs hb h hN
  have hchars : ∀ c ∈ encode u [] [] false, Py.isDigit c = true := by
    rw [encode_digits hou]
    intro c hc
    obtain ⟨a, ha, rfl⟩ := List.mem_map.1 hc
    rw [cells_eq] at ha
    obtain ⟨i, hi, rfl⟩ := List.mem_map.1 ha
    have hi : i < u.n * u.n := List.mem_range.1 hi
    have := hou (i / u.n, i % u.n) ⟨Nat.div_lt_of_lt_mul hi, Nat.mod_lt _ hN⟩
    exact Py.isDigit_digitChar (by omega)
  have hord : Ordinary (encode u [] [] false) := fun c hc hsp => by
    rw [Py.not_isSpace_of_digit (hchars c hc)] at hsp; cases hsp
  have hbar : '|' ∉ encode u [] [] false := fun hm => absurd (hchars _ hm) (by decide)
  have hvis : visible (encode u [] [] false) = encode u [] [] false :=
    List.filter_eq_self.2 fun c hc => by simpa using Py.not_whitespace_of_digit (hchars c hc)
  have hval : ∀ c ∈ encode u [] [] false, charValue e c ≠ none ∧ (if c = e then '0' else plainDigit c) = c := by
    intro c hc
    have hd := hchars c hc
    have hne : c = '0' ∨ c ≠ e := by
      rcases hdig with rfl | hdig | hdig
      · exact em _
      · right
        rintro rfl
        rw [Py.decimal_digit hd] at hdig; cases hdig
      rw [heu] at hc
      unfold normalFields at hc
      simp only [List.mem_append] at hc
      rcases hc with hc | hc
      · obtain ⟨d, hd', rfl⟩ := List.mem_map.1 (List.mem_of_mem_take hc)
        split
        · exact Or.inl rfl
        · rename_i h
          right
          have hl := hdig d (List.mem_filter.1 hd').1
          have : plainDigit d = d := by
            cases h1 : Py.isDigit d with
            | true => exact plain_digit h1
            | false => unfold plainDigit; rw [Py.decimal_ascii hl h1]
          rw [this]; exact h
      · exact Or.inl (List.eq_of_mem_replicate hc)
    unfold charValue
    by_cases hce : c = e
    · rw [if_pos hce, if_pos hce]
      exact ⟨by simp, (hne.resolve_right fun h => h hce).symm⟩
    · rw [if_neg hce, if_neg hce, Py.decimal_digit hd, plain_digit hd]
      simp
  have hlen : (encode u [] [] false).length = u.n ^ 2 := by
    rw [encode_digits hou, cells_eq]; simp [Nat.pow_two]
  have hnorm : normalFields e (u.n ^ 2) (encode u [] [] false) = encode u [] [] false := by
    unfold normalFields
    simp only
    have hm : (encode u [] [] false).map (fun c => if c = e then '0' else plainDigit c) = encode u [] [] false := by
      conv_rhs => rw [← List.map_id (encode u [] [] false)]
      exact List.map_congr_left fun c hc => (hval c hc).2
    rw [hvis, hm, List.take_of_length_le (by rw [hlen]), hlen]
    simp
  obtain ⟨v, h3, h4, -⟩ := (C11_fields p e hp u.bw u.bh hN hbox _ hord hbar).1 (by
    intro i _ c hc
    rw [hvis] at hc
    exact (hval c (List.mem_of_getElem? hc)).1)
  refine ⟨⟨v, h3, ?_⟩, ?_⟩
  · rw [C111_same p p e e hp hp s _ hs hord hb hbar u v h h3 hN h4.1 h4.2.1, ← heu, hnorm]
  · rw [← heu, hnorm]

/-- The arguments meant by the theorems exist: `standardArgs_ok`.  A text with blanks, dots and a missing character. -/
example : normalFields '.' 16 " 12.. \n\t34..\n.... 4..".toList = "1200340000004000".toList := by decide +kernel
example : ((decode (standardArgs '.' (some (2, 2))) " 12.. \n\t34..\n.... 4..".toList).toOption.map fun t => encode t [] [] false) =
    some "1200340000004000".toList := by decide +kernel
/-- `'2'` for empty fields: "2121" is read as 0, 1, 0, 1. -/
example : normalFields '2' 4 "2121".toList = "0101".toList := by decide +kernel
/-- Digits of other scripts; if `'2'` stands for empty fields, then `'٢'` is read as 2, but the 2 written for it as 0. -/
example : normalFields '0' 4 "٢०１0".toList = "2010".toList ∧ normalFields '2' 4 "٢121".toList = "2101".toList ∧
    normalFields '2' 4 "2101".toList = "0101".toList := by decide +kernel
example : ((decode (standardArgs '2' (some (2, 1))) "٢121".toList).toOption.map fun t => encode t [] [] false) = some "2101".toList ∧
    ((decode (standardArgs '2' (some (2, 1))) "2101".toList).toOption.map fun t => encode t [] [] false) = some "0101".toList := by decide +kernel
/-- Candidates {1, 2} and {2}; the last pieces are surplus. -/
example : normalPieces 4 [" 2 11".toList, " 2".toList, [], [], "x|".toList] = ["12".toList, ['2'], [], []] := by decide +kernel
example : ((decode (standardArgs '0' (some (2, 1))) "0 0\n2 1 | 2 11, 2,,,x|".toList).toOption.map fun t => encode t [] [] true) =
    some "0021|12,2,,".toList := by decide +kernel

end Props
