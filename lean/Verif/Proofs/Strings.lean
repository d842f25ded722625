import Verif.Model.Strings
import Mathlib.Tactic.Common

set_option autoImplicit false

/-! # Lemmas about the string operations -/

namespace Py

theorem digitChar_toNat {d : Nat} (h : d < 10) : (digitChar d).toNat = 48 + d := by
  unfold digitChar
  have : ∀ d < 10, (Char.ofNat (48 + d)).toNat = 48 + d := by decide
  exact this d h

theorem isDigit_digitChar {d : Nat} (h : d < 10) : isDigit (digitChar d) = true := by
  unfold isDigit; rw [digitChar_toNat h]; simp; omega

theorem natStr_digits (n : Nat) : ∀ c ∈ natStr n, isDigit c = true := by
  induction n using Nat.strong_induction_on with
  | _ n ih =>
    rw [natStr]
    split
    · intro c hc; rw [List.mem_singleton] at hc; subst hc; exact isDigit_digitChar ‹_›
    · intro c hc
      rw [List.mem_append, List.mem_singleton] at hc
      rcases hc with hc | rfl
      · exact ih _ (by omega) c hc
      · exact isDigit_digitChar (by omega)

theorem natStr_ne_nil (n : Nat) : natStr n ≠ [] := by
  rw [natStr]; split <;> simp

theorem natStr_small {n : Nat} (h : n < 10) : natStr n = [digitChar n] := by rw [natStr, if_pos h]

theorem readDigits_snoc {c : Char} (hc : isDigit c = true) : ∀ (l : List Char) (acc : Nat) (b : Bool) (v : Nat),
    (∀ d ∈ l, isDigit d = true) → l ≠ [] → readDigits l acc b = some v →
    readDigits (l ++ [c]) acc b = some (10 * v + (c.toNat - 48)) := by
  intro l
  induction l with
  | nil => intro _ _ _ _ h; exact absurd rfl h
  | cons d l ih =>
    intro acc b v hd _ h
    rw [List.cons_append, readDigits, if_pos (hd d List.mem_cons_self)]
    rw [readDigits, if_pos (hd d List.mem_cons_self)] at h
    cases l with
    | nil =>
      simp only [readDigits, if_true, Option.some.injEq] at h
      subst h
      simp [readDigits, hc]
    | cons e l => exact ih _ _ _ (fun x hx => hd x (List.mem_cons_of_mem _ hx)) (by simp) h

theorem readDigits_natStr (n : Nat) : readDigits (natStr n) 0 false = some n := by
  induction n using Nat.strong_induction_on with
  | _ n ih =>
    rw [natStr]
    split
    · rename_i h
      simp only [readDigits, isDigit_digitChar h, if_true, digitChar_toNat h]
      simp
    · have hd : n % 10 < 10 := by omega
      rw [readDigits_snoc (isDigit_digitChar hd) _ _ _ _ (natStr_digits _) (natStr_ne_nil _) (ih (n / 10) (by omega)),
        digitChar_toNat hd]
      congr 1; omega

theorem dropWhile_none {p : Char → Bool} {s : List Char} (h : ∀ c, s.head? = some c → p c = false) : s.dropWhile p = s := by
  cases s with
  | nil => rfl
  | cons c s => rw [List.dropWhile_cons_of_neg]; rw [h c rfl]; simp

theorem stripBy_ends {p : Char → Bool} {s : List Char} (h : ∀ c, s.head? = some c → p c = false)
    (h' : ∀ c, s.getLast? = some c → p c = false) : stripBy p s = s := by
  unfold stripBy
  rw [dropWhile_none h, dropWhile_none, List.reverse_reverse]
  intro c hc
  rw [List.head?_reverse] at hc
  exact h' c hc

theorem stripBy_none {p : Char → Bool} {s : List Char} (h : ∀ c ∈ s, p c = false) : stripBy p s = s :=
  stripBy_ends (fun c hc => h c (List.mem_of_mem_head? hc)) (fun c hc => h c (List.mem_of_getLast? hc))

theorem not_whitespace_of_digit {c : Char} (h : isDigit c = true) : c ∉ whitespace := by
  intro hc
  unfold whitespace at hc
  simp only [List.mem_cons, List.not_mem_nil, or_false] at hc
  rcases hc with rfl | rfl | rfl | rfl | rfl | rfl <;> exact absurd h (by decide)

theorem not_isSpace_of_digit {c : Char} (h : isDigit c = true) : isSpace c = false := by
  unfold isDigit at h
  simp only [Bool.and_eq_true, decide_eq_true_eq] at h
  unfold isSpace
  simp only [Bool.or_eq_false_iff, Bool.and_eq_false_iff, decide_eq_false_iff_not]
  omega

theorem digit_ne {c d : Char} (h : isDigit c = true) (hd : isDigit d = false) : c ≠ d := by
  rintro rfl; rw [h] at hd; cases hd

theorem digit_lt {c : Char} (h : isDigit c = true) : c.toNat < 128 := by
  unfold isDigit at h
  simp only [Bool.and_eq_true, decide_eq_true_eq] at h
  omega

theorem map_asciiChar {s : List Char} (h : ∀ c ∈ s, c.toNat < 128) : s.map asciiChar = s := by
  conv => rhs; rw [← List.map_id s]
  exact List.map_congr_left fun c hc => by rw [asciiChar, if_pos (h c hc)]; rfl

theorem decimal_digit {c : Char} (h : isDigit c = true) : decimal c = some (c.toNat - 48) := by
  rw [decimal, if_pos h]

theorem decimal_digitChar {d : Nat} (h : d < 10) : decimal (digitChar d) = some d := by
  rw [decimal_digit (isDigit_digitChar h), digitChar_toNat h]
  congr 1
  omega

theorem decimal_lt {c : Char} {d : Nat} (h : decimal c = some d) : d < 10 := by
  unfold decimal at h
  split at h
  · rename_i hc
    unfold isDigit at hc
    simp only [Bool.and_eq_true, decide_eq_true_eq] at hc
    injection h with h
    omega
  · split at h
    · rename_i z hz
      have := List.find?_some hz
      simp only [decide_eq_true_eq] at this
      injection h with h
      omega
    · cases h

/-- In ASCII there are only the digits 0 - 9. -/
theorem decimal_ascii {c : Char} (hc : c.toNat < 128) (h : isDigit c = false) : decimal c = none := by
  have key : ∀ z ∈ decimalZeros, 128 ≤ z := by decide +kernel
  unfold decimal
  rw [h]
  simp only [Bool.false_eq_true, if_false]
  rw [List.find?_eq_none.2]
  intro z hz
  have := key z hz
  simp only [decide_eq_true_eq]
  omega

/-- Spaces are no digits. -/
theorem decimal_space {c : Char} (h : isSpace c = true) : decimal c = none := by
  have hd : isDigit c = false := by
    cases hd : isDigit c with
    | false => rfl
    | true => rw [not_isSpace_of_digit hd] at h; cases h
  unfold decimal
  rw [hd]
  simp only [Bool.false_eq_true, if_false]
  rw [List.find?_eq_none.2]
  intro z hz
  simp only [decide_eq_true_eq]
  unfold isSpace at h
  simp only [Bool.or_eq_true, Bool.and_eq_true, decide_eq_true_eq] at h
  have key : ∀ z ∈ decimalZeros, 0x660 ≤ z ∧ ¬ (0x1677 ≤ z ∧ z ≤ 0x1680) ∧ ¬ (0x1ff0 ≤ z ∧ z ≤ 0x3000) := by decide +kernel
  have := key z hz
  omega

/-- What `int` makes of digits. -/
theorem int_digits {s : List Char} (hs : ∀ c ∈ s, isDigit c = true) (hne : s ≠ []) {k : Nat}
    (hk : readDigits s 0 false = some k) : int s = .ok k := by
  unfold int asciiInt
  rw [map_asciiChar fun c hc => digit_lt (hs c hc), stripBy_none (fun c hc => by simpa using not_whitespace_of_digit (hs c hc))]
  cases s with
  | nil => exact absurd rfl hne
  | cons c s =>
    have h1 := digit_ne (hs c List.mem_cons_self) (show isDigit '-' = false by decide)
    have h2 := digit_ne (hs c List.mem_cons_self) (show isDigit '+' = false by decide)
    split
    · rename_i heq; exact absurd (List.cons.inj heq).1 h1
    · rename_i heq; exact absurd (List.cons.inj heq).1 h2
    · rw [hk]

theorem int_natStr (n : Nat) : int (natStr n) = .ok n := int_digits (natStr_digits n) (natStr_ne_nil n) (readDigits_natStr n)

theorem int_intStr (n : Int) : int (intStr n) = .ok n := by
  unfold intStr
  split
  · rename_i h
    unfold int asciiInt
    rw [map_asciiChar (by
      intro c hc
      rcases List.mem_cons.1 hc with rfl | hc
      · decide
      · exact digit_lt (natStr_digits _ c hc)), stripBy_none]
    · simp only [readDigits_natStr]; congr 1; omega
    · intro c hc
      rcases List.mem_cons.1 hc with rfl | hc
      · decide
      · simpa using not_whitespace_of_digit (natStr_digits _ c hc)
  · rw [int_natStr]; congr 1; omega

theorem int_error {s : List Char} {e : PyErr} (h : int s = .error e) : e = .ValueError := by
  unfold int asciiInt at h
  split at h <;> split at h <;> cases h <;> rfl

private theorem asciiInt_char (c : Char) : asciiInt [c] = if isDigit c then .ok ((c.toNat - 48 : Nat) : Int) else .error .ValueError := by
  by_cases hc : isDigit c = true
  · have := int_digits (s := [c]) (k := c.toNat - 48) (by simpa using hc) (by simp) (by simp [readDigits, hc])
    rw [int, map_asciiChar (by simpa using digit_lt hc)] at this
    rw [if_pos hc, this]
  · rw [if_neg hc]
    unfold asciiInt
    have hs : stripBy (fun c => decide (c ∈ whitespace)) [c] = if c ∈ whitespace then [] else [c] := by
      by_cases hw : c ∈ whitespace
      · unfold stripBy
        rw [List.dropWhile_cons_of_pos (by simpa using hw), if_pos hw]; rfl
      · rw [if_neg hw]
        exact stripBy_none (by simpa using hw)
    rw [hs]
    by_cases hw : c ∈ whitespace
    · rw [if_pos hw]; rfl
    · rw [if_neg hw]
      split
      · rename_i heq
        have := (List.cons.inj heq).2
        subst this; rfl
      · rename_i heq
        have := (List.cons.inj heq).2
        subst this; rfl
      · simp [readDigits, hc]

/-- `int` of a single character. -/
theorem int_char (c : Char) : int [c] = match decimal c with
    | some d => .ok (d : Int)
    | none => .error .ValueError := by
  rw [int, List.map_cons, List.map_nil, asciiInt_char]
  by_cases hc : c.toNat < 128
  · rw [asciiChar, if_pos hc]
    cases hd : isDigit c with
    | true => rw [decimal_digit hd]; rfl
    | false => rw [decimal_ascii hc hd]; rfl
  · rw [asciiChar, if_neg hc]
    cases hs : isSpace c with
    | true => rw [decimal_space hs]; rfl
    | false =>
      simp only [Bool.false_eq_true, if_false]
      cases hd : decimal c with
      | none => rfl
      | some d =>
        have := decimal_lt hd
        simp only [isDigit_digitChar this, if_true, digitChar_toNat this]
        congr 2
        omega

theorem intStr_chars (n : Int) : ∀ c ∈ intStr n, isDigit c = true ∨ c = '-' := by
  unfold intStr
  intro c hc
  split at hc
  · rcases List.mem_cons.1 hc with rfl | hc
    · exact Or.inr rfl
    · exact Or.inl (natStr_digits _ c hc)
  · exact Or.inl (natStr_digits _ c hc)

theorem intStr_ne_nil (n : Int) : intStr n ≠ [] := by
  unfold intStr; split
  · simp
  · exact natStr_ne_nil _

theorem intStr_small {n : Int} (h0 : 0 ≤ n) (h9 : n ≤ 9) : intStr n = [digitChar n.toNat] := by
  unfold intStr
  rw [if_neg (not_lt.2 h0), natStr_small (by omega)]
  congr 2
  omega

theorem ints_map {l : List (List Char)} {f : List Char → Int} (h : ∀ x ∈ l, int x = .ok (f x)) : ints l = .ok (l.map f) := by
  induction l with
  | nil => rfl
  | cons x l ih =>
    rw [ints, h x List.mem_cons_self]
    simp only
    rw [ih fun y hy => h y (List.mem_cons_of_mem _ hy)]
    rfl

theorem ints_error {l : List (List Char)} {e : PyErr} (h : ints l = .error e) : e = .ValueError := by
  induction l with
  | nil => cases h
  | cons x l ih =>
    rw [ints] at h
    split at h
    · rename_i heq; cases h; exact int_error heq
    · split at h
      · rename_i heq; cases h; exact ih heq
      · cases h

/-! ## join and split -/

theorem join_cons (sep x : List Char) {l : List (List Char)} (h : l ≠ []) : join sep (x :: l) = x ++ sep ++ join sep l := by
  cases l with
  | nil => exact absurd rfl h
  | cons y l => rfl

theorem join_nil_sep (l : List (List Char)) : join [] l = l.flatten := by
  induction l with
  | nil => rfl
  | cons x l ih =>
    cases l with
    | nil => simp [join]
    | cons y l => rw [join, ih]; simp

theorem join_append (sep : List Char) {l l' : List (List Char)} (h : l ≠ []) (h' : l' ≠ []) :
    join sep (l ++ l') = join sep l ++ sep ++ join sep l' := by
  induction l with
  | nil => exact absurd rfl h
  | cons x l ih =>
    by_cases hl : l = []
    · subst hl; rw [List.singleton_append, join_cons _ _ h']; rfl
    · rw [List.cons_append, join_cons _ _ (by simp [hl]), ih hl, join_cons _ _ hl]; simp [List.append_assoc]

theorem join_flatten (sep : List Char) {ls : List (List (List Char))} (h : ∀ l ∈ ls, l ≠ []) :
    join sep (ls.map (join sep)) = join sep ls.flatten := by
  induction ls with
  | nil => rfl
  | cons l ls ih =>
    have hl := h l List.mem_cons_self
    have ih := ih fun m hm => h m (List.mem_cons_of_mem _ hm)
    by_cases hls : ls = []
    · subst hls; simp [join]
    · rw [List.map_cons, join_cons _ _ (by simpa using hls), ih, List.flatten_cons, join_append _ hl]
      cases ls with
      | nil => exact absurd rfl hls
      | cons m ls => intro h0; exact h m (by simp) (List.append_eq_nil_iff.1 h0).1

theorem mem_join {sep : List Char} {l : List (List Char)} {c : Char} (h : c ∈ join sep l) : c ∈ sep ∨ ∃ x ∈ l, c ∈ x := by
  induction l with
  | nil => simp [join] at h
  | cons x l ih =>
    by_cases hl : l = []
    · subst hl; exact Or.inr ⟨x, by simp, h⟩
    · rw [join_cons _ _ hl, List.mem_append, List.mem_append] at h
      rcases h with (h | h) | h
      · exact Or.inr ⟨x, by simp, h⟩
      · exact Or.inl h
      · rcases ih h with h | ⟨y, hy, h⟩
        · exact Or.inl h
        · exact Or.inr ⟨y, List.mem_cons_of_mem _ hy, h⟩

theorem join_flatMap (sep : List Char) (f : Char → List Char) (l : List (List Char)) :
    (join sep l).flatMap f = join (sep.flatMap f) (l.map fun x => x.flatMap f) := by
  induction l with
  | nil => rfl
  | cons x l ih =>
    by_cases hl : l = []
    · subst hl; rfl
    · rw [join_cons _ _ hl, List.flatMap_append, List.flatMap_append, ih, List.map_cons, join_cons _ _ (by simpa using hl)]

theorem head_join {sep x : List Char} (hx : x ≠ []) (l : List (List Char)) : (join sep (x :: l)).head? = x.head? := by
  cases x with
  | nil => exact absurd rfl hx
  | cons c x => cases l <;> rfl

theorem last_join {sep : List Char} {l : List (List Char)} (hl : l ≠ []) (hx : ∀ x ∈ l, x ≠ []) :
    ∃ x ∈ l, (join sep l).getLast? = x.getLast? := by
  induction l with
  | nil => exact absurd rfl hl
  | cons x l ih =>
    by_cases hl' : l = []
    · subst hl'; exact ⟨x, by simp, rfl⟩
    · obtain ⟨y, hy, h⟩ := ih hl' fun z hz => hx z (List.mem_cons_of_mem _ hz)
      refine ⟨y, List.mem_cons_of_mem _ hy, ?_⟩
      have hne : (join sep l).getLast? ≠ none := by
        rw [h]; exact fun h0 => hx y (List.mem_cons_of_mem _ hy) (List.getLast?_eq_none_iff.1 h0)
      rw [join_cons _ _ hl', List.getLast?_append, ← h]
      cases hg : (join sep l).getLast? with
      | none => exact absurd hg hne
      | some c => rfl

theorem splitGo_piece {sep : List Char} (x : List Char) (hx : ∀ c ∈ x, c ∉ sep) (hsep : sep ≠ []) (rest acc : List Char) :
    splitGo sep (x ++ rest) 0 acc = splitGo sep rest 0 (x.reverse ++ acc) := by
  induction x generalizing acc with
  | nil => rfl
  | cons c x ih =>
    rw [List.cons_append, splitGo, if_neg, ih (fun d hd => hx d (List.mem_cons_of_mem _ hd))]
    · simp
    · intro hp
      obtain ⟨t, ht⟩ := List.isPrefixOf_iff_prefix.1 hp
      cases sep with
      | nil => exact hsep rfl
      | cons d sep =>
        have := (List.cons.inj ht).1
        exact hx c List.mem_cons_self (by rw [← this]; exact List.mem_cons_self)

theorem splitGo_skip {sep : List Char} (x rest acc : List Char) : splitGo sep (x ++ rest) x.length acc = splitGo sep rest 0 acc := by
  induction x with
  | nil => rfl
  | cons c x ih => rw [List.cons_append, List.length_cons, splitGo, ih]

theorem splitGo_sep {sep : List Char} (hsep : sep ≠ []) (rest acc : List Char) :
    splitGo sep (sep ++ rest) 0 acc = acc.reverse :: splitGo sep rest 0 [] := by
  cases sep with
  | nil => exact absurd rfl hsep
  | cons d t =>
    rw [List.cons_append, splitGo, if_pos (List.isPrefixOf_iff_prefix.2 ⟨rest, by simp⟩)]
    rw [List.length_cons, Nat.add_sub_cancel, splitGo_skip]

/-- Splitting undoes joining. -/
theorem split_join {sep : List Char} (hsep : sep ≠ []) {l : List (List Char)} (hl : l ≠ [])
    (hd : ∀ x ∈ l, ∀ c ∈ x, c ∉ sep) : split (join sep l) sep = .ok l := by
  unfold split
  rw [if_neg hsep]
  congr 1
  induction l with
  | nil => exact absurd rfl hl
  | cons x l ih =>
    have hx := hd x List.mem_cons_self
    by_cases hl' : l = []
    · subst hl'
      have := splitGo_piece x hx hsep [] []
      rw [List.append_nil, List.append_nil] at this
      show splitGo sep x 0 [] = [x]
      rw [this]
      simp [splitGo]
    · rw [join_cons _ _ hl', List.append_assoc, splitGo_piece x hx hsep, splitGo_sep hsep,
        ih hl' fun y hy => hd y (List.mem_cons_of_mem _ hy)]
      simp

theorem cut_none {sep : Char} {s : List Char} (h : sep ∉ s) : cut [sep] s = none := by
  induction s with
  | nil => simp [cut]
  | cons c s ih =>
    rw [cut, if_neg, ih fun hm => h (List.mem_cons_of_mem _ hm)]
    intro hp
    obtain ⟨t, ht⟩ := List.isPrefixOf_iff_prefix.1 hp
    exact h (by rw [← (List.cons.inj ht).1]; exact List.mem_cons_self)

theorem cut_some {sep : Char} {s : List Char} (h : sep ∉ s) (t : List Char) : cut [sep] (s ++ sep :: t) = some (s, t) := by
  induction s with
  | nil => simp [cut]
  | cons c s ih =>
    rw [List.cons_append, cut, if_neg, ih fun hm => h (List.mem_cons_of_mem _ hm)]
    intro hp
    obtain ⟨t, ht⟩ := List.isPrefixOf_iff_prefix.1 hp
    exact h (by rw [← (List.cons.inj ht).1]; exact List.mem_cons_self)

theorem dropWhile_all {p : Char → Bool} {x y : List Char} (h : ∀ c ∈ x, p c = true) : (x ++ y).dropWhile p = y.dropWhile p := by
  induction x with
  | nil => rfl
  | cons c x ih =>
    rw [List.cons_append, List.dropWhile_cons_of_pos (h c (by simp)), ih fun d hd => h d (List.mem_cons_of_mem _ hd)]

theorem strip_blanks {pre t post : List Char} (h1 : ∀ c ∈ pre, isSpace c = true) (h2 : ∀ c ∈ post, isSpace c = true) (h0 : t ≠ [])
    (h3 : ∀ c, t.head? = some c → isSpace c = false) (h4 : ∀ c, t.getLast? = some c → isSpace c = false) :
    strip (pre ++ t ++ post) = t := by
  unfold strip stripBy
  rw [List.append_assoc, dropWhile_all h1]
  have e1 : (t ++ post).dropWhile isSpace = t ++ post := by
    cases t with
    | nil => exact absurd rfl h0
    | cons c t =>
      rw [List.cons_append]
      exact List.dropWhile_cons_of_neg (by rw [h3 c rfl]; simp)
  rw [e1, List.reverse_append, dropWhile_all (by simpa using h2)]
  have e2 : t.reverse.dropWhile isSpace = t.reverse := by
    rcases List.eq_nil_or_concat t with rfl | ⟨t', c, rfl⟩
    · exact absurd rfl h0
    · rw [List.concat_eq_append, List.reverse_append]
      exact List.dropWhile_cons_of_neg (by rw [h4 c (by simp)]; simp)
  rw [e2, List.reverse_reverse]

end Py
