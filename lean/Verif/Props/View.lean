import Verif.Proofs.View
import Verif.Props.Codec
import Mathlib.Data.Finset.Sort

set_option autoImplicit false

/-!
# Properties of `view` and `str` (C12)

The text is described by the list of its lines and, for each line, by the characters at given positions.
-/

open Spec Codec

namespace Props

/-- What is shown for a field: its number, or for an empty field nothing or the sorted candidates after the prefix,
separated by commas as soon as there are numbers with two digits. -/
def shown (s : Sudoku) (candidates : Bool) (prefix_ : List Char) (a : Cell) : List Char :=
  if s.get a ≠ 0 then Py.intStr (s.get a)
  else if candidates = true then
    prefix_ ++ Py.join (if 9 < s.n then [','] else []) (((s.getCandidates a).sort (· ≤ ·)).map Py.intStr)
  else []

/-- Fill up with blanks to width `m`. -/
def padded (right : Bool) (m : Nat) (x : List Char) : List Char :=
  if right = true then List.replicate (m - x.length) ' ' ++ x else x ++ List.replicate (m - x.length) ' '

/-- The position in a line at which the field of column `c` starts, for fields of width `m` and boxes of width `w`: each
field is followed by a blank, each of the `c / w` bars before it by another one. -/
def column (w m c : Nat) : Nat := c * (m + 1) + 2 * (c / w)

/-- The position of the bar after box column `k`. -/
def bar (w m k : Nat) : Nat := (k + 1) * (w * (m + 1)) + 2 * k

private theorem natStr_two {n : Nat} (h : 9 < n) : 2 ≤ (Py.natStr n).length := by
  rw [Py.natStr, if_neg (by omega), List.length_append]
  have := List.length_pos_iff.2 (Py.natStr_ne_nil (n / 10))
  simp only [List.length_cons, List.length_nil]
  omega

private theorem viewSep_eq {s : Sudoku} (hN : 0 < s.n) : viewSep s = if 9 < s.n then [','] else [] := by
  unfold viewSep
  by_cases h : 9 < s.n
  · rw [if_pos h, if_pos]
    have h1 := maxLength_ge (s := s) (v := s.n) ⟨by omega, le_refl _⟩
    have h2 : (Py.intStr (s.n : Int)).length = (Py.natStr s.n).length := by
      unfold Py.intStr; rw [if_neg (by omega), Int.natAbs_natCast]
    have := natStr_two h
    omega
  · rw [if_neg h, if_neg]
    obtain ⟨v, hv, h1⟩ := maxLength_mem hN
    rw [h1, Py.intStr_small (by omega) (by omega)]
    simp

private theorem sortSet_sort (S : Finset Int) : Solvers.sortSet S = S.sort (· ≤ ·) := by
  obtain ⟨m, h⟩ := S
  induction m using Quot.inductionOn with
  | h l =>
    refine List.Perm.eq_of_pairwise' (r := (· ≤ ·)) (List.pairwise_insertionSort (· ≤ ·) l) (Finset.pairwise_sort _ _) ?_
    refine (List.perm_insertionSort _ l).trans (Multiset.coe_eq_coe.1 ?_)
    rw [Finset.sort_eq]
    rfl

private theorem plainText_shown {s : Sudoku} (hN : 0 < s.n) (b : Bool) (prefix_ : List Char) (a : Cell) :
    plainText s b prefix_ a = shown s b prefix_ a := by
  unfold plainText shown candText
  rw [viewSep_eq hN, sortSet_sort]

theorem fieldText_padded {s : Sudoku} (hN : 0 < s.n) (b : Bool) (prefix_ : List Char) (r : Bool) (m : Nat) (a : Cell) :
    fieldText s b prefix_ r m a = padded r m (shown s b prefix_ a) := by
  rw [fieldText_eq, plainText_shown hN]
  rfl

private theorem n_pos {s : Sudoku} (hw : 0 < s.bw) (hh : 0 < s.bh) : 0 < s.n := Nat.mul_pos hw hh

private theorem colChars_length {s : Sudoku} {b : Bool} {prefix_ : List Char} {r : Bool} {row : Nat} (hrow : row < s.n)
    (hv : ∀ a, InGrid s.bw s.bh a → 0 ≤ s.get a ∧ s.get a ≤ s.n) : ∀ c < s.n,
    (colChars s b prefix_ r (fieldLength s b prefix_) row c).length =
      (fieldLength s b prefix_ + 1) + if (c + 1) % s.bw = 0 ∧ c + 1 < s.n then 2 else 0 := by
  intro c hc
  unfold colChars
  rw [List.length_append, List.length_cons, fieldText_length ⟨hrow, hc⟩ (hv _ ⟨hrow, hc⟩)]
  split <;> simp

theorem line_length {s : Sudoku} {b : Bool} {prefix_ : List Char} {r : Bool} {row : Nat} (hN : 0 < s.n) (hrow : row < s.n)
    (hv : ∀ a, InGrid s.bw s.bh a → 0 ≤ s.get a ∧ s.get a ≤ s.n) :
    (line s b prefix_ r (fieldLength s b prefix_) row).length = s.n * (fieldLength s b prefix_ + 1) + 2 * s.bh - 3 := by
  have h1 := congrArg List.length (line_blank hN b prefix_ r (fieldLength s b prefix_) row)
  have h2 := length_groups_all (w := s.bw) (h := s.bh) hN _ (colChars_length (b := b) (prefix_ := prefix_) (r := r) hrow hv)
  have hh : 0 < s.bh := Nat.pos_of_mul_pos_left hN
  change _ = s.n * _ + _ at h2
  change List.length (List.flatMap _ (List.range s.n)) = _ at h2
  rw [h2, List.length_append, List.length_singleton] at h1
  omega

theorem line_field {s : Sudoku} {b : Bool} {prefix_ : List Char} {r : Bool} {row c : Nat} (hN : 0 < s.n) (hrow : row < s.n)
    (hc : c < s.n) (hv : ∀ a, InGrid s.bw s.bh a → 0 ≤ s.get a ∧ s.get a ≤ s.n) :
    ((line s b prefix_ r (fieldLength s b prefix_) row).drop (column s.bw (fieldLength s b prefix_) c)).take
      (fieldLength s b prefix_) = fieldText s b prefix_ r (fieldLength s b prefix_) (row, c) := by
  have hl := fieldText_length (b := b) (prefix_ := prefix_) (r := r) (a := (row, c)) ⟨hrow, hc⟩ (hv _ ⟨hrow, hc⟩)
  obtain ⟨rest, hrest⟩ := flatMap_split hc (colChars s b prefix_ r (fieldLength s b prefix_) row)
  have hlen := length_groups _ (colChars_length (b := b) (prefix_ := prefix_) (r := r) hrow hv) c hc
  rw [← line_blank hN] at hrest
  generalize hP : (List.range c).flatMap (colChars s b prefix_ r (fieldLength s b prefix_) row) = P at hrest hlen
  have hcol : P.length = column s.bw (fieldLength s b prefix_) c := hlen
  unfold colChars at hrest
  generalize fieldText s b prefix_ r (fieldLength s b prefix_) (row, c) = F at hl hrest ⊢
  generalize line s b prefix_ r (fieldLength s b prefix_) row = L at hrest ⊢
  generalize (if (c + 1) % s.bw = 0 ∧ c + 1 < s.n then ['|', ' '] else ([] : List Char)) = E at hrest
  have hLl := congrArg List.length hrest
  simp only [List.length_append, List.length_cons, List.length_nil] at hLl
  have h1 : (L ++ [' ']).take (P.length + F.length) = P ++ F := by
    rw [hrest]
    simp only [List.append_assoc, List.cons_append]
    rw [← List.append_assoc P F, List.take_left' (by rw [List.length_append])]
  rw [List.take_append_of_le_length (by omega)] at h1
  rw [← hcol, ← hl, List.take_drop, h1]
  simp

private theorem line_bar {s : Sudoku} {b : Bool} {prefix_ : List Char} {r : Bool} {row k : Nat} (hN : 0 < s.n) (hrow : row < s.n)
    (hk : k + 1 < s.bh) (hv : ∀ a, InGrid s.bw s.bh a → 0 ≤ s.get a ∧ s.get a ≤ s.n) :
    (line s b prefix_ r (fieldLength s b prefix_) row)[bar s.bw (fieldLength s b prefix_) k]? = some '|' := by
  have hw : 0 < s.bw := Nat.pos_of_mul_pos_right hN
  obtain ⟨c, hc1⟩ : ∃ c, (k + 1) * s.bw = c + 1 :=
    ⟨(k + 1) * s.bw - 1, by have := Nat.mul_pos (show 0 < k + 1 by omega) hw; omega⟩
  have hcn : c + 1 < s.n := by
    rw [← hc1]
    unfold Sudoku.n
    rw [Nat.mul_comm]
    exact Nat.mul_lt_mul_of_pos_left hk hw
  have hck : c / s.bw = k := by
    have : c = s.bw * k + (s.bw - 1) := by rw [Nat.succ_mul, Nat.mul_comm] at hc1; omega
    rw [this, Nat.mul_add_div hw, Nat.div_eq_of_lt (by omega), Nat.add_zero]
  have hc : c < s.n := by omega
  have hl := fieldText_length (b := b) (prefix_ := prefix_) (r := r) (a := (row, c)) ⟨hrow, hc⟩ (hv _ ⟨hrow, hc⟩)
  obtain ⟨rest, hrest⟩ := flatMap_split hc (colChars s b prefix_ r (fieldLength s b prefix_) row)
  have hlen := length_groups _ (colChars_length (b := b) (prefix_ := prefix_) (r := r) hrow hv) c hc
  rw [← line_blank hN] at hrest
  generalize hP : (List.range c).flatMap (colChars s b prefix_ r (fieldLength s b prefix_) row) = P at hrest hlen
  unfold colChars at hrest
  rw [if_pos ⟨by rw [← hc1]; exact Nat.mul_mod_left _ _, hcn⟩] at hrest
  have hll := congrArg List.length hrest
  have hbar : bar s.bw (fieldLength s b prefix_) k = P.length + ((fieldLength s b prefix_) + 1) := by
    rw [hlen, hck]
    unfold bar
    rw [← Nat.mul_assoc, hc1, Nat.succ_mul]
    omega
  generalize fieldText s b prefix_ r (fieldLength s b prefix_) (row, c) = F at hl hrest hll
  simp only [List.length_append, List.length_cons, List.length_nil] at hll
  rw [hbar, ← List.getElem?_append_left (l₂ := [' ']) (by omega), hrest, List.getElem?_append_right (by omega),
    Nat.add_sub_cancel_left, List.append_assoc, List.getElem?_append_right (by omega), hl, Nat.add_sub_cancel_left]
  rfl

theorem rowLines_length (s : Sudoku) (b : Bool) (prefix_ : List Char) (r : Bool) (m : Nat) : ∀ c < s.bh * s.bw,
    (rowLines s b prefix_ r m c).length = 1 + if (c + 1) % s.bh = 0 ∧ c + 1 < s.bh * s.bw then 1 else 0 := by
  intro c _
  unfold rowLines
  rw [List.length_cons, show s.n = s.bh * s.bw from Nat.mul_comm _ _]
  split <;> simp

theorem lines_row {s : Sudoku} {b : Bool} {prefix_ : List Char} {r : Bool} {row : Nat} (hrow : row < s.n) :
    (viewLines s b prefix_ r)[row + row / s.bh]? = some (line s b prefix_ r (fieldLength s b prefix_) row) := by
  unfold viewLines
  obtain ⟨rest, hrest⟩ := flatMap_split hrow (rowLines s b prefix_ r (fieldLength s b prefix_))
  have hlen := length_groups _ (rowLines_length s b prefix_ r (fieldLength s b prefix_)) row
    (by rw [Nat.mul_comm]; exact hrow)
  rw [Nat.mul_one, Nat.one_mul] at hlen
  rw [hrest, List.getElem?_append_right (by omega), hlen, Nat.sub_self]
  rfl

theorem lines_rule {s : Sudoku} {b : Bool} {prefix_ : List Char} {r : Bool} {k : Nat} (hh : 0 < s.bh) (hk : k + 1 < s.bw) :
    (viewLines s b prefix_ r)[(k + 1) * s.bh + k]? = some (ruleLine s (fieldLength s b prefix_)) := by
  obtain ⟨c, hc1⟩ : ∃ c, (k + 1) * s.bh = c + 1 :=
    ⟨(k + 1) * s.bh - 1, by have := Nat.mul_pos (show 0 < k + 1 by omega) hh; omega⟩
  have hcn : c + 1 < s.n := by
    rw [← hc1]
    exact Nat.mul_lt_mul_of_pos_right hk hh
  have hck : c / s.bh = k := by
    have : c = s.bh * k + (s.bh - 1) := by rw [Nat.succ_mul, Nat.mul_comm] at hc1; omega
    rw [this, Nat.mul_add_div hh, Nat.div_eq_of_lt (by omega), Nat.add_zero]
  have hc : c < s.n := by omega
  unfold viewLines
  obtain ⟨rest, hrest⟩ := flatMap_split hc (rowLines s b prefix_ r (fieldLength s b prefix_))
  have hlen := length_groups _ (rowLines_length s b prefix_ r (fieldLength s b prefix_)) c
    (by rw [Nat.mul_comm]; exact hc)
  rw [Nat.mul_one, Nat.one_mul, hck] at hlen
  unfold rowLines at hrest
  rw [if_pos ⟨by rw [← hc1]; exact Nat.mul_mod_left _ _, hcn⟩] at hrest
  change ((List.range c).flatMap (fun row => rowLines s b prefix_ r (fieldLength s b prefix_) row)).length = _ at hlen
  unfold rowLines at hlen
  unfold rowLines
  rw [hrest, List.getElem?_append_right (by omega), hlen, hc1, show c + 1 + k - (c + k) = 1 by omega]
  rfl

private theorem viewLines_mem {s : Sudoku} {b : Bool} {prefix_ : List Char} {r : Bool} {l : List Char}
    (h : l ∈ viewLines s b prefix_ r) :
    (∃ row < s.n, l = line s b prefix_ r (fieldLength s b prefix_) row) ∨ l = ruleLine s (fieldLength s b prefix_) := by
  obtain ⟨row, hrow, hl⟩ := List.mem_flatMap.1 h
  unfold rowLines at hl
  rcases List.mem_cons.1 hl with rfl | hl
  · exact Or.inl ⟨row, List.mem_range.1 hrow, rfl⟩
  · right
    split at hl
    · exact List.mem_singleton.1 hl
    · exact absurd hl List.not_mem_nil

private theorem intStr_no_break (n : Int) : '\n' ∉ Py.intStr n := by
  intro h
  rcases Py.intStr_chars n _ h with h | h
  · exact absurd h (by decide)
  · exact absurd h (by decide)

theorem viewLines_no_break {s : Sudoku} (hN : 0 < s.n) {b : Bool} {prefix_ : List Char} {r : Bool} (hp : '\n' ∉ prefix_)
    {l : List Char} (h : l ∈ viewLines s b prefix_ r) : '\n' ∉ l := by
  have hshown : ∀ a, '\n' ∉ shown s b prefix_ a := by
    intro a
    unfold shown
    split
    · exact intStr_no_break _
    · split
      · intro h
        rcases List.mem_append.1 h with h | h
        · exact hp h
        · rcases Py.mem_join h with h | ⟨x, hx, h⟩
          · split at h
            · exact absurd h (by decide)
            · exact absurd h List.not_mem_nil
          · obtain ⟨v, _, rfl⟩ := List.mem_map.1 hx
            exact intStr_no_break v h
      · exact List.not_mem_nil
  have hpad : ∀ m a, '\n' ∉ padded r m (shown s b prefix_ a) := by
    intro m a h
    unfold padded at h
    split at h
    · rcases List.mem_append.1 h with h | h
      · exact absurd (List.mem_replicate.1 h).2 (by decide)
      · exact hshown a h
    · rcases List.mem_append.1 h with h | h
      · exact hshown a h
      · exact absurd (List.mem_replicate.1 h).2 (by decide)
  rcases viewLines_mem h with ⟨row, _, rfl⟩ | rfl
  · intro h
    have h1 := List.mem_append_left [' '] h
    rw [line_blank hN] at h1
    obtain ⟨c, _, h1⟩ := List.mem_flatMap.1 h1
    unfold colChars at h1
    rw [fieldText_padded hN] at h1
    rcases List.mem_append.1 h1 with h1 | h1
    · exact hpad _ _ h1
    · split at h1
      · exact absurd h1 (by decide)
      · exact absurd h1 (by decide)
  · unfold ruleLine
    intro h
    simp only [List.mem_append, List.mem_cons, List.mem_flatMap, List.mem_replicate, List.not_mem_nil, or_false] at h
    rcases h with (⟨_, h⟩ | h | ⟨_, _, ⟨_, h⟩ | h⟩) | ⟨_, h⟩ <;> exact absurd h (by decide)

/-- **C12** `view()`: for numbers within `0 .. N` the text consists of `N` field lines and `w - 1` rule lines, in blocks of
`h` field lines with a rule between the blocks.  All fields have the same width `m`, the least one sufficient for the
numbers `1 .. N` and the shown candidates; each field line has the text of the field of column `c` at position
`column w m c`, filled up with blanks to the width `m`, and bars at the positions `bar w m k`.  For box height at least 2
all lines have the same length, and a rule line has `+` exactly at the positions of the bars and `-` elsewhere.  For box
height 1 a rule line is longer than a field line.  The lines are lines, that is contain no line break, unless the prefix
does. -/
theorem C12_layout {s : Sudoku} (hw : 0 < s.bw) (hh : 0 < s.bh)
    (hv : ∀ a, InGrid s.bw s.bh a → 0 ≤ s.get a ∧ s.get a ≤ s.n) (candidates : Bool) (prefix_ : List Char) (right : Bool) :
    ∃ (m : Nat) (lines : List (List Char)),
      view s candidates prefix_ right = .ok (Py.join ['\n'] lines) ∧
      (('\n' ∉ prefix_) → ∀ l ∈ lines, '\n' ∉ l) ∧
      lines.length = s.bw * s.bh + (s.bw - 1) ∧
      (∀ v : Int, 1 ≤ v → v ≤ s.n → (Py.intStr v).length ≤ m) ∧
      (∀ a, InGrid s.bw s.bh a → (shown s candidates prefix_ a).length ≤ m) ∧
      ((∃ v : Int, 1 ≤ v ∧ v ≤ s.n ∧ m = (Py.intStr v).length) ∨ candidates = true ∧ ∃ a, InGrid s.bw s.bh a ∧
        m = (shown (s.setNumber a 0) true prefix_ a).length) ∧
      (∀ r < s.n, ∃ l, lines[r + r / s.bh]? = some l ∧ l.length = s.n * (m + 1) + 2 * s.bh - 3 ∧
        (∀ c < s.n, (l.drop (column s.bw m c)).take m = padded right m (shown s candidates prefix_ (r, c))) ∧
        ∀ k, k + 1 < s.bh → l[bar s.bw m k]? = some '|') ∧
      ∀ k, k + 1 < s.bw → ∃ l, lines[(k + 1) * s.bh + k]? = some l ∧
        (2 ≤ s.bh → l.length = s.n * (m + 1) + 2 * s.bh - 3 ∧
          ∀ i < l.length, ((∃ k, k + 1 < s.bh ∧ i = bar s.bw m k) → l[i]? = some '+') ∧
            ((¬ ∃ k, k + 1 < s.bh ∧ i = bar s.bw m k) → l[i]? = some '-')) ∧
        (s.bh = 1 → s.n * (m + 1) + 2 * s.bh - 3 < l.length) := by
  have hN := n_pos hw hh
  refine ⟨fieldLength s candidates prefix_, viewLines s candidates prefix_ right, view_eq hN _ _ _,
    fun hp l hl => viewLines_no_break hN hp hl, ?_, ?_, ?_, ?_, ?_, ?_⟩
  · have := length_groups_all (w := s.bh) (h := s.bw) (by rw [Nat.mul_comm]; exact hN) _
      (rowLines_length s candidates prefix_ right (fieldLength s candidates prefix_))
    unfold viewLines Sudoku.n
    rw [Nat.mul_comm s.bw s.bh, this]
    omega
  · intro v h1 h2
    exact le_trans (maxLength_ge ⟨h1, h2⟩) (fieldLength_ge _ _ _)
  · intro a ha
    rw [← plainText_shown hN]
    exact plainText_le ha (hv a ha)
  · rcases fieldLength_mem s candidates prefix_ with h | ⟨h, a, ha, h1⟩
    · obtain ⟨v, hv, h2⟩ := maxLength_mem hN
      exact Or.inl ⟨v, hv.1, hv.2, h.trans h2⟩
    · refine Or.inr ⟨h, a, ha, ?_⟩
      rw [h1]
      have : candText s prefix_ a = shown (s.setNumber a 0) true prefix_ a := by
        rw [← plainText_shown (s := s.setNumber a 0) hN]
        unfold plainText
        rw [if_neg (by simp [Sudoku.setNumber, Sudoku.get]), if_pos rfl]
        rfl
      rw [this]
  · intro r hr
    refine ⟨_, lines_row hr, line_length hN hr hv, ?_, fun k hk => line_bar hN hr hk hv⟩
    intro c hc
    rw [line_field hN hr hc hv, fieldText_padded hN]
  · intro k hk
    refine ⟨_, lines_rule hh hk, ?_, ?_⟩
    · intro h2
      refine ⟨ruleLine_length s _ h2, ?_⟩
      intro i hi
      have := ruleLine_get s _ h2 i hi
      unfold bar
      constructor
      · intro h; rw [this, if_pos h]
      · intro h; rw [this, if_neg h]
    · intro h1
      unfold ruleLine Sudoku.n
      simp only [h1, List.length_append, List.length_replicate, List.length_cons]
      simp only [Nat.mul_one, Nat.mul_add]
      omega

private theorem unpad (right : Bool) {m : Nat} {x : List Char} (hx : ∀ c ∈ x, Py.isDigit c = true) :
    (padded right m x).filter Py.isDigit = x := by
  have h : ∀ k, (List.replicate k ' ').filter Py.isDigit = [] := by
    intro k
    rw [List.filter_eq_nil_iff]
    intro c hc
    rw [(List.mem_replicate.1 hc).2]
    decide
  unfold padded
  split
  · rw [List.filter_append, h, List.nil_append, List.filter_eq_self]; exact hx
  · rw [List.filter_append, h, List.append_nil, List.filter_eq_self]; exact hx

private theorem shown_digits {s : Sudoku} {a : Cell} (h : 0 ≤ s.get a) : ∀ c ∈ shown s false [] a, Py.isDigit c = true := by
  unfold shown Py.intStr
  split
  · rw [if_neg (by omega)]; exact Py.natStr_digits _
  · simp

/-- **C12** (nothing is lost) The numbers can be read off the text: sudokus of the same box size with numbers within
`0 .. N` and the same text have the same numbers. -/
theorem C12_faithful {s t : Sudoku} (hw : 0 < s.bw) (hh : 0 < s.bh) (htw : t.bw = s.bw) (hth : t.bh = s.bh)
    (hs : ∀ a, InGrid s.bw s.bh a → 0 ≤ s.get a ∧ s.get a ≤ s.n)
    (ht : ∀ a, InGrid t.bw t.bh a → 0 ≤ t.get a ∧ t.get a ≤ t.n) (right : Bool)
    (h : view s false [] right = view t false [] right) : ∀ a, InGrid s.bw s.bh a → s.get a = t.get a := by
  have hN := n_pos hw hh
  have htn : t.n = s.n := by unfold Sudoku.n; rw [htw, hth]
  have hNt : 0 < t.n := by omega
  rw [view_eq hN, view_eq hNt] at h
  have hne : ∀ u : Sudoku, 0 < u.n → viewLines u false [] right ≠ [] := by
    intro u hu
    obtain ⟨k, hk⟩ : ∃ k, u.n = k + 1 := ⟨u.n - 1, by omega⟩
    unfold viewLines
    rw [hk, List.range_succ_eq_map, List.flatMap_cons]
    simp [rowLines]
  have hnb : ∀ u : Sudoku, 0 < u.n → ∀ x ∈ viewLines u false [] right, ∀ c ∈ x, c ∉ ['\n'] := by
    intro u hu x hx c hc hcn
    rw [List.mem_singleton] at hcn
    subst hcn
    exact viewLines_no_break hu List.not_mem_nil hx hc
  have hsj := Py.split_join (sep := ['\n']) (by simp) (hne s hN) (hnb s hN)
  rw [Except.ok.inj h, Py.split_join (sep := ['\n']) (by simp) (hne t hNt) (hnb t hNt)] at hsj
  have hlines := Except.ok.inj hsj
  have hm : fieldLength t false [] = fieldLength s false [] := by
    show maxLength t = maxLength s
    unfold maxLength Sudoku.numbers
    rw [htn]
  rintro ⟨r, c⟩ ⟨hr, hc⟩
  have h1 := lines_row (s := s) (b := false) (prefix_ := []) (r := right) hr
  have h2 := lines_row (s := t) (b := false) (prefix_ := []) (r := right) (row := r) (by rw [htn]; exact hr)
  rw [hlines, hth, h1] at h2
  have h3 := Option.some.inj h2
  have h4 := line_field (b := false) (prefix_ := []) (r := right) hN hr hc hs
  have h5 := line_field (s := t) (b := false) (prefix_ := []) (r := right) (row := r) (c := c) hNt
    (by rw [htn]; exact hr) (by rw [htn]; exact hc) ht
  rw [h3, ← hm, ← htw, h5, fieldText_padded hN, fieldText_padded hNt] at h4
  have hin : InGrid s.bw s.bh (r, c) := ⟨hr, hc⟩
  have hin' : InGrid t.bw t.bh (r, c) := by rw [htw, hth]; exact hin
  have h6 := congrArg (List.filter Py.isDigit) h4
  rw [unpad right (shown_digits (ht _ hin').1), unpad right (shown_digits (hs _ hin).1)] at h6
  unfold shown at h6
  by_cases h0 : s.get (r, c) = 0
  · by_cases h0' : t.get (r, c) = 0
    · rw [h0, h0']
    · simp [h0, h0', Py.intStr_ne_nil] at h6
  · by_cases h0' : t.get (r, c) = 0
    · simp [h0, h0', (Py.intStr_ne_nil _).symm] at h6
    · rw [if_pos h0', if_pos h0] at h6
      have h7 := congrArg Py.int h6
      rw [Py.int_intStr, Py.int_intStr] at h7
      exact (Except.ok.inj h7).symm

/-- **C12** (errors) The only sudokus that cannot be printed are those without fields: `max` of an empty list. -/
theorem C12_error (s : Sudoku) (candidates : Bool) (prefix_ : List Char) (right : Bool) :
    (∃ e, view s candidates prefix_ right = .error e) ↔ s.bw = 0 ∨ s.bh = 0 := by
  by_cases h : s.n = 0
  · have : view s candidates prefix_ right = .error .ValueError := by unfold view; rw [if_pos h]
    rw [this]
    exact ⟨fun _ => Nat.mul_eq_zero.1 h, fun _ => ⟨_, rfl⟩⟩
  · rw [view_eq (by omega)]
    constructor
    · rintro ⟨e, he⟩; cases he
    · intro h'; exact absurd (Nat.mul_eq_zero.2 h') h

/-- **C12** (`str`) `str(s)` is `view` without candidates, aligned to the right; the prefix does not matter. -/
theorem C12_str (s : Sudoku) (prefix_ : List Char) : str s = view s false prefix_ true := by
  unfold str view
  rfl

/-! ## Examples -/

/-- A sudoku of box width 3 and height 2 with candidates. -/
def exView : Sudoku :=
  ((((Sudoku.new 3 2).setNumber (0, 0) 6).setNumber (5, 5) 1).setCandidates (0, 1) {1, 3}).setCandidates (5, 0) {2, 4, 5}

example : 0 < exView.bw ∧ 2 ≤ exView.bh ∧ ∀ a, InGrid exView.bw exView.bh a → 0 ≤ exView.get a ∧ exView.get a ≤ exView.n := by
  refine ⟨by decide, by decide, ?_⟩
  have h : ∀ r < 6, ∀ c < 6, 0 ≤ exView.get (r, c) ∧ exView.get (r, c) ≤ exView.n := by decide
  exact fun a ha => h a.1 ha.1 a.2 ha.2
example : str exView = .ok ("6     |      \n      |      \n------+------\n" ++
    "      |      \n      |      \n------+------\n      |      \n      |     1").toList := by decide +kernel
example : view exView true ['*'] true = .ok (
    "   6  *13    * |    *    *    *\n" ++
    "   *    *    * |    *    *    *\n" ++
    "---------------+---------------\n" ++
    "   *    *    * |    *    *    *\n" ++
    "   *    *    * |    *    *    *\n" ++
    "---------------+---------------\n" ++
    "   *    *    * |    *    *    *\n" ++
    "*245    *    * |    *    *    1").toList := by decide +kernel
/-- Box height 1: the rule is longer than the field lines. -/
example : str (Sudoku.new 2 1) = .ok "   \n----+----\n   ".toList := by decide +kernel

end Props
