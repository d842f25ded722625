import Verif.Props.View

set_option autoImplicit false

/-!
# Nothing is lost in the text made by `view` (C106)

C12 says what the text looks like.  Here: from the text, one can read off the box size, the numbers, and the candidates of
the empty fields.
-/

open Spec Codec

namespace Props

/-- Numbers and candidates within `0 .. N`. -/
def InRange (s : Sudoku) : Prop :=
  ∀ a, InGrid s.bw s.bh a → (0 ≤ s.get a ∧ s.get a ≤ s.n) ∧ ∀ v ∈ s.getCandidates a, 0 ≤ v ∧ v ≤ s.n

/-- A prefix that can be told from numbers, padding, lines and rules. The default prefix is `"*"`. -/
def GoodPrefix (p : List Char) : Prop :=
  p ≠ [] ∧ (∀ c, p.head? = some c → ¬ ('0' ≤ c ∧ c ≤ '9')) ∧ ' ' ∉ p ∧ '\n' ∉ p ∧ '-' ∉ p

private theorem intStr_nonneg {n : Int} (h : 0 ≤ n) : ∀ c ∈ Py.intStr n, Py.isDigit c = true := by
  unfold Py.intStr
  rw [if_neg (by omega)]
  exact Py.natStr_digits _

/-- A character which is no digit and no comma, and is not in the prefix, does not occur. -/
private theorem shown_chars {s : Sudoku} {b : Bool} {p : List Char} {a : Cell} (hs : InRange s) (ha : InGrid s.bw s.bh a) {d : Char}
    (hd : Py.isDigit d = false) (hc : d ≠ ',') (hp : d ∉ p) : d ∉ shown s b p a := by
  have hnum : ∀ n : Int, 0 ≤ n → d ∉ Py.intStr n := by
    intro n hn h
    have := intStr_nonneg hn d h
    rw [hd] at this
    cases this
  unfold shown
  split
  · exact hnum _ (hs a ha).1.1
  · split
    · intro h
      rcases List.mem_append.1 h with h | h
      · exact hp h
      · rcases Py.mem_join h with h | ⟨x, hx, h⟩
        · split at h
          · exact hc (List.mem_singleton.1 h)
          · cases h
        · obtain ⟨v, hv, rfl⟩ := List.mem_map.1 hx
          exact hnum v ((hs a ha).2 v ((Finset.mem_sort _).1 hv)).1 h
    · simp

private theorem padded_filter {right : Bool} {m : Nat} {x : List Char} (hx : ' ' ∉ x) :
    (padded right m x).filter (fun c => decide (c ≠ ' ')) = x := by
  have h1 : ∀ k, (List.replicate k ' ').filter (fun c => decide (c ≠ ' ')) = [] := by
    intro k
    rw [List.filter_eq_nil_iff]
    intro c hc
    simp [(List.mem_replicate.1 hc).2]
  have h2 : x.filter (fun c => decide (c ≠ ' ')) = x := by
    rw [List.filter_eq_self]
    intro c hc
    simp only [ne_eq, decide_not, Bool.not_eq_eq_eq_not, Bool.not_true, decide_eq_false_iff_not]
    rintro rfl
    exact hx hc
  unfold padded
  split
  · rw [List.filter_append, h1, h2]; rfl
  · rw [List.filter_append, h1, h2, List.append_nil]

private theorem line_no_dash {s : Sudoku} (hN : 0 < s.n) (hs : InRange s) {b : Bool} {p : List Char} (hp : '-' ∉ p) {right : Bool}
    {m row : Nat} (hrow : row < s.n) : '-' ∉ line s b p right m row := by
  intro h
  have h1 := List.mem_append_left [' '] h
  rw [line_blank hN] at h1
  obtain ⟨c, hc, h1⟩ := List.mem_flatMap.1 h1
  have hc := List.mem_range.1 hc
  unfold colChars at h1
  rw [fieldText_padded hN] at h1
  have hsh := shown_chars (b := b) (p := p) hs (a := (row, c)) ⟨hrow, hc⟩ (d := '-') (by decide) (by decide) hp
  rcases List.mem_append.1 h1 with h1 | h1
  · unfold padded at h1
    split at h1
    · rcases List.mem_append.1 h1 with h1 | h1
      · exact absurd (List.mem_replicate.1 h1).2 (by decide)
      · exact hsh h1
    · rcases List.mem_append.1 h1 with h1 | h1
      · exact hsh h1
      · exact absurd (List.mem_replicate.1 h1).2 (by decide)
  · split at h1
    · exact absurd h1 (by decide)
    · exact absurd h1 (by decide)

private theorem first_rows {s : Sudoku} (hw : 0 < s.bw) (hh : 0 < s.bh) (hs : InRange s) {b : Bool} {p : List Char} (hp : '-' ∉ p)
    (right : Bool) : ∀ i < s.bh, ∃ l, (viewLines s b p right)[i]? = some l ∧ '-' ∉ l := by
  intro i hi
  have hN : 0 < s.n := Nat.mul_pos hw hh
  have hin : i < s.n := lt_of_lt_of_le hi (Nat.le_mul_of_pos_left _ hw)
  have h1 := lines_row (s := s) (b := b) (prefix_ := p) (r := right) hin
  rw [Nat.div_eq_of_lt hi, Nat.add_zero] at h1
  exact ⟨_, h1, line_no_dash hN hs hp hin⟩

private theorem first_rule {s : Sudoku} (hw : 1 < s.bw) (hh : 0 < s.bh) (b : Bool) (p : List Char) (right : Bool) :
    ∃ l, (viewLines s b p right)[s.bh]? = some l ∧ '-' ∈ l := by
  have h1 := lines_rule (s := s) (b := b) (prefix_ := p) (r := right) (k := 0) hh hw
  rw [Nat.zero_add, Nat.one_mul, Nat.add_zero] at h1
  refine ⟨_, h1, ?_⟩
  unfold ruleLine
  simp only [List.mem_append, List.mem_replicate]
  exact Or.inr ⟨by omega, trivial⟩

private theorem lines_count {s : Sudoku} (hw : 0 < s.bw) (hh : 0 < s.bh) (b : Bool) (p : List Char) (right : Bool) :
    (viewLines s b p right).length = s.bw * s.bh + (s.bw - 1) := by
  have := length_groups_all (w := s.bh) (h := s.bw) (Nat.mul_pos hh hw) _
    (rowLines_length s b p right (fieldLength s b p))
  unfold viewLines Sudoku.n
  rw [Nat.mul_comm s.bw s.bh, this]
  omega

private theorem lines_same {s t : Sudoku} (hNs : 0 < s.n) (hNt : 0 < t.n) {b : Bool} {p : List Char} (hp : '\n' ∉ p) {right : Bool}
    (h : view s b p right = view t b p right) : viewLines s b p right = viewLines t b p right := by
  rw [view_eq hNs, view_eq hNt] at h
  have hne : ∀ u : Sudoku, 0 < u.n → viewLines u b p right ≠ [] := by
    intro u hu
    obtain ⟨k, hk⟩ : ∃ k, u.n = k + 1 := ⟨u.n - 1, by omega⟩
    unfold viewLines
    rw [hk, List.range_succ_eq_map, List.flatMap_cons]
    simp [rowLines]
  have hnb : ∀ u : Sudoku, 0 < u.n → ∀ x ∈ viewLines u b p right, ∀ c ∈ x, c ∉ ['\n'] := by
    intro u hu x hx c hc hcn
    rw [List.mem_singleton] at hcn
    subst hcn
    exact viewLines_no_break hu hp hx hc
  have hsj := Py.split_join (sep := ['\n']) (by simp) (hne s hNs) (hnb s hNs)
  rw [Except.ok.inj h, Py.split_join (sep := ['\n']) (by simp) (hne t hNt) (hnb t hNt)] at hsj
  exact (Except.ok.inj hsj).symm

private theorem height_le {s t : Sudoku} (hw : 0 < s.bw) (hh : 0 < s.bh) (hwt : 0 < t.bw) (hht : 0 < t.bh) (ht : InRange t)
    {b : Bool} {p : List Char} (hp : '-' ∉ p) {right : Bool} (h : viewLines s b p right = viewLines t b p right) :
    ¬ s.bh < t.bh := by
  intro hlt
  obtain ⟨l, h1, h2⟩ := first_rows hwt hht ht (b := b) hp right s.bh hlt
  rw [← h] at h1
  by_cases h1w : 1 < s.bw
  · obtain ⟨l', h3, h4⟩ := first_rule h1w hh b p right
    rw [h1] at h3
    cases h3
    exact h2 h4
  · obtain ⟨h3, -⟩ := List.getElem?_eq_some_iff.1 h1
    rw [lines_count hw hh] at h3
    have h4 : s.bw = 1 := by omega
    rw [h4] at h3
    omega

/-- The text without padding is the same. -/
private theorem shown_same {s t : Sudoku} (hw : 0 < s.bw) (hh : 0 < s.bh) (hwt : 0 < t.bw) (hht : 0 < t.bh)
    (hs : InRange s) (ht : InRange t) {b : Bool} {p : List Char} (h1 : ' ' ∉ p) (h2 : '\n' ∉ p) (h3 : '-' ∉ p) {right : Bool}
    (h : view s b p right = view t b p right) :
    s.bw = t.bw ∧ s.bh = t.bh ∧ ∀ a, InGrid s.bw s.bh a → shown s b p a = shown t b p a := by
  have hN : 0 < s.n := Nat.mul_pos hw hh
  have hNt : 0 < t.n := Nat.mul_pos hwt hht
  have hl := lines_same hN hNt h2 h
  have hbh : s.bh = t.bh := by
    have a := height_le hw hh hwt hht ht h3 hl
    have b := height_le hwt hht hw hh hs h3 hl.symm
    omega
  have hbw : s.bw = t.bw := by
    have h4 := congrArg List.length hl
    rw [lines_count hw hh, lines_count hwt hht, hbh] at h4
    have h5 : s.bw * (t.bh + 1) = t.bw * (t.bh + 1) := by
      rw [Nat.mul_succ, Nat.mul_succ]; omega
    exact Nat.eq_of_mul_eq_mul_right (by omega) h5
  have hn : t.n = s.n := by unfold Sudoku.n; rw [hbw, hbh]
  have hs' : ∀ a, InGrid s.bw s.bh a → 0 ≤ s.get a ∧ s.get a ≤ s.n := fun a ha => (hs a ha).1
  have ht' : ∀ a, InGrid t.bw t.bh a → 0 ≤ t.get a ∧ t.get a ≤ t.n := fun a ha => (ht a ha).1
  have hline : ∀ r < s.n, line s b p right (fieldLength s b p) r = line t b p right (fieldLength t b p) r := by
    intro r hr
    have h4 := lines_row (s := s) (b := b) (prefix_ := p) (r := right) hr
    have h5 := lines_row (s := t) (b := b) (prefix_ := p) (r := right) (row := r) (by rw [hn]; exact hr)
    rw [hl, hbh, h5] at h4
    exact (Option.some.inj h4).symm
  have hm : fieldLength s b p = fieldLength t b p := by
    have h4 := congrArg List.length (hline 0 hN)
    rw [line_length hN hN hs', line_length hNt hNt ht', hn, ← hbh] at h4
    have h5 := Nat.mul_pos hN (show 0 < fieldLength s b p + 1 by omega)
    have h6 := Nat.mul_pos hN (show 0 < fieldLength t b p + 1 by omega)
    have h7 : s.n * (fieldLength s b p + 1) = s.n * (fieldLength t b p + 1) := by omega
    have := Nat.eq_of_mul_eq_mul_left hN h7
    omega
  refine ⟨hbw, hbh, ?_⟩
  rintro ⟨r, c⟩ ⟨hr, hc⟩
  have hr' : r < t.n := by rw [hn]; exact hr
  have hc' : c < t.n := by rw [hn]; exact hc
  have h4 := line_field (b := b) (prefix_ := p) (r := right) hN hr hc hs'
  have h5 := line_field (s := t) (b := b) (prefix_ := p) (r := right) (row := r) (c := c) hNt hr' hc' ht'
  rw [hline r hr, hbw, hm, h5, fieldText_padded hN, fieldText_padded hNt] at h4
  have h6 := congrArg (List.filter fun c => decide (c ≠ ' ')) h4
  rw [padded_filter (shown_chars ht ⟨hr', hc'⟩ (by decide) (by decide) h1),
    padded_filter (shown_chars hs ⟨hr, hc⟩ (by decide) (by decide) h1)] at h6
  exact h6.symm

private theorem intStr_inj {m n : Int} (h : Py.intStr m = Py.intStr n) : m = n := by
  have h1 := congrArg Py.int h
  rw [Py.int_intStr, Py.int_intStr] at h1
  exact Except.ok.inj h1

private theorem join_inj {n : Nat} {l l' : List Int} (hl : ∀ v ∈ l, 0 ≤ v ∧ v ≤ n) (hl' : ∀ v ∈ l', 0 ≤ v ∧ v ≤ n)
    (h : Py.join (if 9 < n then [','] else []) (l.map Py.intStr) = Py.join (if 9 < n then [','] else []) (l'.map Py.intStr)) :
    l = l' := by
  have hmap : Function.Injective (List.map Py.intStr) := List.map_injective_iff.2 fun a b => intStr_inj
  by_cases hn : 9 < n
  · rw [if_pos hn] at h
    have hcomma : ∀ l : List Int, (∀ v ∈ l, 0 ≤ v ∧ v ≤ n) → ∀ x ∈ l.map Py.intStr, ∀ c ∈ x, c ∉ [','] := by
      intro l hl x hx c hc hm
      obtain ⟨v, hv, rfl⟩ := List.mem_map.1 hx
      have := intStr_nonneg (hl v hv).1 c hc
      rw [List.mem_singleton.1 hm] at this
      exact absurd this (by decide)
    have hnil : ∀ l : List Int, Py.join [','] (l.map Py.intStr) = [] → l = [] := by
      intro l hj
      cases l with
      | nil => rfl
      | cons v l =>
        rw [List.map_cons] at hj
        have h1 := Py.head_join (sep := [',']) (Py.intStr_ne_nil v) (l.map Py.intStr)
        rw [hj] at h1
        exact absurd (List.head?_eq_none_iff.1 h1.symm) (Py.intStr_ne_nil v)
    by_cases h0 : l = []
    · subst h0
      exact (hnil l' h.symm).symm
    · have h0' : l' ≠ [] := by
        rintro rfl
        exact h0 (hnil l h)
      have a := Py.split_join (sep := [',']) (by simp) (by simpa using h0) (hcomma l hl)
      have b := Py.split_join (sep := [',']) (by simp) (by simpa using h0') (hcomma l' hl')
      rw [h, b] at a
      exact hmap (Except.ok.inj a).symm
  · rw [if_neg hn, Py.join_nil_sep, Py.join_nil_sep] at h
    have hflat : ∀ l : List Int, (∀ v ∈ l, 0 ≤ v ∧ v ≤ n) → (l.map Py.intStr).flatten.map (fun c => [c]) = l.map Py.intStr := by
      intro l hl
      induction l with
      | nil => rfl
      | cons v l ih =>
        have hv := hl v (by simp)
        rw [List.map_cons, List.flatten_cons, List.map_append, ih fun w hw => hl w (by simp [hw]),
          Py.intStr_small hv.1 (by omega)]
        rfl
    apply hmap
    rw [← hflat l hl, ← hflat l' hl', h]

private theorem shown_number {s t : Sudoku} {a : Cell} {b : Bool} {p : List Char} (hp : b = true → GoodPrefix p)
    (hs : 0 ≤ s.get a) (ht : 0 ≤ t.get a) (h : shown s b p a = shown t b p a) : s.get a = t.get a := by
  have key : ∀ (u v : Sudoku), 0 ≤ u.get a → u.get a ≠ 0 → v.get a = 0 → shown u b p a ≠ shown v b p a := by
    intro u v hu h1 h2 h3
    unfold shown at h3
    rw [if_pos h1, if_neg (not_not.2 h2)] at h3
    cases b with
    | false => exact Py.intStr_ne_nil _ h3
    | true =>
      obtain ⟨h4, h5, -⟩ := hp rfl
      cases p with
      | nil => exact h4 rfl
      | cons c p =>
        rw [if_pos rfl, List.cons_append] at h3
        have h6 := intStr_nonneg hu c (by rw [h3]; simp)
        exact h5 c rfl ((isDigit_iff c).1 h6)
  by_cases h1 : s.get a = 0
  · by_cases h2 : t.get a = 0
    · rw [h1, h2]
    · exact absurd h.symm (key t s ht h2 h1)
  · by_cases h2 : t.get a = 0
    · exact absurd h (key s t hs h1 h2)
    · unfold shown at h
      rw [if_pos h1, if_pos h2] at h
      exact intStr_inj h

/-- **C106** (without candidates) The text determines the box size and the numbers, for both alignments. -/
theorem C106_numbers (s t : Sudoku) (hw : 0 < s.bw) (hh : 0 < s.bh) (hwt : 0 < t.bw) (hht : 0 < t.bh)
    (hs : InRange s) (ht : InRange t) (prefix_ : List Char) (right : Bool)
    (h : view s false prefix_ right = view t false prefix_ right) :
    s.bw = t.bw ∧ s.bh = t.bh ∧ ∀ a, InGrid s.bw s.bh a → s.get a = t.get a := by
  have hpre : ∀ u : Sudoku, 0 < u.bw → 0 < u.bh → view u false prefix_ right = view u false [] right := by
    intro u _ _
    unfold view
    rfl
  rw [hpre s hw hh, hpre t hwt hht] at h
  obtain ⟨h1, h2, h3⟩ := shown_same hw hh hwt hht hs ht List.not_mem_nil List.not_mem_nil List.not_mem_nil h
  refine ⟨h1, h2, fun a ha => ?_⟩
  have ha' : InGrid t.bw t.bh a := by rw [← h1, ← h2]; exact ha
  exact shown_number (by simp) (hs a ha).1.1 (ht a ha').1.1 (h3 a ha)

/-- **C106** (with candidates) The text determines the box size, the numbers, and the candidates of the empty fields. -/
theorem C106_candidates (s t : Sudoku) (hw : 0 < s.bw) (hh : 0 < s.bh) (hwt : 0 < t.bw) (hht : 0 < t.bh)
    (hs : InRange s) (ht : InRange t) (prefix_ : List Char) (hp : GoodPrefix prefix_) (right : Bool)
    (h : view s true prefix_ right = view t true prefix_ right) :
    s.bw = t.bw ∧ s.bh = t.bh ∧ ∀ a, InGrid s.bw s.bh a →
      s.get a = t.get a ∧ (s.get a = 0 → s.getCandidates a = t.getCandidates a) := by
  obtain ⟨h1, h2, h3⟩ := shown_same hw hh hwt hht hs ht hp.2.2.1 hp.2.2.2.1 hp.2.2.2.2 h
  have hn : t.n = s.n := by unfold Sudoku.n; rw [h1, h2]
  refine ⟨h1, h2, fun a ha => ?_⟩
  have ha' : InGrid t.bw t.bh a := by rw [← h1, ← h2]; exact ha
  have h4 := shown_number (fun _ => hp) (hs a ha).1.1 (ht a ha').1.1 (h3 a ha)
  refine ⟨h4, fun h0 => ?_⟩
  have h5 := h3 a ha
  unfold shown at h5
  rw [if_neg (not_not.2 h0), if_neg (not_not.2 (h4 ▸ h0)), if_pos rfl, if_pos rfl, hn] at h5
  have h6 := join_inj (n := s.n) (fun v hv => (hs a ha).2 v ((Finset.mem_sort _).1 hv))
    (fun v hv => by have := (ht a ha').2 v ((Finset.mem_sort _).1 hv); rw [hn] at this; exact this) (List.append_cancel_left h5)
  ext v
  rw [← Finset.mem_sort (· ≤ ·), h6, Finset.mem_sort]

/-- **C106** (filled fields) The candidates of a filled field are not shown, but they make the columns wider. -/
theorem C106_hidden :
    view (((Sudoku.new 2 2).setNumber (0, 0) 1).setCandidates (0, 1) {1, 2}) true ['*'] true =
      view ((((Sudoku.new 2 2).setNumber (0, 0) 1).setCandidates (0, 1) {1, 2}).setCandidates (0, 0) {1}) true ['*'] true ∧
    view (((Sudoku.new 2 2).setNumber (0, 0) 1).setCandidates (0, 1) {1, 2}) true ['*'] true ≠
      view ((((Sudoku.new 2 2).setNumber (0, 0) 1).setCandidates (0, 1) {1, 2}).setCandidates (0, 0) {1, 2, 3}) true ['*'] true := by
  decide +kernel

/-- **C106** (why a prefix) Without a prefix the candidate 1 looks like the number 1. -/
theorem C106_no_prefix : view ((Sudoku.new 1 1).setNumber (0, 0) 1) true [] true =
    view ((Sudoku.new 1 1).setCandidates (0, 0) {1}) true [] true := by decide +kernel

/-- **C106** (why candidates within `0 .. N`) In a 4x4 sudoku the candidate 12 looks like the candidates 1 and 2. -/
theorem C106_out_of_range : view ((Sudoku.new 2 2).setCandidates (0, 0) {1, 2}) true ['*'] true =
    view ((Sudoku.new 2 2).setCandidates (0, 0) {12}) true ['*'] true := by decide +kernel

example : GoodPrefix ['*'] := by
  refine ⟨by decide, ?_, by decide, by decide, by decide⟩
  intro c hc; cases hc; decide
example : InRange exView ∧ 0 < exView.bw ∧ 0 < exView.bh := by
  refine ⟨?_, by decide, by decide⟩
  have h : ∀ r < 6, ∀ c < 6, (0 ≤ exView.get (r, c) ∧ exView.get (r, c) ≤ exView.n) ∧
      ∀ v ∈ exView.getCandidates (r, c), 0 ≤ v ∧ v ≤ exView.n := by decide +kernel
  exact fun a ha => h a.1 ha.1 a.2 ha.2
/-- 2x3 and 3x2 boxes, without numbers, look different. -/
example : view (Sudoku.new 2 3) false [] true ≠ view (Sudoku.new 3 2) false [] true := by decide +kernel

end Props
