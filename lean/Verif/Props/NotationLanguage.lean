import Verif.Proofs.NotationLanguage
import Verif.Props.Notation
import Verif.Props.Actions

set_option autoImplicit false

/-!
# C109: Exactly which texts `notation.decode` accepts, and what they mean

`LanguageSpec.lean` says which groups are accepted.  The theorems are about texts in which the six whitespace characters do not occur one after the
other in the order of `string.whitespace` (see C46_blank for that), and about number separators of at most one character.
-/

open Spec Spec.Text Notation

namespace Props

/-- **C109** `decode` accepts a text if and only if it consists of accepted groups, and returns the fields named by what counts of
one of the groups, in reading order. -/
theorem C109_language (w h : Nat) (hw : 0 < w) (hh : 0 < h) (sep nsep : List Char) (hs : SepOk sep) (hn : NumSepOk nsep)
    (h1 : nsep.length ≤ 1) (s : List Char) (hsp : ¬ Py.whitespace <:+: s) (l : List Cell) :
    decode s w h sep nsep = .ok l ↔ ∃ gs : List Written, gs ≠ [] ∧ s = Py.join sep (gs.map (writtenText (between w h nsep))) ∧
      (∀ g ∈ gs, Accepted w h (between w h nsep) g) ∧ SortedFields l fun a => ∃ g ∈ gs, Named w h (kept g) a :=
  decode_iff hw hh hs hn h1 hsp l

/-- **C109** The same for all separators of groups without letters: the text is cut where a letter follows the separator. -/
theorem C109_separators (w h : Nat) (hw : 0 < w) (hh : 0 < h) (sep nsep : List Char) (h0 : sep ≠ []) (hs : ∀ l : Letter, l.char ∉ sep)
    (hn : NumSepOk nsep) (h1 : nsep.length ≤ 1) (s : List Char) (hsp : ¬ Py.whitespace <:+: s) (l : List Cell) :
    decode s w h sep nsep = .ok l ↔ ∃ gs : List Written, Groups sep (gs.map (writtenText (between w h nsep))) ∧
      s = Py.join sep (gs.map (writtenText (between w h nsep))) ∧
      (∀ g ∈ gs, Accepted w h (between w h nsep) g) ∧ SortedFields l fun a => ∃ g ∈ gs, Named w h (kept g) a :=
  decode_iff_groups hw hh h0 hs hn h1 hsp l

/-- With `1` as separator `r11c1` is `r1` and `c1`, not `r11c1`. -/
example : splitGroups ['1'] "r11c1".toList = ["r1".toList, "c1".toList] := by decide +kernel

/-- A letter and digits, which stands for no field but does not make reading fail: the letter alone, or once more at the end. -/
def Idle (s : List Char) : Prop :=
  ∃ (l : Letter) (ds : List Char), (∀ c ∈ ds, '0' ≤ c ∧ c ≤ '9') ∧ (s = [l.char] ∨ ds ≠ [] ∧ s = l.char :: ds ++ [l.char])

private theorem kept_nil {g : Written} (h0 : g ≠ []) (ht : Tidy (g.map Prod.fst)) (hk : kept g = []) :
    (∃ l, g = [(l, [])]) ∨ ∃ l ts, g = [(l, ts), (l, [])] := by
  have last : ∀ q : Letter × List (List Char), kept [q] = [] → q.2 = [] := by
    intro q h
    rw [kept] at h
    by_contra hne
    rw [if_neg hne] at h
    cases h
  rcases g with _ | ⟨q, _ | ⟨q', _ | ⟨q'', g⟩⟩⟩
  · exact absurd rfl h0
  · exact .inl ⟨q.1, by rw [← last q hk]⟩
  · rw [kept] at hk
    split at hk
    · rename_i e
      have h2 := last q' hk
      obtain ⟨l, ts⟩ := q
      obtain ⟨l', ts'⟩ := q'
      simp only at e h2
      subst e h2
      exact .inr ⟨l, ts, rfl⟩
    · cases hk
  · exfalso
    have ht' : q.1 ∉ (q'' :: g).map Prod.fst ∧ q'.1 ∉ g.map Prod.fst ∧ Tidy ((q'' :: g).map Prod.fst) := ht
    rw [kept] at hk
    split at hk
    · rename_i e
      rw [kept] at hk
      split at hk
      · rename_i e'
        exact ht'.1 (by rw [e, e']; simp)
      · cases hk
    · cases hk

private theorem decodeSingle_typeError {w h : Nat} {nsep : List Char} (hn : NumSepOk nsep) (h1 : nsep.length ≤ 1) (s : List Char) :
    decodeSingle s w h nsep = .error .TypeError ↔ nsep = [] ∧ Idle s := by
  rw [decodeSingle_eq]
  constructor
  · intro he
    split at he
    · rename_i e h2
      rw [Except.error.injEq] at he
      subst he
      unfold readAll at h2
      split at h2
      · rename_i h3
        rw [Except.error.injEq] at h2
        have := readChars_error h3
        rw [h2] at this
        cases this
      · exact absurd (finish_error h2) (by simp)
    · rename_i nums hnums
      obtain ⟨g, rfl, hg, rfl⟩ := (readAll_iff hn h1 _ _).1 hnums
      split at he
      · rename_i h2
        rw [Except.error.injEq] at he
        have := allSets_error _ h2
        rw [he] at this
        cases this
      · rename_i sets hsets
        cases sets with
        | cons S l => cases he
        | nil =>
          have hnil := allSets_nil _ hsets
          have hk : kept g = [] := by
            by_contra hne
            obtain ⟨q, hq⟩ := List.exists_mem_of_ne_nil _ hne
            have h3 := hnil (ofLetter q.1) (by cases q.1 <;> simp [ofLetter])
            rw [putAll_of_mem _ _ (kept_nodup g hg.tidy) hq, List.map_eq_nil_iff] at h3
            exact kept_numbers g hg.numbers q hq h3
          have hsep : nsep = [] := by
            by_contra hne
            rcases kept_nil hg.nonempty hg.tidy hk with ⟨l, rfl⟩ | ⟨l, ts, rfl⟩
            · exact hg.last hne (l, []) (by simp) rfl
            · exact hg.last hne (l, []) (by simp) rfl
          refine ⟨hsep, ?_⟩
          subst hsep
          rcases kept_nil hg.nonempty hg.tidy hk with ⟨l, rfl⟩ | ⟨l, ts, rfl⟩
          · exact ⟨l, [], by simp, .inl rfl⟩
          · have hts := hg.numerals (l, ts) (by simp)
            refine ⟨l, ts.flatten, ?_, .inr ⟨?_, ?_⟩⟩
            · intro c hc
              obtain ⟨t, ht, hc⟩ := List.mem_flatten.1 hc
              exact (hts t ht).2.1 c hc
            · intro h0
              have hne : ts ≠ [] := hg.numbers (l, ts) (by simp)
              obtain ⟨t, ht⟩ := List.exists_mem_of_ne_nil _ hne
              exact (hts t ht).1 (List.flatten_eq_nil_iff.1 h0 t ht)
            · simp [writtenText, Py.join_nil_sep]
  · rintro ⟨rfl, l, ds, hd, hsd⟩
    obtain ⟨g, rfl, hg, hk⟩ : ∃ g, s = writtenText [] g ∧ Readable [] g ∧ kept g = [] := by
      rcases hsd with rfl | ⟨h0, rfl⟩
      · refine ⟨[(l, [])], rfl, ⟨by simp, ?_, by simp, by simp, trivial⟩, rfl⟩
        intro q hq
        rw [List.mem_singleton] at hq
        subst hq
        exact fun t ht => absurd ht (by simp)
      · refine ⟨[(l, ds.map fun c => [c]), (l, [])], ?_, ⟨by simp, ?_, ?_, by simp, ⟨by simp, trivial⟩⟩, by simp [kept]⟩
        · have : (ds.map fun c => [c]).flatten = ds := by
            clear hd h0
            induction ds with
            | nil => rfl
            | cons c ds ih => rw [List.map_cons, List.flatten_cons, ih]; rfl
          simp [writtenText, Py.join_nil_sep, this]
        · intro q hq t ht
          simp only [List.mem_cons, List.not_mem_nil, or_false] at hq
          rcases hq with rfl | rfl
          · obtain ⟨c, hc, rfl⟩ := List.mem_map.1 ht
            refine ⟨by simp, fun d hd' => ?_, fun _ => rfl⟩
            rw [List.mem_singleton] at hd'
            subst hd'
            exact hd d hc
          · simp at ht
        · intro q hq
          simp only [List.dropLast, List.mem_singleton] at hq
          subst hq
          simpa using h0
    rw [(readAll_iff hn h1 _ _).2 ⟨g, rfl, hg, rfl⟩, hk]
    rfl

/-- **C109** A text of one group makes `decode` raise `TypeError` (all other texts that are not accepted: `ValueError`, C44) if and only if it is a letter alone,
or a letter, digits and the same letter, where numbers are not separated. -/
theorem C109_typeError (w h : Nat) (hw : 0 < w) (hh : 0 < h) (sep nsep : List Char) (hn : NumSepOk nsep)
    (h1 : nsep.length ≤ 1) (s : List Char) (hsp : ¬ Py.whitespace <:+: s) (hone : ¬ sep <:+: s) :
    decode s w h sep nsep = .error .TypeError ↔ between w h nsep = [] ∧ Idle s := by
  have h1' : (between w h nsep).length ≤ 1 := by
    unfold between
    split
    · exact h1
    · split <;> simp
  rw [← decodeSingle_typeError (between_ok hn) h1' (w := w) (h := h)]
  unfold decode
  rw [checkSize_ok hw hh]
  simp only
  rw [numberSep_eq, removeWhitespace_eq hsp, one_group hone, decodeGroups]
  cases decodeSingle s w h (between w h nsep) with
  | error e => simp
  | ok cs => simp [decodeGroups]

/-! ## Actions -/

private theorem cut_eq (sep s a b : List Char) (h : Py.cut sep s = some (a, b)) : s = a ++ sep ++ b := by
  induction s generalizing a b with
  | nil =>
    rw [Py.cut] at h
    split at h
    · rename_i e
      cases h
      rw [e]
      rfl
    · cases h
  | cons c s ih =>
    rw [Py.cut] at h
    split at h
    · rename_i hp
      obtain ⟨t, ht⟩ := List.isPrefixOf_iff_prefix.1 hp
      simp only [Option.some.injEq, Prod.mk.injEq] at h
      obtain ⟨rfl, rfl⟩ := h
      rw [← ht]
      simp
    · split at h
      · cases h
      · rename_i a' b' hc
        simp only [Option.some.injEq, Prod.mk.injEq] at h
        obtain ⟨rfl, h⟩ := h
        rw [ih a' b' hc, h]
        simp

private theorem ints_singles (ds : List Char) (vs : List Int) : Py.ints (ds.map fun c => [c]) = .ok vs ↔
    ∃ ks : List Nat, ds.map Py.decimal = ks.map some ∧ vs = ks.map fun k : Nat => (k : Int) := by
  induction ds generalizing vs with
  | nil =>
    simp only [List.map_nil, Py.ints, Except.ok.injEq]
    constructor
    · rintro rfl; exact ⟨[], rfl, rfl⟩
    · rintro ⟨ks, h1, rfl⟩
      rw [List.map_eq_nil_iff.1 h1.symm]; rfl
  | cons c ds ih =>
    simp only [List.map_cons, Py.ints, Py.int_char]
    cases hd : Py.decimal c with
    | none =>
      constructor
      · intro h; cases h
      · rintro ⟨ks, h1, -⟩
        cases ks with
        | nil => cases h1
        | cons k ks => cases (List.cons.inj h1).1
    | some d =>
      simp only
      constructor
      · intro h
        split at h
        · cases h
        · rename_i l hl
          obtain ⟨ks, h1, h2⟩ := (ih l).1 hl
          cases h
          exact ⟨d :: ks, by rw [List.map_cons, h1], by rw [h2]; rfl⟩
      · rintro ⟨ks, h1, rfl⟩
        cases ks with
        | nil => cases h1
        | cons k ks =>
          rw [List.map_cons, List.cons.injEq, Option.some.injEq] at h1
          rw [(ih _).2 ⟨ks, h1.2, rfl⟩, h1.1]; rfl

private theorem readDigits_chars (s : List Char) (acc : Nat) (b : Bool) (k : Nat) (h : Py.readDigits s acc b = some k) :
    ∀ c ∈ s, Py.isDigit c = true ∨ c = '_' := by
  induction s generalizing acc b with
  | nil => simp
  | cons d s ih =>
    rw [Py.readDigits] at h
    intro c hc
    split at h
    · rename_i hd
      rcases List.mem_cons.1 hc with rfl | hc
      · exact .inl hd
      · exact ih _ _ h c hc
    · split at h
      · rename_i hu
        rcases List.mem_cons.1 hc with rfl | hc
        · exact .inr hu.1
        · exact ih _ _ h c hc
      · cases h

private theorem stripBy_keeps (p : Char → Bool) (s : List Char) {c : Char} (hc : c ∈ s) (hp : p c = false) : c ∈ Py.stripBy p s := by
  have key : ∀ s : List Char, c ∈ s → c ∈ s.dropWhile p := by
    intro s
    induction s with
    | nil => simp
    | cons d s ih =>
      intro hm
      rw [List.dropWhile_cons]
      split
      · rename_i hd
        rcases List.mem_cons.1 hm with rfl | hm
        · rw [hp] at hd; cases hd
        · exact ih hm
      · exact hm
  unfold Py.stripBy
  rw [List.mem_reverse]
  exact key _ (List.mem_reverse.2 (key _ hc))

private theorem int_no_angle (s : List Char) (k : Int) (h : Py.int s = .ok k) : '<' ∉ s := by
  intro hm
  have hm' := stripBy_keeps (fun c => decide (c ∈ Py.whitespace)) (s.map Py.asciiChar)
    (c := '<') (List.mem_map.2 ⟨'<', hm, by decide⟩) (by decide)
  unfold Py.int Py.asciiInt at h
  split at h
  · rename_i s' hs
    rw [hs] at hm'
    split at h
    · rename_i hr
      rcases List.mem_cons.1 hm' with h' | h'
      · exact absurd h' (by decide)
      · rcases readDigits_chars _ _ _ _ hr _ h' with h1 | h1 <;> exact absurd h1 (by decide)
    · cases h
  · rename_i s' hs
    rw [hs] at hm'
    split at h
    · rename_i hr
      rcases List.mem_cons.1 hm' with h' | h'
      · exact absurd h' (by decide)
      · rcases readDigits_chars _ _ _ _ hr _ h' with h1 | h1 <;> exact absurd h1 (by decide)
    · cases h
  · split at h
    · rename_i hr
      rcases readDigits_chars _ _ _ _ hr _ hm' with h1 | h1 <;> exact absurd h1 (by decide)
    · cases h

private theorem decode_without {left : List Char} {w h : Nat} {l : List Cell} (hl : decode left w h [','] [] = .ok l) {ch : Char}
    (h1 : ¬ Special ch) (h2 : ch ≠ ',') (h3 : ch ∉ Py.whitespace) : ch ∉ left := by
  intro hm
  obtain ⟨e, he⟩ := C46_illegal left [','] [] w h ch hm h1 (by simpa using h2) (by
    unfold between
    split
    · simp
    · split
      · simp
      · simpa using h2) (.inl h3)
  rw [hl] at he
  cases he

/-- **C109** The texts that `decode_action` understands as setting a number: after removing blanks at both ends, a text of coordinates, `=`, and the text of an integer. -/
theorem C109_set (s : List Char) (w h : Nat) (cs : List (Int × Int)) (n : Int) :
    decodeAction s w h = .ok (.setNumber cs n) ↔ ∃ left right l, Py.strip s = left ++ '=' :: right ∧
      decode left w h [','] [] = .ok l ∧ Py.int right = .ok n ∧ cs = l.map toPair := by
  constructor
  · intro h
    unfold decodeAction at h
    simp only at h
    split at h
    · split at h
      · cases h
      · split at h
        · cases h
        · cases h
    · split at h
      · split at h
        · cases h
        · split at h
          · cases h
          · cases h
      · split at h
        · rename_i left right hc
          split at h
          · cases h
          · rename_i number hn
            split at h
            · cases h
            · rename_i l hl
              simp only [Except.ok.injEq, Actions.Action.setNumber.injEq] at h
              obtain ⟨rfl, rfl⟩ := h
              exact ⟨left, right, l, by rw [cut_eq _ _ _ _ hc]; simp, hl, hn, rfl⟩
        · cases h
  · rintro ⟨left, right, l, hs, hl, hn, rfl⟩
    have h1 : '<' ∉ left := decode_without hl (by unfold Special; decide) (by decide) (by decide)
    have h2 : '=' ∉ left := decode_without hl (by unfold Special; decide) (by decide) (by decide)
    have h3 : '-' ∉ left := decode_without hl (by unfold Special; decide) (by decide) (by decide)
    unfold decodeAction
    simp only
    rw [hs, if_neg, Py.cut_absent]
    · simp only
      rw [show left ++ '=' :: right = left ++ ['='] ++ right by simp, Py.cut_first h2]
      simp only
      rw [hn]
      simp only
      rw [hl]
    · rw [List.mem_append, List.mem_cons]
      rintro (h | h | h)
      · exact h1 h
      · exact absurd h (by decide)
      · exact int_no_angle _ _ hn h
    · intro hp
      obtain ⟨t, ht⟩ := List.isPrefixOf_iff_prefix.1 hp
      cases left with
      | nil => simp at ht
      | cons c left =>
        simp only [List.cons_append, List.cons.injEq] at ht
        exact h3 (by rw [← ht.1]; simp)

/-- **C109** The texts that `decode_action` understands as removing candidates: after removing blanks at both ends, a text of coordinates, `<>`, and digits, each of which is a
candidate. -/
theorem C109_remove (s : List Char) (w h : Nat) (cs : List (Int × Int)) (vs : List Int) :
    decodeAction s w h = .ok (.removeCandidates cs vs) ↔ ∃ left ds l, Py.strip s = left ++ '<' :: '>' :: ds ∧
      decode left w h [','] [] = .ok l ∧ (∃ ks : List Nat, ds.map Py.decimal = ks.map some ∧ vs = ks.map fun k : Nat => (k : Int)) ∧
      cs = l.map toPair := by
  constructor
  · intro hok
    by_cases hm : ∃ t, Py.strip s = '-' :: t
    · obtain ⟨e, he⟩ := C48_minus s w h hm
      rw [hok] at he
      cases he
    rename' hok => h
    unfold decodeAction at h
    simp only at h
    split at h
    · rename_i hp
      obtain ⟨t, ht⟩ := List.isPrefixOf_iff_prefix.1 hp
      exact absurd ⟨t, ht.symm⟩ hm
    · split at h
      · rename_i left right hc
        split at h
        · cases h
        · rename_i vs' hv
          split at h
          · cases h
          · rename_i l hl
            simp only [Except.ok.injEq, Actions.Action.removeCandidates.injEq] at h
            obtain ⟨rfl, rfl⟩ := h
            exact ⟨left, right, l, by rw [cut_eq _ _ _ _ hc]; simp, hl, (ints_singles _ _).1 hv, rfl⟩
      · split at h
        · split at h
          · cases h
          · split at h
            · cases h
            · cases h
        · cases h
  · rintro ⟨left, ds, l, hs, hl, hd, rfl⟩
    have h1 : '<' ∉ left := decode_without hl (by unfold Special; decide) (by decide) (by decide)
    have h3 : '-' ∉ left := decode_without hl (by unfold Special; decide) (by decide) (by decide)
    unfold decodeAction
    simp only
    rw [hs, if_neg]
    · rw [show left ++ '<' :: '>' :: ds = left ++ ['<', '>'] ++ ds by simp, Py.cut_first h1]
      simp only
      rw [(ints_singles ds _).2 hd]
      simp only
      rw [hl]
    · intro hp
      obtain ⟨t, ht⟩ := List.isPrefixOf_iff_prefix.1 hp
      cases left with
      | nil => simp at ht
      | cons c left =>
        simp only [List.cons_append, List.cons.injEq] at ht
        exact h3 (by rw [← ht.1]; simp)

/-! ## Cases -/

private theorem plain (g : Written) (h : (g.all fun q => q.2.all fun t => !t.isEmpty && t.all Py.isDigit && decide (t.length = 1)) = true) :
    ∀ q ∈ g, Numerals [] q.2 := by
  intro q hq t ht
  rw [List.all_eq_true] at h
  have h2 := h q hq
  rw [List.all_eq_true] at h2
  have h3 := h2 t ht
  simp only [Bool.and_eq_true, Bool.not_eq_true', List.isEmpty_eq_false_iff, List.all_eq_true, decide_eq_true_eq] at h3
  exact ⟨h3.1.1, fun c hc => (isDigit_iff c).1 (h3.1.2 c hc), fun _ => h3.2⟩

/-- `r0r12c`: the row 0 does not exist, but only `r12` counts. -/
example : Accepted 3 3 [] [(.r, [['0']]), (.r, [['1'], ['2']]), (.c, [])] ∧
    writtenText [] [(.r, [['0']]), (.r, [['1'], ['2']]), (.c, [])] = "r0r12c".toList ∧
    kept [(.r, [['0']]), (.r, [['1'], ['2']]), (.c, [])] = [(.r, [1, 2])] := by
  refine ⟨⟨plain _ (by decide), by decide, by simp, ?_, ?_⟩, by decide, by decide⟩
  · exact ⟨by decide, by decide, trivial⟩
  · have : kept [(.r, [['0']]), (.r, [['1'], ['2']]), (.c, [])] = [(.r, [1, 2])] := by decide
    rw [this]
    refine ⟨by simp, by simp, by simp, ?_⟩
    intro q hq k hk
    rw [List.mem_singleton] at hq
    subst hq
    simp at hk
    omega

example : decode "r0r12c".toList 3 3 [','] [] = decode "r12".toList 3 3 [','] [] ∧
    decode "r1r2r3c1".toList 3 3 [','] [] = .error .ValueError ∧ decode "c5c".toList 3 3 [','] [] = .error .TypeError := by
  decide +kernel

/-- With a separator numbers may have leading zeros. -/
example : decode "r01,2c010".toList 4 3 [','] [] = .ok [(0, 9), (1, 9)] ∧ decode "r01c1".toList 3 3 [','] [] = .error .ValueError := by
  decide +kernel

/-- `r1r2r3` is not tidy: the letter comes back a second time. -/
example : ¬ Tidy [.r, .r, .r] ∧ Tidy [.r, .r, .c, .c] := by
  refine ⟨fun h => h.1 (by simp), by decide, by decide, by decide, trivial⟩

/-- Blanks before the number, a sign and underscores are allowed (`int`), the number may be any integer. -/
example : decodeAction " r1c1= +1_0 ".toList 3 3 = .ok (.setNumber [(0, 0)] 10) ∧
    decodeAction "r1c1<>".toList 3 3 = .ok (.removeCandidates [(0, 0)] []) ∧
    decodeAction "r1c1 =1".toList 3 3 = .error .ValueError := by
  decide +kernel

/-- Digits of other scripts are numbers, but not in coordinates (`string.digits`). -/
example : decodeAction "r1c1=٣".toList 3 3 = .ok (.setNumber [(0, 0)] 3) ∧ decodeAction "r1c1<>１२".toList 3 3 = .ok (.removeCandidates [(0, 0)] [1, 2]) ∧
    decodeAction "r١c1=3".toList 3 3 = .error .ValueError := by
  decide +kernel

example : Idle "c5c".toList ∧ Idle "p".toList ∧ ¬ Idle "r1c".toList := by
  refine ⟨⟨.c, ['5'], by simp, .inr ⟨by simp, by decide⟩⟩, ⟨.p, [], by simp, .inl (by decide)⟩, ?_⟩
  rintro ⟨l, ds, hd, h | ⟨h0, h⟩⟩
  · cases l <;> revert h <;> decide
  · have h1 := congrArg List.getLast? h
    have h2 := congrArg List.head? h
    rw [List.getLast?_append] at h1
    cases l <;> revert h1 h2 <;> simp [Letter.char]

end Props
