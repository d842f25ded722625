import Verif.ErrorSpec
import Verif.Proofs.ErrorText

set_option autoImplicit false

/-!
# Reading a group: every group is accepted or there is a complaint (C110)
-/

open Spec Spec.Text

namespace ErrorText


open Notation

theorem qualChar_ofLetter (l : Letter) : qualChar (ofLetter l) = l.char := by cases l <;> rfl

theorem unitText_row (w h : Nat) : unitText "row".toList w h = repeated h (lessThan .r ++ Py.natStr w) := by
  rw [unitText, repeated, show "row".toList ++ " must be less equal 0 and less than ".toList = lessThan .r by decide]

theorem unitText_col (w h : Nat) : unitText "col".toList w h = repeated h (lessThan .c ++ Py.natStr w) := by
  rw [unitText, repeated, show "col".toList ++ " must be less equal 0 and less than ".toList = lessThan .c by decide]

theorem unitText_box (w h : Nat) : unitText "box".toList w h = repeated h (lessThan .b ++ Py.natStr w) := by
  rw [unitText, repeated, show "box".toList ++ " must be less equal 0 and less than ".toList = lessThan .b by decide]

theorem unitText_part (w h : Nat) : unitText "part".toList w h = repeated h (lessThan .p ++ Py.natStr w) := by
  rw [unitText, repeated, show "part".toList ++ " must be less equal 0 and less than ".toList = lessThan .p by decide]

theorem func_text {l : Letter} {k : Int} {w h : Nat} {e : Exn} (he : ErrorText.func (ofLetter l) k w h = .error e) :
    e = saying (repeated h (lessThan l ++ Py.natStr w)) := by
  cases l
  · change theRow k w h = _ at he
    unfold theRow at he
    split at he
    · rw [unitText_row] at he; cases he; rfl
    · rename_i hk; rw [Coordinates.theRow, if_neg hk] at he; cases he
  · change theColumn k w h = _ at he
    unfold theColumn at he
    split at he
    · rw [unitText_col] at he; cases he; rfl
    · rename_i hk; rw [Coordinates.theColumn, if_neg hk] at he; cases he
  · change theBox k w h = _ at he
    unfold theBox at he
    split at he
    · rw [unitText_box] at he; cases he; rfl
    · rename_i hk; rw [Coordinates.theBox, if_neg hk] at he; cases he
  · change thePart k w h = _ at he
    unfold thePart at he
    split at he
    · rw [unitText_part] at he; cases he; rfl
    · rename_i hk; rw [Coordinates.thePart, if_neg hk] at he; cases he

theorem fieldsOf_text {l : Letter} {w h : Nat} {ks : List Int} {e : Exn} (he : ErrorText.fieldsOf (ofLetter l) w h ks = .error e) :
    e = saying (repeated h (lessThan l ++ Py.natStr w)) := by
  induction ks with
  | nil => cases he
  | cons k ks ih =>
    rw [ErrorText.fieldsOf] at he
    split at he
    · rename_i h1; cases he; exact func_text h1
    · split at he
      · rename_i h1; cases he; exact ih h1
      · cases he

theorem allSets_first {nums : Qual → List Int} {w h : Nat} {as : List Qual} {q : Qual} {bs : List Qual} {e : Exn}
    (h1 : ∀ a ∈ as, ∃ cs, ErrorText.fieldsOf a w h (nums a) = .ok cs) (h2 : ErrorText.fieldsOf q w h (nums q) = .error e) :
    ErrorText.allSets nums w h (as ++ q :: bs) = .error e := by
  induction as with
  | nil => rw [List.nil_append, ErrorText.allSets, h2]
  | cons a as ih =>
    obtain ⟨cs, hcs⟩ := h1 a (by simp)
    rw [List.cons_append, ErrorText.allSets, hcs, ih fun b hb => h1 b (List.mem_cons_of_mem _ hb)]

theorem ints_empty {l : List (List Char)} (hl : ∀ x ∈ l, ∀ c ∈ x, Py.isDigit c = true) {e : Exn} (he : ints l = .error e) :
    e = ⟨.ValueError, .badInt []⟩ := by
  induction l with
  | nil => cases he
  | cons x l ih =>
    rw [ints] at he
    cases x with
    | nil =>
      rw [show int [] = .error ⟨.ValueError, .badInt []⟩ by decide] at he
      cases he; rfl
    | cons c x =>
      rw [int, int_numeral (by simp) (hl _ (by simp))] at he
      simp only at he
      split at he
      · rename_i h1; cases he; exact ih (fun x hx => hl x (List.mem_cons_of_mem _ hx)) h1
      · cases he

/-- The numbers after a letter: what fails is `int('')`. -/
theorem readQualNumbers_text {nsep str : List Char} (h1 : nsep.length ≤ 1) (hl : Legal nsep str) {e : Exn}
    (he : readQualNumbers nsep str = .error e) : e = ⟨.ValueError, .badInt []⟩ := by
  unfold readQualNumbers at he
  split at he
  · rename_i e' h2
    cases he
    refine ints_empty ?_ h2
    by_cases h0 : nsep = []
    · subst h0
      rw [if_pos rfl]
      intro x hx c hc
      obtain ⟨d, hd, rfl⟩ := List.mem_map.1 hx
      rw [List.mem_singleton] at hc
      subst hc
      exact (hl c hd).resolve_right (by simp)
    · rw [if_neg h0]
      obtain ⟨d, rfl⟩ : ∃ d, nsep = [d] := by
        rcases nsep with _ | ⟨d, _ | ⟨e, r⟩⟩
        · exact absurd rfl h0
        · exact ⟨d, rfl⟩
        · simp at h1
      have hj : Py.join [d] (Py.splitGo [d] str 0 []) = str := by rw [join_splitGo (by simp)]; simp
      intro t ht c hc
      refine (hl c ?_).resolve_right ?_
      · rw [← hj]; exact join_mem ht hc
      · rw [List.mem_singleton]
        rintro rfl
        exact splitGo_single c str [] (by simp) t ht hc
  · cases he

theorem opening_legal {n : List Char} {g : Written} {l : Letter} {x : List Char} (ho : Opening n g l x) : Legal n x :=
  fun c hc => (ho.legal c hc).imp (isDigit_iff c).2 id

/-- There is no number where one is missing. -/
theorem readQualNumbers_missing {n : List Char} (hn : NumSepOk n) (h1 : n.length ≤ 1) (h0 : n ≠ []) {x : List Char} (hl : Legal n x)
    (hx : ∀ ts, Numerals n ts → ts ≠ [] → x ≠ Py.join n ts) : readQualNumbers n x = .error ⟨.ValueError, .badInt []⟩ := by
  cases hr : readQualNumbers n x with
  | error e => rw [readQualNumbers_text h1 hl hr]
  | ok ns =>
    have h2 : Notation.readNumbers n x = .ok ns := by rw [← forget_readQualNumbers, hr]; rfl
    obtain ⟨ts, h3, h4, h5, -⟩ := (readNumbers_iff hn h1 _ hl).1 h2
    exact absurd h3 (hx ts h4 (h5 h0))

theorem readChars_open {n : List Char} (hn : NumSepOk n) (h1 : n.length ≤ 1) {g : Written} {l : Letter} {x : List Char}
    (ho : Opening n g l x) (group : List Char) : ∃ nums, ErrorText.readChars group n (openingText n g l x) State.init =
      .ok ⟨nums, some (ofLetter l), (g.map Prod.fst).map ofLetter, x⟩ := by
  obtain ⟨nums, h⟩ := readChars_opening hn h1 ho
  exact ⟨nums, forget_ok ((forget_readChars ..).trans h)⟩

theorem mem_ofLetter {m : Letter} {ls : List Letter} : ofLetter m ∈ ls.map ofLetter ↔ m ∈ ls := by
  constructor
  · intro h
    obtain ⟨k, hk, he⟩ := List.mem_map.1 h
    rw [← ofLetter_inj he]
    exact hk
  · exact fun h => List.mem_map_of_mem h

theorem readable_sets {w h : Nat} {n : List Char} (hn : NumSepOk n) (h1 : n.length ≤ 1) {g : Written} (hg : Readable n g) :
    ErrorText.decodeSingle (writtenText n g) w h n =
      match ErrorText.allSets (putAll (fun _ => []) (kept g)) w h [.r, .c, .b, .p] with
      | .error e => .error e
      | .ok sets => builtin (Notation.intersection sets) := by
  have h2 := (readAll_iff hn h1 (writtenText n g) _).2 ⟨g, rfl, hg, rfl⟩
  unfold readAll at h2
  rw [← forget_readChars (writtenText n g)] at h2
  unfold ErrorText.decodeSingle
  cases hc : ErrorText.readChars (writtenText n g) n (writtenText n g) State.init with
  | error e => rw [hc] at h2; cases h2
  | ok st =>
    rw [hc] at h2
    have h3 : Notation.finish n st = .ok (putAll (fun _ => []) (kept g)) := h2
    rw [← forget_finish (writtenText n g)] at h3
    simp only
    rw [forget_ok h3]
    rfl

theorem numbers_of {g : Written} (hg : Tidy (g.map Prod.fst)) (m : Letter) (w h : Nat)
    (hr : ∀ js, (m, js) ∈ kept g → ∀ j ∈ js, 1 ≤ j ∧ j ≤ w * h) :
    ∃ cs, ErrorText.fieldsOf (ofLetter m) w h (putAll (fun _ => []) (kept g) (ofLetter m)) = .ok cs := by
  by_cases hm : m ∈ (kept g).map Prod.fst
  · obtain ⟨⟨m', js⟩, hq, rfl⟩ := List.mem_map.1 hm
    rw [putAll_of_mem _ _ (kept_nodup g hg) hq]
    obtain ⟨cs, hcs, -⟩ := fieldsOf_ok m' (hr js hq)
    exact ⟨cs, forget_ok ((forget_fieldsOf ..).trans hcs)⟩
  · rw [putAll_of_not_mem _ _ _ hm]
    exact ⟨[], rfl⟩

theorem append_three (p a b c : List Char) : p ++ a ++ b ++ c = p ++ (a ++ b ++ c) := by simp

theorem valueError_malformed {α : Type} (s a b c : List Char) :
    (valueError (malformed s ++ a ++ b ++ c) : Except Exn α) = .error (malformedGroup s (a ++ b ++ c)) := by
  unfold valueError malformedGroup saying
  rw [append_three]
  rfl

/-- What is said is what is wrong. -/
theorem complaint_error {w h : Nat} {n : List Char} (hn : NumSepOk n) (h1 : n.length ≤ 1) {s : List Char} {e : Exn}
    (hc : Complaint w h n s e) : ErrorText.decodeSingle s w h n = .error e := by
  have notLetter : ∀ {c : Char}, (∀ l : Letter, c ≠ l.char) → qual? c = none := fun hl => qual?_none fun ⟨l, h⟩ => hl l h
  have digit : ∀ {c : Char}, (('0' ≤ c ∧ c ≤ '9') ∨ c ∈ n) → qual? c = none := by
    intro c hc
    refine qual?_none fun hl => ?_
    rcases hc with hc | hc
    · exact digit_not_letter ((isDigit_iff c).2 hc) hl
    · exact hn c hc ((special_iff _).2 (.inr hl))
  cases hc with
  | empty => rfl
  | position c t hc =>
    apply decodeSingle_stop
    rw [ErrorText.readChars]
    unfold ErrorText.readChar
    rw [digit hc]
    simp only
    rw [if_pos (hc.imp (isDigit_iff c).2 id), if_pos (show State.init.current = none from rfl), valueError_malformed]
  | first c t hd hn' hl =>
    apply decodeSingle_stop
    rw [ErrorText.readChars]
    unfold ErrorText.readChar
    rw [notLetter hl]
    simp only
    rw [if_neg (by rintro (h | h); exacts [hd ((isDigit_iff c).1 h), hn' h])]
    rw [valueError_malformed]
  | illegal g l x t c ho hd hn' hl =>
    apply decodeSingle_stop
    obtain ⟨nums, h2⟩ := readChars_open hn h1 ho (openingText n g l x ++ c :: t)
    refine readChars_stop h2 ?_
    unfold ErrorText.readChar
    rw [notLetter hl]
    simp only
    rw [if_neg (by rintro (h | h); exacts [hd ((isDigit_iff c).1 h), hn' h])]
    rw [valueError_malformed]
  | multiple g l m x t ho hm =>
    apply decodeSingle_stop
    obtain ⟨nums, h2⟩ := readChars_open hn h1 ho (openingText n g l x ++ m.char :: t)
    refine readChars_stop h2 ?_
    unfold ErrorText.readChar
    rw [qual?_char]
    simp only
    rw [if_pos (mem_ofLetter.2 hm)]
    rw [valueError_malformed]
  | noNumbers g l m t h0 ho hm =>
    apply decodeSingle_stop
    obtain ⟨nums, h2⟩ := readChars_open hn h1 ho (openingText n g l [] ++ m.char :: t)
    refine readChars_stop h2 ?_
    unfold ErrorText.readChar
    rw [qual?_char]
    simp only
    rw [if_neg (mt mem_ofLetter.1 hm), h0]
    simp only [readQualNumbers, if_true, List.map_nil, ints]
    rw [qualChar_ofLetter]
    rw [valueError_malformed]
  | missing g l x t h0 ho hx ht =>
    have hr := readQualNumbers_missing hn h1 h0 (opening_legal ho) hx
    obtain ⟨nums, h2⟩ := readChars_open hn h1 ho (openingText n g l x ++ t)
    rcases ht with rfl | ⟨m, t', hm, rfl⟩
    · rw [List.append_nil] at h2 ⊢
      unfold ErrorText.decodeSingle
      rw [h2]
      simp only
      unfold ErrorText.finish
      simp only
      rw [hr]
    · apply decodeSingle_stop
      refine readChars_stop h2 ?_
      unfold ErrorText.readChar
      rw [qual?_char]
      simp only
      rw [if_neg (mt mem_ofLetter.1 hm), hr]
  | range g l ks k hg hl hk hbad hfirst =>
    rw [readable_sets hn h1 hg]
    have hok : ∀ m, rank m < rank l → ∃ cs, ErrorText.fieldsOf (ofLetter m) w h (putAll (fun _ => []) (kept g) (ofLetter m)) = .ok cs :=
      fun m hm => numbers_of hg.tidy m w h fun js hjs => hfirst m js hjs hm
    have herr : ErrorText.fieldsOf (ofLetter l) w h (putAll (fun _ => []) (kept g) (ofLetter l)) =
        .error (saying (repeated h (lessThan l ++ Py.natStr w))) := by
      cases hc : ErrorText.fieldsOf (ofLetter l) w h (putAll (fun _ => []) (kept g) (ofLetter l)) with
      | error e => rw [fieldsOf_text hc]
      | ok cs =>
        have h2 : Notation.fieldsOf (ofLetter l) w h (putAll (fun _ => []) (kept g) (ofLetter l)) = .ok cs := by
          rw [← forget_fieldsOf, hc]; rfl
        rw [putAll_of_mem _ _ (kept_nodup g hg.tidy) hl] at h2
        have := fieldsOf_range l _ h2 ((k : Int) - 1) (List.mem_map.2 ⟨k, hk, rfl⟩)
        exact absurd (by omega) hbad
    have key : ∃ as bs, [Qual.r, .c, .b, .p] = as ++ ofLetter l :: bs ∧ ∀ a ∈ as, ∃ m, rank m < rank l ∧ a = ofLetter m := by
      cases l
      · exact ⟨[], [.c, .b, .p], rfl, by simp⟩
      · exact ⟨[.r], [.b, .p], rfl, by simpa using ⟨Letter.r, by decide, rfl⟩⟩
      · exact ⟨[.r, .c], [.p], rfl, by simpa using ⟨⟨Letter.r, by decide, rfl⟩, ⟨Letter.c, by decide, rfl⟩⟩⟩
      · exact ⟨[.r, .c, .b], [], rfl, by
          simpa using ⟨⟨Letter.r, by decide, rfl⟩, ⟨Letter.c, by decide, rfl⟩, ⟨Letter.b, by decide, rfl⟩⟩⟩
    obtain ⟨as, bs, h2, h3⟩ := key
    rw [h2, allSets_first (fun a ha => by
      obtain ⟨m, hm, rfl⟩ := h3 a ha
      exact hok m hm) herr]
  | nothing g hg hk =>
    rw [readable_sets hn h1 hg, hk]
    rfl

theorem tidy_snoc {ls : List Letter} {l m : Letter} (ht : Tidy (ls ++ [l])) (hm : m ∉ ls) : Tidy (ls ++ [l] ++ [m]) := by
  induction ls with
  | nil => exact ⟨by simp, trivial⟩
  | cons k ls ih =>
    simp only [List.mem_cons, not_or] at hm
    cases ls with
    | nil => exact ⟨by simpa using Ne.symm hm.1, ih trivial (by simp)⟩
    | cons k' ls =>
      have ht' : k ∉ ls ++ [l] ∧ Tidy (k' :: ls ++ [l]) := ht
      refine ⟨?_, ih ht'.2 hm.2⟩
      intro h
      rcases List.mem_append.1 h with h | h
      · exact ht'.1 h
      · exact hm.1 (List.mem_singleton.1 h).symm

theorem openingText_snoc (n : List Char) (g : Written) (l m : Letter) (ts : List (List Char)) (x : List Char) :
    openingText n (g ++ [(l, ts)]) m x = openingText n g l (Py.join n ts) ++ m.char :: x := by
  simp [openingText, writtenText]

theorem numerals_single {x : List Char} (hx : ∀ c ∈ x, ('0' ≤ c ∧ c ≤ '9') ∨ c ∈ ([] : List Char)) :
    ∃ ts, Numerals [] ts ∧ x = Py.join [] ts ∧ (x ≠ [] → ts ≠ []) := by
  refine ⟨x.map fun c => [c], ?_, ?_, fun h => by simpa using h⟩
  · intro s hs
    obtain ⟨c, hc, rfl⟩ := List.mem_map.1 hs
    refine ⟨by simp, fun d hd => ?_, fun _ => rfl⟩
    rw [List.mem_singleton] at hd
    subst hd
    exact (hx d hc).resolve_right (by simp)
  · rw [Py.join_nil_sep]
    clear hx
    induction x with
    | nil => rfl
    | cons c x ih => rw [List.map_cons, List.flatten_cons, ← ih]; rfl

/-- A group that can be read so far can be read, or there is a complaint. -/
theorem opening_cases (w h : Nat) {n : List Char} (t : List Char) {g : Written} {l : Letter} {x : List Char} (ho : Opening n g l x) :
    (∃ g', openingText n g l x ++ t = writtenText n g' ∧ Readable n g') ∨ ∃ e, Complaint w h n (openingText n g l x ++ t) e := by
  induction t generalizing g l x with
  | nil =>
    by_cases hx : ∃ ts, Numerals n ts ∧ x = Py.join n ts ∧ (n ≠ [] → ts ≠ [])
    · obtain ⟨ts, h1, rfl, h3⟩ := hx
      refine .inl ⟨g ++ [(l, ts)], by simp [openingText, writtenText], by simp, ?_, ?_, ?_, ?_⟩
      · intro q hq
        rcases List.mem_append.1 hq with hq | hq
        · exact (ho.numerals q hq).1
        · rw [List.mem_singleton] at hq
          rw [hq]
          exact h1
      · intro q hq
        rw [List.dropLast_concat] at hq
        exact (ho.numerals q hq).2
      · intro h0 q hq
        rcases List.mem_append.1 hq with hq | hq
        · exact (ho.numerals q hq).2
        · rw [List.mem_singleton] at hq
          rw [hq]
          exact h3 h0
      · rw [List.map_append]
        exact ho.tidy
    · have h0 : n ≠ [] := by
        rintro rfl
        obtain ⟨ts, h1, h2, -⟩ := numerals_single ho.legal
        exact hx ⟨ts, h1, h2, fun h => absurd rfl h⟩
      exact .inr ⟨_, .missing g l x [] h0 ho (fun ts h1 h2 h3 => hx ⟨ts, h1, h3, fun _ => h2⟩) (.inl rfl)⟩
  | cons c t ih =>
    by_cases hl : ∃ m : Letter, c = m.char
    · obtain ⟨m, rfl⟩ := hl
      by_cases hm : m ∈ g.map Prod.fst
      · exact .inr ⟨_, .multiple g l m x t ho hm⟩
      · by_cases hx : ∃ ts, Numerals n ts ∧ x = Py.join n ts ∧ ts ≠ []
        · obtain ⟨ts, h1, rfl, h3⟩ := hx
          have ho' : Opening n (g ++ [(l, ts)]) m [] := by
            refine ⟨?_, ?_, by simp⟩
            · intro q hq
              rcases List.mem_append.1 hq with hq | hq
              · exact ho.numerals q hq
              · rw [List.mem_singleton] at hq
                rw [hq]
                exact ⟨h1, h3⟩
            · rw [List.map_append]
              exact tidy_snoc ho.tidy hm
          have := ih ho'
          rwa [openingText_snoc, List.append_assoc, List.singleton_append] at this
        · by_cases h0 : n = []
          · subst h0
            obtain ⟨ts, h1, h2, h3⟩ := numerals_single ho.legal
            have hnil : x = [] := by
              by_contra hne
              exact hx ⟨ts, h1, h2, h3 hne⟩
            subst hnil
            exact .inr ⟨_, .noNumbers g l m t rfl ho hm⟩
          · exact .inr ⟨_, .missing g l x (m.char :: t) h0 ho (fun ts h1 h2 h3 => hx ⟨ts, h1, h3, h2⟩) (.inr ⟨m, t, hm, rfl⟩)⟩
    · by_cases hd : ('0' ≤ c ∧ c ≤ '9') ∨ c ∈ n
      · have ho' : Opening n g l (x ++ [c]) := by
          refine ⟨ho.numerals, ho.tidy, ?_⟩
          intro d hd'
          rcases List.mem_append.1 hd' with h | h
          · exact ho.legal d h
          · rw [List.mem_singleton] at h
            rw [h]
            exact hd
        have := ih ho'
        have e : openingText n g l (x ++ [c]) ++ t = openingText n g l x ++ c :: t := by simp [openingText]
        rwa [e] at this
      · rw [not_or] at hd
        exact .inr ⟨_, .illegal g l x t c ho hd.1 hd.2 fun m hm => hl ⟨m, hm⟩⟩

/-- Every group is accepted or there is a complaint. -/
theorem group_cases (w h : Nat) {n : List Char} (s : List Char) :
    (∃ g, s = writtenText n g ∧ Accepted w h n g) ∨ ∃ e, Complaint w h n s e := by
  have readable : ∀ g, Readable n g → (∃ g', writtenText n g = writtenText n g' ∧ Accepted w h n g') ∨
      ∃ e, Complaint w h n (writtenText n g) e := by
    intro g hg
    by_cases hall : ∀ l ks, (l, ks) ∈ kept g → ∀ k ∈ ks, 1 ≤ k ∧ k ≤ w * h
    · by_cases hk : kept g = []
      · exact .inr ⟨_, .nothing g hg hk⟩
      · exact .inl ⟨g, rfl, hg.numerals, hg.numbers, hg.last, hg.tidy,
          ⟨hk, kept_nodup g hg.tidy, kept_numbers g hg.numbers, fun q hq => hall q.1 q.2 hq⟩⟩
    · refine .inr ?_
      have step : ∀ r, (∀ m js, (m, js) ∈ kept g → rank m < r → ∀ j ∈ js, 1 ≤ j ∧ j ≤ w * h) →
          (∀ m js, (m, js) ∈ kept g → rank m < r + 1 → ∀ j ∈ js, 1 ≤ j ∧ j ≤ w * h) ∨ ∃ e, Complaint w h n (writtenText n g) e := by
        intro r hr
        by_cases hb : ∀ m js, (m, js) ∈ kept g → rank m < r + 1 → ∀ j ∈ js, 1 ≤ j ∧ j ≤ w * h
        · exact .inl hb
        · push Not at hb
          obtain ⟨m, js, hm, hlt, j, hj, hbad⟩ := hb
          have hbad' : ¬ (1 ≤ j ∧ j ≤ w * h) := fun h => absurd (hbad h.1) (not_lt.2 h.2)
          refine .inr ⟨_, .range g m js j hg hm hj hbad' fun m' js' hm' hlt' => hr m' js' hm' (by omega)⟩
      have h0 : ∀ m js, (m, js) ∈ kept g → rank m < 0 → ∀ j ∈ js, 1 ≤ j ∧ j ≤ w * h := fun m js _ hlt => absurd hlt (by omega)
      rcases step 0 h0 with h1 | h1
      · rcases step 1 h1 with h2 | h2
        · rcases step 2 h2 with h3 | h3
          · rcases step 3 h3 with h4 | h4
            · exact absurd (fun l ks hl => h4 l ks hl (by cases l <;> decide)) hall
            · exact h4
          · exact h3
        · exact h2
      · exact h1
  cases s with
  | nil => exact .inr ⟨_, .empty⟩
  | cons c t =>
    by_cases hl : ∃ m : Letter, c = m.char
    · obtain ⟨m, rfl⟩ := hl
      have ho : Opening n [] m [] := ⟨by simp, trivial, by simp⟩
      have e : openingText n [] m [] ++ t = m.char :: t := by simp [openingText, writtenText]
      have := opening_cases w h t ho
      rw [e] at this
      rcases this with ⟨g, hg, hr⟩ | hc
      · rw [hg]
        exact readable g hr
      · exact .inr hc
    · by_cases hd : ('0' ≤ c ∧ c ≤ '9') ∨ c ∈ n
      · exact .inr ⟨_, .position c t hd⟩
      · rw [not_or] at hd
        exact .inr ⟨_, .first c t hd.1 hd.2 fun m hm => hl ⟨m, hm⟩⟩

/-- What `_decode_single` says. -/
theorem decodeSingle_error_iff {w h : Nat} {n : List Char} (hn : NumSepOk n) (h1 : n.length ≤ 1) (hN : n = [] → w * h ≤ 9)
    (s : List Char) (e : Exn) : ErrorText.decodeSingle s w h n = .error e ↔ Complaint w h n s e := by
  constructor
  · intro he
    rcases group_cases w h (n := n) s with ⟨g, rfl, hg⟩ | ⟨e', hc⟩
    · obtain ⟨cs, hcs, -⟩ := decodeSingle_accepted hn h1 hN hg
      rw [forget_ok ((forget_decodeSingle ..).trans hcs)] at he
      cases he
    · have := complaint_error hn h1 hc
      rw [he] at this
      cases this
      exact hc
  · exact complaint_error hn h1

theorem decodeGroups_error_iff {w h : Nat} {n : List Char} (hn : NumSepOk n) (h1 : n.length ≤ 1) (hN : n = [] → w * h ≤ 9)
    (gs : List (List Char)) (e : Exn) : ErrorText.decodeGroups w h n gs = .error e ↔
      ∃ as g bs, gs = as ++ g :: bs ∧ (∀ a ∈ as, ∃ g', a = writtenText n g' ∧ Accepted w h n g') ∧ Complaint w h n g e := by
  induction gs with
  | nil => simp [ErrorText.decodeGroups]
  | cons x gs ih =>
    rw [ErrorText.decodeGroups]
    rcases group_cases w h (n := n) x with ⟨g, rfl, hg⟩ | ⟨e', hc⟩
    · obtain ⟨cs, hcs, -⟩ := decodeSingle_accepted hn h1 hN hg
      have hok : ErrorText.decodeSingle (writtenText n g) w h n = .ok cs := forget_ok ((forget_decodeSingle ..).trans hcs)
      rw [hok]
      simp only
      have step : (match ErrorText.decodeGroups w h n gs with
          | .error e => .error e
          | .ok more => .ok (cs ++ more) : Except Exn (List Cell)) = .error e ↔ ErrorText.decodeGroups w h n gs = .error e := by
        cases ErrorText.decodeGroups w h n gs with
        | error e' => exact Iff.rfl
        | ok v => simp
      refine step.trans ?_
      rw [ih]
      constructor
      · rintro ⟨as, y, bs, rfl, h2, h3⟩
        refine ⟨writtenText n g :: as, y, bs, rfl, fun a ha => ?_, h3⟩
        rcases List.mem_cons.1 ha with rfl | ha
        · exact ⟨g, rfl, hg⟩
        · exact h2 a ha
      · rintro ⟨as, y, bs, h2, h3, h4⟩
        rcases as with _ | ⟨a, as⟩
        · obtain ⟨rfl, -⟩ := List.cons.inj h2
          have := complaint_error hn h1 h4
          rw [hok] at this
          cases this
        · obtain ⟨rfl, rfl⟩ := List.cons.inj h2
          exact ⟨as, y, bs, rfl, fun b hb => h3 b (List.mem_cons_of_mem _ hb), h4⟩
    · have he := complaint_error hn h1 hc
      rw [he]
      simp only [Except.error.injEq]
      constructor
      · rintro rfl
        exact ⟨[], x, gs, rfl, by simp, hc⟩
      · rintro ⟨as, y, bs, h2, h3, h4⟩
        rcases as with _ | ⟨a, as⟩
        · obtain ⟨rfl, -⟩ := List.cons.inj h2
          have := complaint_error hn h1 h4
          rw [he] at this
          cases this
          rfl
        · obtain ⟨rfl, rfl⟩ := List.cons.inj h2
          obtain ⟨g', rfl, hg'⟩ := h3 _ List.mem_cons_self
          obtain ⟨cs, hcs, -⟩ := decodeSingle_accepted hn h1 hN hg'
          rw [forget_ok ((forget_decodeSingle ..).trans hcs)] at he
          cases he

theorem between_length {w h : Nat} {nsep : List Char} (h1 : nsep.length ≤ 1) : (between w h nsep).length ≤ 1 := by
  unfold between
  split
  · exact h1
  · split <;> simp

/-- What `decode` says. -/
theorem decode_error_iff {w h : Nat} (hw : 0 < w) (hh : 0 < h) {sep nsep : List Char} (h0 : sep ≠ [])
    (hs : ∀ l : Letter, l.char ∉ sep) (hn : NumSepOk nsep) (h1 : nsep.length ≤ 1) {s : List Char} (hsp : ¬ Py.whitespace <:+: s)
    (e : Exn) : ErrorText.decode s w h sep nsep = .error e ↔
      ∃ as g bs, s = Py.join sep (as ++ g :: bs) ∧ Groups sep (as ++ g :: bs) ∧
        (∀ a ∈ as, ∃ g', a = writtenText (between w h nsep) g' ∧ Accepted w h (between w h nsep) g') ∧
        Complaint w h (between w h nsep) g e := by
  have form : ErrorText.decode s w h sep nsep = match ErrorText.decodeGroups w h (between w h nsep) (splitGroups sep s) with
      | .error e => .error e
      | .ok cells => .ok (Solvers.sortCells cells.dedup) := by
    unfold ErrorText.decode
    rw [forget_ok (forget_checkSize (w : Int) (h : Int) |>.trans (checkSize_ok hw hh))]
    simp only
    rw [numberSep_eq, removeWhitespace_eq hsp]
    rfl
  have step : ErrorText.decode s w h sep nsep = .error e ↔
      ErrorText.decodeGroups w h (between w h nsep) (splitGroups sep s) = .error e := by
    rw [form]
    cases ErrorText.decodeGroups w h (between w h nsep) (splitGroups sep s) with
    | error e' => exact Iff.rfl
    | ok v => simp
  rw [step, decodeGroups_error_iff (between_ok hn) (between_length h1) between_nil]
  obtain ⟨gs, rfl, hg⟩ := exists_groups h0 s
  rw [splitGroups_groups hs hg]
  constructor
  · rintro ⟨as, g, bs, rfl, h2, h3⟩
    exact ⟨as, g, bs, rfl, hg, h2, h3⟩
  · rintro ⟨as, g, bs, h2, h3, h4, h5⟩
    refine ⟨as, g, bs, ?_, h4, h5⟩
    rw [← splitGroups_groups hs hg, h2, splitGroups_groups hs h3]

theorem cut_of_not_infix {sep : List Char} (h0 : sep ≠ []) {s : List Char} (h : ¬ sep <:+: s) : Py.cut sep s = none := by
  induction s with
  | nil => rw [Py.cut, if_neg h0]
  | cons c s ih =>
    rw [Py.cut, if_neg, ih fun hs => h (hs.trans (List.suffix_cons c s).isInfix)]
    rw [List.isPrefixOf_iff_prefix]
    exact fun hp => h hp.isInfix

end ErrorText
