import Verif.LanguageSpec
import Verif.Proofs.Notation

set_option autoImplicit false

/-! # Which texts `notation.decode` accepts -/

open Spec Spec.Text

namespace Notation

/-! ## Numerals -/

theorem isDigit_iff (c : Char) : Py.isDigit c = true ↔ '0' ≤ c ∧ c ≤ '9' := by
  unfold Py.isDigit
  simp only [Bool.and_eq_true, decide_eq_true_eq]
  rfl

theorem readDigits_numeral (s : List Char) (hs : ∀ c ∈ s, Py.isDigit c = true) (acc : Nat) (b : Bool) (hb : s ≠ [] ∨ b = true) :
    Py.readDigits s acc b = some (s.foldl (fun n c => 10 * n + (c.toNat - 48)) acc) := by
  induction s generalizing acc b with
  | nil =>
    rcases hb with hb | hb
    · exact absurd rfl hb
    · rw [Py.readDigits, if_pos hb]; rfl
  | cons c s ih =>
    rw [Py.readDigits, if_pos (hs c (by simp)), ih (fun d hd => hs d (List.mem_cons_of_mem _ hd)) _ _ (.inr rfl)]
    rfl

theorem int_numeral {t : List Char} (h0 : t ≠ []) (h : ∀ c ∈ t, Py.isDigit c = true) : Py.int t = .ok (numeral t : Int) :=
  Py.int_digits h h0 (readDigits_numeral t h 0 false (.inl h0))

theorem ints_ok {l : List (List Char)} {ns : List Int} (h : Py.ints l = .ok ns) : ∀ x ∈ l, ∃ k, Py.int x = .ok k := by
  induction l generalizing ns with
  | nil => simp
  | cons y l ih =>
    rw [Py.ints] at h
    split at h
    · cases h
    · rename_i v hv
      split at h
      · cases h
      · rename_i vs hvs
        intro x hx
        rcases List.mem_cons.1 hx with rfl | hx
        · exact ⟨v, hv⟩
        · exact ih hvs x hx

theorem join_mem {sep : List Char} {l : List (List Char)} {x : List Char} (hx : x ∈ l) {c : Char} (hc : c ∈ x) : c ∈ Py.join sep l := by
  induction l with
  | nil => simp at hx
  | cons y l ih =>
    by_cases h0 : l = []
    · subst h0
      rw [List.mem_singleton] at hx
      subst hx
      exact hc
    · rw [Py.join_cons _ _ h0]
      rcases List.mem_cons.1 hx with rfl | hx
      · simp [hc]
      · simp [ih hx]

/-- Splitting loses nothing. -/
theorem join_splitGo {sep : List Char} (h0 : sep ≠ []) (s : List Char) (k : Nat) (acc : List Char) :
    Py.join sep (Py.splitGo sep s k acc) = acc.reverse ++ s.drop k := by
  induction s generalizing k acc with
  | nil => simp [Py.splitGo, Py.join]
  | cons c s ih =>
    cases k with
    | succ k => rw [Py.splitGo, ih]; rfl
    | zero =>
      rw [Py.splitGo]
      split
      · rename_i hp
        rw [List.isPrefixOf_iff_prefix] at hp
        obtain ⟨r, hr⟩ := hp
        rw [Py.join_cons _ _ (splitGo_ne_nil _ _ _ _), ih]
        obtain ⟨d, sep', rfl⟩ : ∃ d sep', sep = d :: sep' := by
          cases sep with
          | nil => exact absurd rfl h0
          | cons d sep' => exact ⟨d, sep', rfl⟩
        rw [List.cons_append] at hr
        obtain ⟨rfl, rfl⟩ := List.cons.inj hr
        simp
      · rw [ih]; simp

/-- The pieces do not contain a separator of one character. -/
theorem splitGo_single (d : Char) (s acc : List Char) (ha : d ∉ acc) : ∀ x ∈ Py.splitGo [d] s 0 acc, d ∉ x := by
  induction s generalizing acc with
  | nil => simpa [Py.splitGo] using ha
  | cons c s ih =>
    rw [Py.splitGo]
    split
    · intro x hx
      rcases List.mem_cons.1 hx with rfl | hx
      · simpa using ha
      · exact ih [] (by simp) x hx
    · rename_i hp
      apply ih
      rw [List.mem_cons, not_or]
      refine ⟨?_, ha⟩
      rintro rfl
      simp at hp

/-- The character can stand within numbers. -/
def Legal (nsep x : List Char) : Prop := ∀ ch ∈ x, Py.isDigit ch = true ∨ ch ∈ nsep

theorem legal_numerals {nsep : List Char} {ts : List (List Char)} (h : Numerals nsep ts) : Legal nsep (Py.join nsep ts) := by
  intro ch hch
  rcases Py.mem_join hch with h1 | ⟨x, hx, h1⟩
  · exact .inr h1
  · exact .inl ((isDigit_iff ch).2 ((h x hx).2.1 ch h1))

/-- The numbers of a text: `nsep` is empty or one character. -/
theorem readNumbers_iff {nsep str : List Char} (hn : NumSepOk nsep) (h1 : nsep.length ≤ 1) (ns : List Int) (hl : Legal nsep str) :
    readNumbers nsep str = .ok ns ↔ ∃ ts, str = Py.join nsep ts ∧ Numerals nsep ts ∧ (nsep ≠ [] → ts ≠ []) ∧
      ns = ts.map fun t => (numeral t : Int) - 1 := by
  have back : ∀ ts, Numerals nsep ts → Py.ints ts = .ok (ts.map fun t => (numeral t : Int)) := by
    intro ts hts
    exact Py.ints_map fun x hx => int_numeral (hts x hx).1 fun c hc => (isDigit_iff c).2 ((hts x hx).2.1 c hc)
  have key : ∀ ts, Numerals nsep ts → Py.ints ts = .ok (ns.map (· + 1)) → ns = ts.map fun t => (numeral t : Int) - 1 := by
    intro ts hts h
    rw [back ts hts, Except.ok.injEq] at h
    have := congrArg (List.map (· - 1)) h
    simpa [Function.comp_def] using this.symm
  have form : readNumbers nsep str = .ok ns ↔
      Py.ints (if nsep = [] then str.map fun c => [c] else Py.splitGo nsep str 0 []) = .ok (ns.map (· + 1)) := by
    unfold readNumbers
    split
    · rename_i e he
      rw [he]
      simp
    · rename_i l he
      rw [he]
      simp only [Except.ok.injEq]
      constructor
      · rintro rfl; simp [Function.comp_def]
      · rintro rfl; simp [Function.comp_def]
  rw [form]
  by_cases h0 : nsep = []
  · subst h0
    rw [if_pos rfl]
    constructor
    · intro h
      have hts : Numerals [] (str.map fun c => [c]) := by
        intro t ht
        obtain ⟨c, hc, rfl⟩ := List.mem_map.1 ht
        refine ⟨by simp, fun d hd => ?_, fun _ => rfl⟩
        rw [List.mem_singleton] at hd
        subst hd
        exact (isDigit_iff d).1 ((hl d hc).resolve_right (by simp))
      refine ⟨str.map fun c => [c], ?_, hts, fun h => absurd rfl h, key _ hts h⟩
      rw [Py.join_nil_sep]
      clear hl form key back h hts
      induction str with
      | nil => rfl
      | cons c str ih => rw [List.map_cons, List.flatten_cons, ← ih]; rfl
    · rintro ⟨ts, rfl, hts, -, rfl⟩
      have : (Py.join [] ts).map (fun c => [c]) = ts := by
        rw [Py.join_nil_sep]
        clear hl form key back
        induction ts with
        | nil => rfl
        | cons t ts ih =>
          obtain ⟨c, rfl⟩ := List.length_eq_one_iff.1 ((hts t (by simp)).2.2 rfl)
          rw [List.flatten_cons, List.map_append, ih fun x hx => hts x (List.mem_cons_of_mem _ hx)]
          rfl
      rw [this, back ts hts]
      simp [Function.comp_def]
  · rw [if_neg h0]
    obtain ⟨d, rfl⟩ : ∃ d, nsep = [d] := by
      rcases nsep with _ | ⟨d, _ | ⟨e, r⟩⟩
      · exact absurd rfl h0
      · exact ⟨d, rfl⟩
      · simp at h1
    constructor
    · intro h
      have hj : Py.join [d] (Py.splitGo [d] str 0 []) = str := by rw [join_splitGo (by simp)]; simp
      have hts : Numerals [d] (Py.splitGo [d] str 0 []) := by
        intro t ht
        have hd : ∀ c ∈ t, Py.isDigit c = true := by
          intro c hc
          refine (hl c ?_).resolve_right ?_
          · rw [← hj]; exact join_mem ht hc
          · rw [List.mem_singleton]
            rintro rfl
            exact splitGo_single c str [] (by simp) t ht hc
        refine ⟨?_, fun c hc => (isDigit_iff c).1 (hd c hc), fun h => absurd h h0⟩
        rintro rfl
        obtain ⟨k, hk⟩ := ints_ok h _ ht
        exact absurd hk (by rw [show Py.int [] = .error .ValueError from by decide]; simp)
      exact ⟨_, hj.symm, hts, fun _ => splitGo_ne_nil _ _ _ _, key _ hts h⟩
    · rintro ⟨ts, rfl, hts, hne, rfl⟩
      have := Py.split_join (sep := [d]) (by simp) (hne h0) (by
        intro x hx c hc
        exact numSep_digit hn ((isDigit_iff c).2 ((hts x hx).2.1 c hc)))
      unfold Py.split at this
      rw [if_neg h0, Except.ok.injEq] at this
      rw [this, back ts hts]
      simp [Function.comp_def]

/-! ## Letters and what stands between them -/

/-- The text of letters and what follows each of them. -/
def rawText (rest : List (Letter × List Char)) : List Char := (rest.map fun q => q.1.char :: q.2).flatten

theorem rawText_cons (q : Letter × List Char) (rest : List (Letter × List Char)) :
    rawText (q :: rest) = q.1.char :: (q.2 ++ rawText rest) := by simp [rawText]

/-- There is no letter in it. -/
def Between (x : List Char) : Prop := ∀ l : Letter, l.char ∉ x

/-- Every text can be cut at its letters. -/
theorem exists_raw (s : List Char) : ∃ x rest, s = x ++ rawText rest ∧ Between x ∧ ∀ q ∈ rest, Between q.2 := by
  induction s with
  | nil => exact ⟨[], [], rfl, fun l => by simp, by simp⟩
  | cons c s ih =>
    obtain ⟨x, rest, rfl, h1, h2⟩ := ih
    by_cases hc : ∃ l : Letter, c = l.char
    · obtain ⟨l, rfl⟩ := hc
      refine ⟨[], (l, x) :: rest, ?_, fun l => by simp, ?_⟩
      · rw [rawText_cons]; rfl
      · intro q hq
        rcases List.mem_cons.1 hq with rfl | hq
        · exact h1
        · exact h2 q hq
    · refine ⟨c :: x, rest, rfl, fun l hl => ?_, h2⟩
      rcases List.mem_cons.1 hl with e | hl
      · exact hc ⟨l, e.symm⟩
      · exact h1 l hl

/-- `_decode_single` up to line 273. -/
def readAll (nsep s : List Char) (st : State) : Except PyErr (Qual → List Int) :=
  match readChars nsep s st with
  | .error e => .error e
  | .ok st => finish nsep st

/-- What reading the letters and texts gives. -/
def Reads (nsep : List Char) : (Qual → List Int) → List Qual → Letter → List Char → List (Letter × List Char) → (Qual → List Int) → Prop
  | nums, _, cur, str, [], res => ∃ ns, readNumbers nsep str = .ok ns ∧ res = State.put nums (ofLetter cur) ns
  | nums, present, cur, str, (l, t) :: rest, res => ofLetter l ∉ present ∧ ∃ ns, readNumbers nsep str = .ok ns ∧ ns ≠ [] ∧
    Reads nsep (State.put nums (ofLetter cur) ns) (present ++ [ofLetter cur]) l t rest res

theorem readAll_raw {nsep : List Char} (hn : NumSepOk nsep) (rest : List (Letter × List Char)) (hr : ∀ q ∈ rest, Between q.2)
    (nums : Qual → List Int) (present : List Qual) (cur : Letter) (str x : List Char) (hx : Between x) (res : Qual → List Int) :
    readAll nsep (x ++ rawText rest) ⟨nums, some (ofLetter cur), present, str⟩ = .ok res ↔
      Legal nsep x ∧ (∀ q ∈ rest, Legal nsep q.2) ∧ Reads nsep nums present cur (str ++ x) rest res := by
  induction rest generalizing nums present cur str x with
  | nil =>
    by_cases hl : Legal nsep x
    · unfold readAll
      rw [readChars_append, readChars_digits hn hl _ (by simp)]
      simp only [rawText, List.map_nil, List.flatten_nil, readChars, finish, Reads]
      constructor
      · intro h
        split at h
        · cases h
        · rename_i ns hns
          cases h
          exact ⟨hl, by simp, ns, hns, rfl⟩
      · rintro ⟨-, -, ns, hns, rfl⟩
        rw [hns]
    · constructor
      · intro h
        unfold Legal at hl
        push Not at hl
        obtain ⟨ch, hm, h1, h2⟩ := hl
        obtain ⟨e, he⟩ := readChars_illegal (nsep := nsep) (s := x ++ rawText []) (st := ⟨nums, some (ofLetter cur), present, str⟩)
          (ch := ch) (by simp [hm]) (by
            rw [special_iff]
            rintro (h | ⟨l, rfl⟩)
            · exact h1 h
            · exact hx l hm) h2
        unfold readAll at h
        rw [he] at h
        cases h
      · rintro ⟨h, -⟩
        exact absurd h hl
  | cons q rest ih =>
    obtain ⟨l, t⟩ := q
    by_cases hl : Legal nsep x
    · have step : readAll nsep (x ++ rawText ((l, t) :: rest)) ⟨nums, some (ofLetter cur), present, str⟩ = .ok res ↔
          ofLetter l ∉ present ∧ ∃ ns, readNumbers nsep (str ++ x) = .ok ns ∧ ns ≠ [] ∧
            readAll nsep (t ++ rawText rest) ⟨State.put nums (ofLetter cur) ns, some (ofLetter l), present ++ [ofLetter cur], []⟩ = .ok res := by
        unfold readAll
        rw [readChars_append, readChars_digits hn hl _ (by simp), rawText_cons]
        simp only
        rw [readChars]
        unfold readChar
        simp only [qual?_char]
        by_cases hp : ofLetter l ∈ present
        · rw [if_pos hp]
          simp [hp]
        · rw [if_neg hp]
          cases hrn : readNumbers nsep (str ++ x) with
          | error e => simp
          | ok ns =>
            simp only [Except.ok.injEq]
            by_cases hns : ns = []
            · rw [if_pos hns]
              simp [hns]
            · rw [if_neg hns]
              simp [hp, hns]
      rw [step]
      have ih' := fun ns => ih (fun q hq => hr q (List.mem_cons_of_mem _ hq)) (State.put nums (ofLetter cur) ns) (present ++ [ofLetter cur]) l [] t
        (hr (l, t) (by simp))
      constructor
      · rintro ⟨h1, ns, h2, h3, h4⟩
        obtain ⟨h5, h6, h7⟩ := (ih' ns).1 h4
        refine ⟨hl, ?_, h1, ns, h2, h3, h7⟩
        intro q hq
        rcases List.mem_cons.1 hq with rfl | hq
        · exact h5
        · exact h6 q hq
      · rintro ⟨-, h6, h1, ns, h2, h3, h7⟩
        exact ⟨h1, ns, h2, h3, (ih' ns).2 ⟨h6 (l, t) (by simp), fun q hq => h6 q (List.mem_cons_of_mem _ hq), h7⟩⟩
    · constructor
      · intro h
        unfold Legal at hl
        push Not at hl
        obtain ⟨ch, hm, h1, h2⟩ := hl
        obtain ⟨e, he⟩ := readChars_illegal (nsep := nsep) (s := x ++ rawText ((l, t) :: rest))
          (st := ⟨nums, some (ofLetter cur), present, str⟩) (ch := ch) (by simp [hm]) (by
            rw [special_iff]
            rintro (h | ⟨l, rfl⟩)
            · exact h1 h
            · exact hx l hm) h2
        unfold readAll at h
        rw [he] at h
        cases h
      · rintro ⟨h, -⟩
        exact absurd h hl

/-! ## Written groups -/

/-- All the numbers of a written group. -/
def values (g : Written) : Group := g.map fun q => (q.1, q.2.map numeral)

/-- The texts of a written group. -/
def raw (nsep : List Char) (g : Written) : List (Letter × List Char) := g.map fun q => (q.1, Py.join nsep q.2)

theorem rawText_raw (nsep : List Char) (g : Written) : rawText (raw nsep g) = writtenText nsep g := by
  simp [rawText, raw, writtenText, Function.comp_def]

theorem putAll_values_cons (nums : Qual → List Int) (cur : Letter) (ts : List (List Char)) (g : Written) :
    putAll nums (values ((cur, ts) :: g)) =
      putAll (State.put nums (ofLetter cur) (ts.map fun t => (numeral t : Int) - 1)) (values g) := by
  simp [putAll, values, Function.comp_def]

theorem reads_iff {nsep : List Char} (hn : NumSepOk nsep) (h1 : nsep.length ≤ 1) (rest : List (Letter × List Char))
    (hr : ∀ q ∈ rest, Legal nsep q.2) (nums : Qual → List Int) (present : List Qual) (cur : Letter) (str : List Char)
    (hs : Legal nsep str) (res : Qual → List Int) :
    Reads nsep nums present cur str rest res ↔ ∃ ts g, str = Py.join nsep ts ∧ rest = raw nsep g ∧
      (∀ q ∈ (cur, ts) :: g, Numerals nsep q.2) ∧ (∀ q ∈ ((cur, ts) :: g).dropLast, q.2 ≠ []) ∧
      (nsep ≠ [] → ∀ q ∈ (cur, ts) :: g, q.2 ≠ []) ∧ Tidy (cur :: g.map Prod.fst) ∧
      (∀ l ∈ g.map Prod.fst, ofLetter l ∉ present) ∧ res = putAll nums (values ((cur, ts) :: g)) := by
  induction rest generalizing nums present cur str with
  | nil =>
    rw [Reads]
    constructor
    · rintro ⟨ns, h, rfl⟩
      obtain ⟨ts, h2, h3, h4, rfl⟩ := (readNumbers_iff hn h1 ns hs).1 h
      refine ⟨ts, [], h2, rfl, by simpa using h3, by simp, by simpa using h4, trivial, by simp, ?_⟩
      rw [putAll_values_cons]
      rfl
    · rintro ⟨ts, g, h2, h3, h4, -, h5, -, -, rfl⟩
      obtain rfl : g = [] := by simpa [raw] using h3.symm
      refine ⟨_, (readNumbers_iff hn h1 _ hs).2 ⟨ts, h2, h4 (cur, ts) (by simp), fun h => h5 h (cur, ts) (by simp), rfl⟩, ?_⟩
      rw [putAll_values_cons]
      rfl
  | cons q rest ih =>
    obtain ⟨l, t⟩ := q
    rw [Reads]
    have ih' := fun ns => ih (fun q hq => hr q (List.mem_cons_of_mem _ hq)) (State.put nums (ofLetter cur) ns) (present ++ [ofLetter cur])
      l t (hr (l, t) (by simp))
    constructor
    · rintro ⟨hp, ns, h, hne, hrest⟩
      obtain ⟨ts, h2, h3, h4, rfl⟩ := (readNumbers_iff hn h1 ns hs).1 h
      obtain ⟨ts', g, h5, h6, h7, h8, h9, h10, h11, rfl⟩ := (ih' _).1 hrest
      have hts : ts ≠ [] := by simpa using hne
      refine ⟨ts, (l, ts') :: g, h2, ?_, ?_, ?_, ?_, ?_, ?_, ?_⟩
      · rw [h5, h6]; rfl
      · intro q hq
        rcases List.mem_cons.1 hq with rfl | hq
        · exact h3
        · exact h7 q hq
      · intro q hq
        rw [List.dropLast_cons_of_ne_nil (by simp)] at hq
        rcases List.mem_cons.1 hq with rfl | hq
        · exact hts
        · exact h8 q hq
      · intro h0 q hq
        rcases List.mem_cons.1 hq with rfl | hq
        · exact hts
        · exact h9 h0 q hq
      · refine ⟨fun hm => ?_, h10⟩
        exact h11 cur hm (by simp)
      · intro l' hl'
        rw [List.map_cons, List.mem_cons] at hl'
        rcases hl' with rfl | hl'
        · exact hp
        · exact fun hm => h11 l' hl' (List.mem_append_left _ hm)
      · rw [putAll_values_cons nums cur]
    · rintro ⟨ts, g, h2, h3, h4, h5, h6, h7, h8, rfl⟩
      cases g with
      | nil => simp [raw] at h3
      | cons q g =>
        obtain ⟨l', ts'⟩ := q
        rw [raw, List.map_cons, List.cons.injEq, Prod.mk.injEq] at h3
        obtain ⟨⟨rfl, rfl⟩, rfl⟩ := h3
        rw [List.dropLast_cons_of_ne_nil (by simp)] at h5
        have hts : ts ≠ [] := h5 (cur, ts) (by simp)
        refine ⟨h8 l (by simp), _, (readNumbers_iff hn h1 _ hs).2 ⟨ts, h2, h4 (cur, ts) (by simp), fun _ => hts, rfl⟩, by simpa using hts, ?_⟩
        rw [ih']
        refine ⟨ts', g, rfl, rfl, fun q hq => h4 q (List.mem_cons_of_mem _ hq), fun q hq => h5 q (List.mem_cons_of_mem _ hq),
          fun h0 q hq => h6 h0 q (List.mem_cons_of_mem _ hq), h7.2, ?_, ?_⟩
        · intro l' hl' hm
          rcases List.mem_append.1 hm with hm | hm
          · exact h8 l' (by rw [List.map_cons]; exact List.mem_cons_of_mem _ hl') hm
          · rw [List.mem_singleton] at hm
            have := ofLetter_inj hm
            subst this
            exact h7.1 hl'
        · rw [putAll_values_cons nums cur]

/-! ## What counts of a written group -/

theorem put_put (nums : Qual → List Int) (q : Qual) (x y : List Int) : State.put (State.put nums q x) q y = State.put nums q y := by
  funext q'
  unfold State.put
  split <;> rfl

theorem kept_letters (g : Written) : ∀ l ∈ (kept g).map Prod.fst, l ∈ g.map Prod.fst := by
  induction g with
  | nil => simp [kept]
  | cons q g ih =>
    cases g with
    | nil =>
      rw [kept]
      split <;> simp
    | cons q' g =>
      rw [kept]
      split
      · intro l hl
        rw [List.map_cons]
        exact List.mem_cons_of_mem _ (ih l hl)
      · intro l hl
        rw [List.map_cons, List.mem_cons] at hl ⊢
        exact hl.imp id (ih l)

theorem kept_nodup (g : Written) (ht : Tidy (g.map Prod.fst)) : ((kept g).map Prod.fst).Nodup := by
  induction g with
  | nil => simp [kept]
  | cons q g ih =>
    cases g with
    | nil =>
      rw [kept]
      split <;> simp
    | cons q' g =>
      have ht' : q.1 ∉ g.map Prod.fst ∧ Tidy ((q' :: g).map Prod.fst) := ht
      rw [kept]
      split
      · exact ih ht'.2
      · rename_i hne
        rw [List.map_cons, List.nodup_cons]
        refine ⟨fun hm => ?_, ih ht'.2⟩
        have := kept_letters (q' :: g) _ hm
        rw [List.map_cons, List.mem_cons] at this
        exact this.elim hne ht'.1

theorem kept_numbers (g : Written) (hg : ∀ q ∈ g.dropLast, q.2 ≠ []) : ∀ k ∈ kept g, k.2 ≠ [] := by
  induction g with
  | nil => simp [kept]
  | cons q g ih =>
    cases g with
    | nil =>
      rw [kept]
      split
      · simp
      · rename_i h
        simpa using h
    | cons q' g =>
      rw [List.dropLast_cons_of_ne_nil (by simp)] at hg
      have ih' := ih fun x hx => hg x (List.mem_cons_of_mem _ hx)
      rw [kept]
      split
      · exact ih'
      · intro k hk
        rcases List.mem_cons.1 hk with rfl | hk
        · simpa using hg q (by simp)
        · exact ih' k hk

theorem putAll_kept (g : Written) (ht : Tidy (g.map Prod.fst)) (nums : Qual → List Int)
    (h0 : ∀ l ∈ g.map Prod.fst, nums (ofLetter l) = []) : putAll nums (values g) = putAll nums (kept g) := by
  induction g generalizing nums with
  | nil => rfl
  | cons q g ih =>
    obtain ⟨l, ts⟩ := q
    rw [putAll_values_cons]
    cases g with
    | nil =>
      rw [kept]
      split
      · rename_i h
        simp only at h
        subst h
        show State.put nums (ofLetter l) [] = nums
        funext q'
        unfold State.put
        split
        · rename_i e
          rw [e]
          exact (h0 l (by simp)).symm
        · rfl
      · simp [putAll, values, Function.comp_def]
    | cons q' g =>
      have ht' : l ∉ g.map Prod.fst ∧ Tidy ((q' :: g).map Prod.fst) := ht
      rw [kept]
      split
      · rename_i e
        obtain ⟨l', ts'⟩ := q'
        simp only at e
        subst e
        rw [putAll_values_cons, put_put, ← putAll_values_cons]
        exact ih ht'.2 nums fun l hl => h0 l (by rw [List.map_cons]; exact List.mem_cons_of_mem _ hl)
      · rename_i hne
        rw [ih ht'.2]
        · simp [putAll, Function.comp_def]
        · intro l' hl'
          unfold State.put
          rw [if_neg, h0 l' (by rw [List.map_cons]; exact List.mem_cons_of_mem _ hl')]
          intro e
          have := ofLetter_inj e
          subst this
          rw [List.map_cons, List.mem_cons] at hl'
          exact hl'.elim hne ht'.1

theorem numerals_between {nsep : List Char} (hn : NumSepOk nsep) {ts : List (List Char)} (h : Numerals nsep ts) :
    Between (Py.join nsep ts) := by
  intro l hl
  rcases legal_numerals h _ hl with h1 | h1
  · exact digit_not_letter h1 ⟨l, rfl⟩
  · exact numSep_letter hn l h1

/-- Which groups can be read, and what is read. -/
theorem readAll_iff {nsep : List Char} (hn : NumSepOk nsep) (h1 : nsep.length ≤ 1) (s : List Char) (res : Qual → List Int) :
    readAll nsep s State.init = .ok res ↔ ∃ g, s = writtenText nsep g ∧ Readable nsep g ∧ res = putAll (fun _ => []) (kept g) := by
  have start : ∀ (l : Letter) (t : List Char), readAll nsep (l.char :: t) State.init =
      readAll nsep t ⟨fun _ => [], some (ofLetter l), [], []⟩ := by
    intro l t
    unfold readAll
    rw [readChars]
    unfold readChar
    simp [qual?_char, State.init]
  constructor
  · intro h
    obtain ⟨x, rest, rfl, hx, hr⟩ := exists_raw s
    cases x with
    | cons c x =>
      exfalso
      have hc : qual? c = none := qual?_none fun ⟨l, hl⟩ => hx l (by rw [hl]; simp)
      obtain ⟨e, he⟩ : ∃ e, readChar nsep State.init c = .error e := by
        unfold readChar
        rw [hc]
        simp only [State.init, if_true]
        split <;> exact ⟨_, rfl⟩
      unfold readAll at h
      rw [List.cons_append, readChars, he] at h
      cases h
    | nil =>
      cases rest with
      | nil => simp [readAll, rawText, readChars, finish, State.init] at h
      | cons q rest =>
        obtain ⟨l, t⟩ := q
        rw [List.nil_append, rawText_cons, start] at h
        obtain ⟨h2, h3, h4⟩ := (readAll_raw hn rest (fun q hq => hr q (List.mem_cons_of_mem _ hq)) _ _ l [] t (hr (l, t) (by simp)) res).1 h
        obtain ⟨ts, g, h5, h6, h7, h8, h9, h10, -, rfl⟩ := (reads_iff hn h1 rest h3 _ _ l _ (by simpa using h2) _).1 h4
        refine ⟨(l, ts) :: g, ?_, ⟨by simp, h7, h8, h9, h10⟩, ?_⟩
        · rw [← rawText_raw, raw, List.map_cons, rawText_cons, rawText_cons]
          simp only [List.nil_append] at h5
          simp only
          rw [h5, h6]
          rfl
        · exact putAll_kept ((l, ts) :: g) h10 _ fun _ _ => rfl
  · rintro ⟨g, rfl, hg, rfl⟩
    cases g with
    | nil => exact absurd rfl hg.nonempty
    | cons q g =>
      obtain ⟨l, ts⟩ := q
      have hraw : ∀ q ∈ raw nsep g, ∃ q' ∈ g, q.2 = Py.join nsep q'.2 := by
        intro q hq
        obtain ⟨q', hq', rfl⟩ := List.mem_map.1 hq
        exact ⟨q', hq', rfl⟩
      have hleg : ∀ q ∈ raw nsep g, Legal nsep q.2 := by
        intro q hq
        obtain ⟨q', hq', e⟩ := hraw q hq
        rw [e]
        exact legal_numerals (hg.numerals q' (List.mem_cons_of_mem _ hq'))
      rw [← rawText_raw, raw, List.map_cons, rawText_cons, start]
      show readAll nsep (Py.join nsep ts ++ rawText (raw nsep g)) _ = _
      rw [readAll_raw hn _ _ _ _ l [] _ (numerals_between hn (hg.numerals (l, ts) (by simp)))]
      · refine ⟨legal_numerals (hg.numerals (l, ts) (by simp)), hleg, ?_⟩
        rw [reads_iff hn h1 _ hleg _ _ l _ (by simpa using legal_numerals (hg.numerals (l, ts) (by simp)))]
        exact ⟨ts, g, rfl, rfl, hg.numerals, hg.numbers, hg.last, hg.tidy, by simp, (putAll_kept _ hg.tidy _ fun _ _ => rfl).symm⟩
      · intro q hq
        obtain ⟨q', hq', e⟩ := hraw q hq
        rw [e]
        exact numerals_between hn (hg.numerals q' (List.mem_cons_of_mem _ hq'))

/-! ## One group -/

theorem decodeSingle_eq (s : List Char) (w h : Nat) (nsep : List Char) :
    decodeSingle s w h nsep = match readAll nsep s State.init with
      | .error e => .error e
      | .ok nums => match allSets nums w h [.r, .c, .b, .p] with
        | .error e => .error e
        | .ok sets => intersection sets := by
  unfold decodeSingle readAll
  cases readChars nsep s State.init with
  | error e => rfl
  | ok st => rfl

theorem fieldsOf_range {w h : Nat} (l : Letter) (ks : List Int) {cs : List Cell} (he : fieldsOf (ofLetter l) w h ks = .ok cs) :
    ∀ k ∈ ks, 0 ≤ k ∧ k < (w * h : Nat) := by
  induction ks generalizing cs with
  | nil => simp
  | cons k ks ih =>
    rw [fieldsOf] at he
    split at he
    · cases he
    · rename_i c1 hc1
      split at he
      · cases he
      · rename_i c2 hc2
        intro k' hk'
        rcases List.mem_cons.1 hk' with rfl | hk'
        · by_contra hk
          rw [(func_spec w h l k').2.2 hk] at hc1
          cases hc1
        · exact ih hc2 k' hk'

theorem allSets_fields {nums : Qual → List Int} {w h : Nat} (qs : List Qual) {sets : List (List Cell)}
    (he : allSets nums w h qs = .ok sets) : ∀ q ∈ qs, ∃ cs, fieldsOf q w h (nums q) = .ok cs := by
  induction qs generalizing sets with
  | nil => simp
  | cons q qs ih =>
    rw [allSets] at he
    split at he
    · cases he
    · rename_i cs hcs
      split at he
      · cases he
      · rename_i more hmore
        intro q' hq'
        rcases List.mem_cons.1 hq' with rfl | hq'
        · exact ⟨cs, hcs⟩
        · exact ih hmore q' hq'

/-- A group that is accepted. -/
theorem decodeSingle_accepted {w h : Nat} {nsep : List Char} (hn : NumSepOk nsep) (h1 : nsep.length ≤ 1) (hN : nsep = [] → w * h ≤ 9)
    {g : Written} (hg : Accepted w h nsep g) :
    ∃ cs, decodeSingle (writtenText nsep g) w h nsep = .ok cs ∧ ∀ a, a ∈ cs ↔ Named w h (kept g) a := by
  obtain ⟨cs, h2, h3⟩ := decodeSingle_group hn hN hg.proper
  refine ⟨cs, ?_, h3⟩
  have hne : g ≠ [] := by
    rintro rfl
    exact hg.proper.nonempty rfl
  have e1 : readAll nsep (writtenText nsep g) State.init = .ok (putAll (fun _ => []) (kept g)) :=
    (readAll_iff hn h1 _ _).2 ⟨g, rfl, ⟨hne, hg.numerals, hg.numbers, hg.last, hg.tidy⟩, rfl⟩
  have e2 : readAll nsep (groupText nsep (kept g)) State.init = .ok (putAll (fun _ => []) (kept g)) := by
    obtain ⟨st, h4, h5⟩ := read_group hn hN hg.proper
    unfold readAll
    rw [h4]
    exact h5
  rw [← h2, decodeSingle_eq, decodeSingle_eq, e1, e2]

/-- Nothing else is accepted. -/
theorem accepted_of_ok {w h : Nat} {nsep : List Char} (hn : NumSepOk nsep) (h1 : nsep.length ≤ 1) {s : List Char} {cs : List Cell}
    (hs : decodeSingle s w h nsep = .ok cs) : ∃ g, s = writtenText nsep g ∧ Accepted w h nsep g := by
  rw [decodeSingle_eq] at hs
  split at hs
  · cases hs
  · rename_i nums hnums
    obtain ⟨g, rfl, hg, rfl⟩ := (readAll_iff hn h1 _ _).1 hnums
    refine ⟨g, rfl, hg.numerals, hg.numbers, hg.last, hg.tidy, ?_⟩
    have hone := kept_nodup g hg.tidy
    split at hs
    · cases hs
    · rename_i sets hsets
      refine ⟨?_, hone, kept_numbers g hg.numbers, ?_⟩
      · intro h0
        rw [h0] at hsets
        have : sets = [] := by
          have : allSets (putAll (fun _ => []) []) w h [.r, .c, .b, .p] = .ok [] := rfl
          rw [this, Except.ok.injEq] at hsets
          exact hsets.symm
        rw [this] at hs
        cases hs
      · intro q hq k hk
        obtain ⟨cs', h2⟩ := allSets_fields _ hsets (ofLetter q.1) (by cases q.1 <;> simp [ofLetter])
        rw [putAll_of_mem _ _ hone hq] at h2
        have := fieldsOf_range q.1 _ h2 ((k : Int) - 1) (List.mem_map.2 ⟨k, hk, rfl⟩)
        omega

/-! ## All groups -/

theorem numerals_last {nsep : List Char} {ts : List (List Char)} (h : Numerals nsep ts) (h0 : ts ≠ []) :
    ∃ ch, (Py.join nsep ts).getLast? = some ch ∧ Py.isDigit ch = true := by
  obtain ⟨x, hx, he⟩ := Py.last_join (sep := nsep) h0 fun x hx => (h x hx).1
  rw [he]
  cases hl : x.getLast? with
  | none => exact absurd (List.getLast?_eq_none_iff.1 hl) (h x hx).1
  | some ch => exact ⟨ch, rfl, (isDigit_iff ch).2 ((h x hx).2.1 ch (List.mem_of_getLast? hl))⟩

theorem writtenText_cons (nsep : List Char) (q : Letter × List (List Char)) (g : Written) :
    writtenText nsep (q :: g) = q.1.char :: (Py.join nsep q.2 ++ writtenText nsep g) := by
  simp [writtenText]

theorem tame_written {nsep : List Char} (hn : NumSepOk nsep) {g : Written} (hg : ∀ q ∈ g, Numerals nsep q.2)
    (hd : ∀ q ∈ g.dropLast, q.2 ≠ []) (l : Letter) : Tame l.char (writtenText nsep g) := by
  induction g with
  | nil => exact tame_none (by simp [writtenText])
  | cons q g ih =>
    rw [writtenText_cons]
    by_cases h0 : q.2 = []
    · have hg0 : g = [] := by
        by_contra hne
        rw [List.dropLast_cons_of_ne_nil hne] at hd
        exact hd q (by simp) h0
      subst hg0
      rw [h0]
      intro y z hyz
      cases y with
      | nil => exact .inl rfl
      | cons c y => simp [writtenText, Py.join] at hyz
    · refine Tame.group (numerals_between hn (hg q (by simp)) l) (ih (fun x hx => hg x (List.mem_cons_of_mem _ hx)) ?_)
        (numerals_last (hg q (by simp)) h0) _
      intro x hx
      refine hd x ?_
      cases g with
      | nil => simp at hx
      | cons q' g =>
        rw [List.dropLast_cons_of_ne_nil (by simp)]
        exact List.mem_cons_of_mem _ hx

theorem decodeGroups_accepted {w h : Nat} {nsep : List Char} (hn : NumSepOk nsep) (h1 : nsep.length ≤ 1) (hN : nsep = [] → w * h ≤ 9)
    {gs : List Written} (hg : ∀ g ∈ gs, Accepted w h nsep g) :
    ∃ cs, decodeGroups w h nsep (gs.map (writtenText nsep)) = .ok cs ∧ ∀ a, a ∈ cs ↔ ∃ g ∈ gs, Named w h (kept g) a := by
  induction gs with
  | nil => exact ⟨[], rfl, by simp⟩
  | cons g gs ih =>
    obtain ⟨cs, h1', h2⟩ := ih fun x hx => hg x (List.mem_cons_of_mem _ hx)
    obtain ⟨cs', h3, h4⟩ := decodeSingle_accepted hn h1 hN (hg g (by simp))
    refine ⟨cs' ++ cs, ?_, fun a => ?_⟩
    · rw [List.map_cons, decodeGroups, h3]
      simp only
      rw [h1']
    · rw [List.mem_append, h2, h4]
      simp

theorem accepted_of_groups {w h : Nat} {nsep : List Char} (hn : NumSepOk nsep) (h1 : nsep.length ≤ 1) {ss : List (List Char)}
    {cs : List Cell} (hs : decodeGroups w h nsep ss = .ok cs) :
    ∃ gs : List Written, ss = gs.map (writtenText nsep) ∧ ∀ g ∈ gs, Accepted w h nsep g := by
  induction ss generalizing cs with
  | nil => exact ⟨[], rfl, by simp⟩
  | cons s ss ih =>
    rw [decodeGroups] at hs
    split at hs
    · cases hs
    · rename_i c1 hc1
      split at hs
      · cases hs
      · rename_i c2 hc2
        obtain ⟨gs, rfl, h2⟩ := ih hc2
        obtain ⟨g, rfl, h3⟩ := accepted_of_ok hn h1 hc1
        refine ⟨g :: gs, rfl, fun x hx => ?_⟩
        rcases List.mem_cons.1 hx with rfl | hx
        · exact h3
        · exact h2 x hx

/-! ## Splitting into groups loses nothing -/

theorem join_splitGroup (sep : List Char) (c : Char) (s : List Char) : Py.join sep (splitGroup sep c s) = s ∧ splitGroup sep c s ≠ [] := by
  have hj := join_splitGo (sep := sep ++ [c]) (by simp) s 0 []
  simp only [List.reverse_nil, List.nil_append, List.drop_zero] at hj
  have key : ∀ (g : List Char) (gs : List (List Char)), Py.join sep (g :: gs.map (c :: ·)) = Py.join (sep ++ [c]) (g :: gs) := by
    intro g gs
    induction gs generalizing g with
    | nil => rfl
    | cons x gs ih =>
      rw [List.map_cons, Py.join_cons sep g (by simp), Py.join_cons (sep ++ [c]) g (by simp), ← ih]
      have : ∀ y : List Char, Py.join sep ((c :: y) :: gs.map (c :: ·)) = c :: Py.join sep (y :: gs.map (c :: ·)) := by
        intro y
        cases gs with
        | nil => rfl
        | cons z gs => rw [List.map_cons, Py.join_cons sep (c :: y) (by simp), Py.join_cons sep y (by simp)]; rfl
      rw [this]
      simp
  unfold splitGroup
  split
  · rename_i h0
    exact absurd h0 (splitGo_ne_nil _ _ _ _)
  · rename_i g gs h0
    rw [key, ← h0]
    exact ⟨hj, by simp⟩

theorem join_splitGroups (sep s : List Char) : Py.join sep (splitGroups sep s) = s ∧ splitGroups sep s ≠ [] := by
  have step : ∀ (c : Char) (gs : List (List Char)), gs ≠ [] →
      Py.join sep (gs.flatMap (splitGroup sep c)) = Py.join sep gs ∧ gs.flatMap (splitGroup sep c) ≠ [] := by
    intro c gs h0
    have hne : ∀ l ∈ gs.map (splitGroup sep c), l ≠ [] := by
      intro l hl
      obtain ⟨g, _, rfl⟩ := List.mem_map.1 hl
      exact (join_splitGroup sep c g).2
    constructor
    · rw [List.flatMap_def, ← Py.join_flatten sep hne, List.map_map]
      congr 1
      conv_rhs => rw [← List.map_id gs]
      exact List.map_congr_left fun g _ => (join_splitGroup sep c g).1
    · cases gs with
      | nil => exact absurd rfl h0
      | cons g gs => simp [(join_splitGroup sep c g).2]
  have all : ∀ (cs : List Char) (gs : List (List Char)), gs ≠ [] →
      Py.join sep (cs.foldl (fun groups c => groups.flatMap (splitGroup sep c)) gs) = Py.join sep gs ∧
        cs.foldl (fun groups c => groups.flatMap (splitGroup sep c)) gs ≠ [] := by
    intro cs
    induction cs with
    | nil => exact fun gs h0 => ⟨rfl, h0⟩
    | cons c cs ih =>
      intro gs h0
      obtain ⟨h1, h2⟩ := step c gs h0
      obtain ⟨h3, h4⟩ := ih _ h2
      exact ⟨by rw [List.foldl_cons, h3, h1], h4⟩
  exact all _ [s] (by simp)

theorem one_group {sep s : List Char} (hs : ¬ sep <:+: s) : splitGroups sep s = [s] := by
  obtain ⟨h1, h2⟩ := join_splitGroups sep s
  rcases hc : splitGroups sep s with _ | ⟨x, _ | ⟨y, l⟩⟩
  · exact absurd hc h2
  · rw [hc] at h1
    rw [← h1]
    rfl
  · rw [hc, Py.join] at h1
    exact absurd ⟨x, Py.join sep (y :: l), h1⟩ hs

theorem removeWhitespace_eq {sep nsep s : List Char} (hw : ¬ Py.whitespace <:+: s) : removeWhitespace sep nsep s = s := by
  unfold removeWhitespace
  split
  · have := splitGo_scan (sc := Py.whitespace) s [] [] (by
      rintro y z rfl _ ⟨t, ht⟩
      exact hw ⟨y, t, by rw [List.append_assoc, ht, List.append_nil]⟩)
    rw [List.append_nil] at this
    rw [this, Py.splitGo]
    simp [Py.join]
  · rfl

/-- A set of fields is listed in reading order in one way. -/
theorem sorted_unique {l l' : List Cell} (h : l.Pairwise Before) (h' : l'.Pairwise Before) (hm : ∀ a, a ∈ l ↔ a ∈ l') : l = l' := by
  have nodup : ∀ l : List Cell, l.Pairwise Before → l.Nodup := fun l hl => hl.imp fun {a b} hab e => by
    subst e; exact Solvers.before_irrefl a hab
  refine List.Perm.eq_of_pairwise (le := Before) (fun a b _ _ h1 h2 => ?_) h h' ((List.perm_ext_iff_of_nodup (nodup l h) (nodup l' h')).2 hm)
  exact absurd (Solvers.before_trans a b a h1 h2) (Solvers.before_irrefl a)

/-- Which texts are accepted, and what they mean. -/
theorem decode_iff_groups {w h : Nat} (hw : 0 < w) (hh : 0 < h) {sep nsep : List Char} (h0 : sep ≠ []) (hs : ∀ l : Letter, l.char ∉ sep)
    (hn : NumSepOk nsep)
    (h1 : nsep.length ≤ 1) {s : List Char} (hsp : ¬ Py.whitespace <:+: s) (l : List Cell) :
    decode s w h sep nsep = .ok l ↔ ∃ gs : List Written, Groups sep (gs.map (writtenText (between w h nsep))) ∧
      s = Py.join sep (gs.map (writtenText (between w h nsep))) ∧
      (∀ g ∈ gs, Accepted w h (between w h nsep) g) ∧ SortedFields l fun a => ∃ g ∈ gs, Named w h (kept g) a := by
  have hn' := between_ok (w := w) (h := h) hn
  have h1' : (between w h nsep).length ≤ 1 := by
    unfold between
    split
    · exact h1
    · split <;> simp
  have form : decode s w h sep nsep = match decodeGroups w h (between w h nsep) (splitGroups sep s) with
      | .error e => .error e
      | .ok cells => .ok (Solvers.sortCells cells.dedup) := by
    unfold decode
    rw [checkSize_ok hw hh]
    simp only
    rw [numberSep_eq, removeWhitespace_eq hsp]
    rfl
  have sorted : ∀ (cs : List Cell) (P : Cell → Prop), (∀ a, a ∈ cs ↔ P a) → SortedFields (Solvers.sortCells cs.dedup) P := by
    intro cs P hP
    refine ⟨Solvers.sortCells_sorted (List.nodup_dedup _), fun a => ?_⟩
    rw [Solvers.mem_sortCells, List.mem_dedup, hP]
  rw [form]
  constructor
  · intro h
    split at h
    · cases h
    · rename_i cs hcs
      rw [Except.ok.injEq] at h
      subst h
      obtain ⟨gs, h2, h3⟩ := accepted_of_groups hn' h1' hcs
      obtain ⟨gs', rfl, hg⟩ := exists_groups h0 s
      rw [splitGroups_groups hs hg] at h2 hcs
      subst h2
      refine ⟨gs, hg, rfl, h3, ?_⟩
      obtain ⟨cs', h6, h7⟩ := decodeGroups_accepted hn' h1' between_nil h3
      rw [h6, Except.ok.injEq] at hcs
      subst hcs
      exact sorted _ _ h7
  · rintro ⟨gs, hg, rfl, h3, h4⟩
    obtain ⟨cs', h6, h7⟩ := decodeGroups_accepted hn' h1' between_nil h3
    rw [splitGroups_groups hs hg, h6]
    simp only [Except.ok.injEq]
    have := sorted _ _ h7
    exact sorted_unique this.1 h4.1 fun a => by rw [this.2, h4.2]

/-- For separators that do not end in a digit nothing has to be said about where the text is cut. -/
theorem decode_iff {w h : Nat} (hw : 0 < w) (hh : 0 < h) {sep nsep : List Char} (hs : SepOk sep) (hn : NumSepOk nsep)
    (h1 : nsep.length ≤ 1) {s : List Char} (hsp : ¬ Py.whitespace <:+: s) (l : List Cell) :
    decode s w h sep nsep = .ok l ↔ ∃ gs : List Written, gs ≠ [] ∧ s = Py.join sep (gs.map (writtenText (between w h nsep))) ∧
      (∀ g ∈ gs, Accepted w h (between w h nsep) g) ∧ SortedFields l fun a => ∃ g ∈ gs, Named w h (kept g) a := by
  have h0 : sep ≠ [] := by
    rintro rfl
    obtain ⟨ch, h, -⟩ := hs.last
    simp at h
  rw [decode_iff_groups hw hh h0 hs.letters hn h1 hsp]
  constructor
  · rintro ⟨gs, hg, h2⟩
    exact ⟨gs, by simpa using hg.nonempty, h2⟩
  · rintro ⟨gs, hne, h2, hg, h3⟩
    refine ⟨gs, ⟨by simpa using hne, ?_, ?_⟩, h2, hg, h3⟩
    · intro x hx
      obtain ⟨g, hg', rfl⟩ := List.mem_map.1 (List.mem_of_mem_tail hx)
      cases g with
      | nil => exact absurd rfl (hg _ hg').proper.nonempty
      | cons q g => exact ⟨_, _, writtenText_cons _ q g⟩
    · intro x hx l
      obtain ⟨g, hg', rfl⟩ := List.mem_map.1 hx
      exact (tame_written (between_ok hn) (hg g hg').numerals (hg g hg').numbers l).clear hs.last

end Notation
