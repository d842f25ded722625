import Verif.Proofs.Actions

set_option autoImplicit false

/-!
# Properties of `actions.py`, `decode_action` and `encode_action` (C47, C48, C67)

`Actions.Means n i k` says that the Python index `i` means position `k` of a list of length `n` (`i = k`, or `i = k - n` for
negative indices).
-/

open Spec Spec.Text Notation Actions

namespace Props

/-- All coordinates name a field of a sudoku with `n` rows. -/
def Legal (n : Nat) (cs : List (Int × Int)) : Prop := ∀ rc ∈ cs, ∃ a : Cell, Means n rc.1 a.1 ∧ Means n rc.2 a.2

private theorem legal_locate {s : Sudoku} {cs : List (Int × Int)} (h : Legal s.n cs) : ∀ rc ∈ cs, ∃ a, locate s rc = .ok a :=
  fun rc hrc => by
    obtain ⟨a, ha⟩ := h rc hrc
    exact ⟨a, (locate_ok s rc a).2 ha⟩

/-- **C47** `SetNumber` puts the number and the single candidate into the named fields and changes nothing else. -/
theorem C47_set (s : Sudoku) (cs : List (Int × Int)) (v : Int) (hc : Legal s.n cs) :
    ∃ t, call (.setNumber cs v) s = (t, .ok ()) ∧ t.bw = s.bw ∧ t.bh = s.bh ∧
      ∀ a, (Hit s.n cs a → t.num a = v ∧ t.cand a = {v}) ∧ (¬ Hit s.n cs a → t.num a = s.num a ∧ t.cand a = s.cand a) := by
  obtain ⟨h1, h2, h3, h4, h5⟩ := setLoop_ok v cs s (legal_locate hc)
  exact ⟨_, Prod.ext rfl h1, h2, h3, fun a => ⟨h4 a, h5 a⟩⟩

/-- **C47** `RemoveCandidates` removes the numbers from the candidates of the named fields and changes nothing else. -/
theorem C47_remove (s : Sudoku) (cs : List (Int × Int)) (vs : List Int) (hc : Legal s.n cs) :
    ∃ t, call (.removeCandidates cs vs) s = (t, .ok ()) ∧ t.bw = s.bw ∧ t.bh = s.bh ∧ t.num = s.num ∧
      ∀ a, (Hit s.n cs a → ∀ x, x ∈ t.cand a ↔ x ∈ s.cand a ∧ x ∉ vs) ∧ (¬ Hit s.n cs a → t.cand a = s.cand a) := by
  obtain ⟨h1, h2, h3, h6, h4, h5⟩ := removeLoop_ok vs.toFinset cs s (legal_locate hc)
  refine ⟨_, Prod.ext rfl h1, h2, h3, h6, fun a => ⟨fun ha x => ?_, h5 a⟩⟩
  have : (call (.removeCandidates cs vs) s).1.cand a = s.cand a \ vs.toFinset := h4 a ha
  rw [this]
  simp

/-- **C47** Doing it twice is the same as doing it once. -/
theorem C47_idempotent (s : Sudoku) (act : Action Int)
    (hc : match act with | .setNumber cs _ => Legal s.n cs | .removeCandidates cs _ => Legal s.n cs) :
    call act (call act s).1 = call act s := by
  cases act with
  | setNumber cs v =>
    obtain ⟨h1, h2, h3, h4, h5⟩ := setLoop_ok v cs s (legal_locate hc)
    have hn : (setLoop v cs s).1.n = s.n := by unfold Sudoku.n; rw [h2, h3]
    have hc' : Legal (setLoop v cs s).1.n cs := by rw [hn]; exact hc
    obtain ⟨g1, g2, g3, g4, g5⟩ := setLoop_ok v cs (setLoop v cs s).1 (legal_locate hc')
    rw [hn] at g4 g5
    show setLoop v cs (setLoop v cs s).1 = setLoop v cs s
    refine Prod.ext (Sudoku.ext g2 g3 (funext fun a => ?_) (funext fun a => ?_)) (g1.trans h1.symm)
    · by_cases ha : Hit s.n cs a
      · rw [(g4 a ha).1, (h4 a ha).1]
      · rw [(g5 a ha).1]
    · by_cases ha : Hit s.n cs a
      · rw [(g4 a ha).2, (h4 a ha).2]
      · rw [(g5 a ha).2]
  | removeCandidates cs vs =>
    obtain ⟨h1, h2, h3, h6, h4, h5⟩ := removeLoop_ok vs.toFinset cs s (legal_locate hc)
    have hn : (removeLoop vs.toFinset cs s).1.n = s.n := by unfold Sudoku.n; rw [h2, h3]
    have hc' : Legal (removeLoop vs.toFinset cs s).1.n cs := by rw [hn]; exact hc
    obtain ⟨g1, g2, g3, g6, g4, g5⟩ := removeLoop_ok vs.toFinset cs (removeLoop vs.toFinset cs s).1 (legal_locate hc')
    rw [hn] at g4 g5
    show removeLoop vs.toFinset cs (removeLoop vs.toFinset cs s).1 = removeLoop vs.toFinset cs s
    refine Prod.ext (Sudoku.ext g2 g3 g6 (funext fun a => ?_)) (g1.trans h1.symm)
    by_cases ha : Hit s.n cs a
    · rw [g4 a ha, h4 a ha]; simp
    · rw [g5 a ha]

/-- **C47** At coordinates naming no field an `IndexError` is raised; what came before them has been done, the rest has not. -/
theorem C47_index_error (s : Sudoku) (cs ds : List (Int × Int)) (rc : Int × Int) (hc : Legal s.n cs) (hrc : ¬ Legal s.n [rc]) (v : Int)
    (vs : List Int) :
    call (.setNumber (cs ++ rc :: ds) v) s = ((call (.setNumber cs v) s).1, .error .IndexError) ∧
    call (.removeCandidates (cs ++ rc :: ds) vs) s = ((call (.removeCandidates cs vs) s).1, .error .IndexError) := by
  have bad : ∀ t : Sudoku, t.n = s.n → locate t rc = .error .IndexError := by
    intro t ht
    cases hl : locate t rc with
    | error e => rw [locate_error t rc e hl]
    | ok a =>
      exfalso
      apply hrc
      intro rc' hrc'
      simp at hrc'
      subst hrc'
      rw [← ht]
      exact ⟨a, (locate_ok t _ a).1 hl⟩
  constructor
  · show setLoop v (cs ++ rc :: ds) s = _
    obtain ⟨h1, h2, h3, _⟩ := setLoop_ok v cs s (legal_locate hc)
    rw [setLoop_append _ _ _ _ (legal_locate hc), setLoop, bad _ (by unfold Sudoku.n; rw [h2, h3])]
    rfl
  · show removeLoop vs.toFinset (cs ++ rc :: ds) s = _
    obtain ⟨h1, h2, h3, _⟩ := removeLoop_ok vs.toFinset cs s (legal_locate hc)
    rw [removeLoop_append _ _ _ _ (legal_locate hc), removeLoop, bad _ (by unfold Sudoku.n; rw [h2, h3])]
    rfl

/-- Fields given by natural numbers are the ones hit. -/
theorem hit_iff (n : Nat) (l : List Cell) (hl : ∀ a ∈ l, a.1 < n ∧ a.2 < n) (a : Cell) :
    Hit n (l.map toPair) a ↔ a ∈ l := by
  constructor
  · rintro ⟨rc, hrc, h1, h2⟩
    obtain ⟨b, hb, rfl⟩ := List.mem_map.1 hrc
    have := hl b hb
    unfold Means toPair at h1 h2
    have : a = b := Prod.ext (by omega) (by omega)
    rw [this]; exact hb
  · intro ha
    have := hl a ha
    exact ⟨toPair a, List.mem_map.2 ⟨a, ha, rfl⟩, ⟨this.1, .inl rfl⟩, ⟨this.2, .inl rfl⟩⟩

example : Legal (Sudoku.new 3 3).n [(0, 0), (-1, 8)] ∧ Hit 9 [(0, 0), (-1, 8)] (8, 8) ∧ ¬ Hit 9 [(0, 0), (-1, 8)] (1, 1) := by
  refine ⟨?_, ⟨(-1, 8), by simp, ⟨by decide, .inr (by decide)⟩, ⟨by decide, .inl (by decide)⟩⟩, ?_⟩
  · intro rc h
    simp only [List.mem_cons, List.not_mem_nil, or_false] at h
    rcases h with rfl | rfl
    · exact ⟨(0, 0), ⟨by decide, .inl (by decide)⟩, ⟨by decide, .inl (by decide)⟩⟩
    · exact ⟨(8, 8), ⟨by decide, .inr (by decide)⟩, ⟨by decide, .inl (by decide)⟩⟩
  · rintro ⟨rc, h, h1, h2⟩
    simp only [List.mem_cons, List.not_mem_nil, or_false] at h
    unfold Means at h1
    rcases h with rfl | rfl <;> simp at h1

example : ((call (.setNumber [(0, 0), (-1, 8)] 5) (Sudoku.new 3 3)).1.num (8, 8)) = 5 ∧
    (call (.setNumber [(0, 0), (9, 0)] 5) (Sudoku.new 3 3)).2 = .error .IndexError := by decide +kernel

/-- **C48** `decode_action` reads `coords=number`, blanks around it allowed. -/
theorem C48_set (w h : Nat) (hw : 0 < w) (hh : 0 < h) (cs : List (Int × Int)) (hv : Valid w h cs) (h0 : cs ≠ []) (ub : Option Bool) (v : Int)
    (pre post : List Char) (h1 : ∀ c ∈ pre, Py.isSpace c = true) (h2 : ∀ c ∈ post, Py.isSpace c = true) :
    ∃ s l, encode cs w h ub [','] [] = .ok s ∧ SortedFields l (Among cs) ∧
      decodeAction (pre ++ (s ++ '=' :: Py.intStr v) ++ post) w h = .ok (.setNumber (l.map toPair) v) := by
  obtain ⟨s, l, h3, h4, h5⟩ := C41_roundtrip w h hw hh _ _ comma_ok.1 comma_ok.2 cs hv h0 ub
  obtain ⟨⟨lt, h6⟩, h7, h8⟩ := encode_chars hw hh hv h0 h3
  refine ⟨s, l, h3, h5, ?_⟩
  have hne : ∀ ch, (¬ Special ch) → ch ≠ ',' → ch ∉ s := fun ch ha hb hm => (h7 ch hm).elim ha hb
  have hlt : '<' ∉ s := hne _ (by unfold Special; decide) (by decide)
  have heq : '=' ∉ s := hne _ (by unfold Special; decide) (by decide)
  have hlast : ∀ c, (s ++ '=' :: Py.intStr v).getLast? = some c → Py.isDigit c = true ∨ c = '-' := by
    intro c hc
    rw [show s ++ '=' :: Py.intStr v = (s ++ ['=']) ++ Py.intStr v by simp, List.getLast?_append] at hc
    cases hl : (Py.intStr v).getLast? with
    | none => exact absurd (List.getLast?_eq_none_iff.1 hl) (Py.intStr_ne_nil v)
    | some d =>
      rw [hl] at hc
      simp at hc
      subst hc
      exact Py.intStr_chars v d (List.mem_of_getLast? hl)
  unfold decodeAction
  simp only
  have hhead : (s ++ '=' :: Py.intStr v).head? = some lt.char := by
    rw [List.head?_append, h6]; rfl
  rw [Py.strip_blanks h1 h2 (by simp)
    (by intro c hc; rw [hhead] at hc; cases hc; cases lt <;> decide)
    (by
      intro c hc
      rcases hlast c hc with h | rfl
      · exact Py.not_isSpace_of_digit h
      · decide)]
  rw [if_neg, Py.cut_absent]
  · simp only
    rw [Py.cut_some heq]
    simp only
    rw [Py.int_intStr]
    simp only
    rw [h4]
  · intro hm
    rcases List.mem_append.1 hm with hm | hm
    · exact hlt hm
    · rcases List.mem_cons.1 hm with hm | hm
      · exact absurd hm (by decide)
      · rcases Py.intStr_chars v _ hm with h | h
        · exact absurd h (by decide)
        · exact absurd h (by decide)
  · intro hp
    obtain ⟨t, ht⟩ := List.isPrefixOf_iff_prefix.1 hp
    rw [← ht] at hhead
    simp at hhead
    cases lt <;> exact absurd hhead (by decide)

/-- **C48** `decode_action` reads `coords<>digits`, blanks around it allowed. -/
theorem C48_remove (w h : Nat) (hw : 0 < w) (hh : 0 < h) (cs : List (Int × Int)) (hv : Valid w h cs) (h0 : cs ≠ []) (ub : Option Bool)
    (ds : List Nat) (hd : ∀ d ∈ ds, d < 10)
    (pre post : List Char) (h1 : ∀ c ∈ pre, Py.isSpace c = true) (h2 : ∀ c ∈ post, Py.isSpace c = true) :
    ∃ s l, encode cs w h ub [','] [] = .ok s ∧ SortedFields l (Among cs) ∧
      decodeAction (pre ++ (s ++ ['<', '>'] ++ ds.map Py.digitChar) ++ post) w h =
        .ok (.removeCandidates (l.map toPair) (ds.map fun d : Nat => (d : Int))) := by
  obtain ⟨s, l, h3, h4, h5⟩ := C41_roundtrip w h hw hh _ _ comma_ok.1 comma_ok.2 cs hv h0 ub
  obtain ⟨⟨lt, h6⟩, h7, h8⟩ := encode_chars hw hh hv h0 h3
  refine ⟨s, l, h3, h5, ?_⟩
  have hlt : '<' ∉ s := fun hm => (h7 _ hm).elim (by unfold Special; decide) (by decide)
  have hlast : ∀ c, (s ++ ['<', '>'] ++ ds.map Py.digitChar).getLast? = some c → Py.isDigit c = true ∨ c = '>' := by
    intro c hc
    rw [List.getLast?_append] at hc
    cases hl : (ds.map Py.digitChar).getLast? with
    | none =>
      rw [hl] at hc
      simp at hc
      exact .inr hc.symm
    | some d =>
      rw [hl] at hc
      simp at hc
      subst hc
      obtain ⟨k, hk, rfl⟩ := List.mem_map.1 (List.mem_of_getLast? hl)
      exact .inl (Py.isDigit_digitChar (hd k hk))
  unfold decodeAction
  simp only
  have hhead : (s ++ ['<', '>'] ++ ds.map Py.digitChar).head? = some lt.char := by
    rw [List.append_assoc, List.head?_append, h6]; rfl
  rw [Py.strip_blanks h1 h2 (by simp)
    (by intro c hc; rw [hhead] at hc; cases hc; cases lt <;> decide)
    (by
      intro c hc
      rcases hlast c hc with h | rfl
      · exact Py.not_isSpace_of_digit h
      · decide)]
  rw [if_neg, Py.cut_first hlt]
  · simp only
    rw [ints_digits ds hd]
    simp only
    rw [h4]
  · intro hp
    obtain ⟨t, ht⟩ := List.isPrefixOf_iff_prefix.1 hp
    rw [← ht] at hhead
    simp at hhead
    cases lt <;> exact absurd hhead (by decide)

/-- **C48** A text beginning with `-` (after blanks) always raises. -/
theorem C48_minus (s : List Char) (w h : Int) (hs : ∃ t, Py.strip s = '-' :: t) : ∃ e, decodeAction s w h = .error e := by
  obtain ⟨t, ht⟩ := hs
  unfold decodeAction
  simp only
  rw [ht, if_pos (by simp [List.isPrefixOf])]
  -- the part before the first blank begins with `-`
  have bad : ∀ x, ∃ e, Py.ints (('-' :: x).map fun c => [c]) = .error e := fun x =>
    ints_bad (x := ['-']) (by simp) (e := .ValueError) (by decide +kernel)
  rw [Py.cut, if_neg (by simp [List.isPrefixOf])]
  cases hc : Py.cut [' '] t with
  | none =>
    simp only
    split
    · exact ⟨_, rfl⟩
    · obtain ⟨e, he⟩ := bad t
      rw [he]
      exact ⟨_, rfl⟩
  | some p =>
    simp only
    split
    · exact ⟨_, rfl⟩
    · obtain ⟨e, he⟩ := bad p.1
      rw [he]
      exact ⟨_, rfl⟩

/-- **C48** The only exceptions are `ValueError` and, up to 9 numbers, `TypeError`. -/
theorem C48_exceptions (s : List Char) (w h : Int) (e : PyErr) (he : decodeAction s w h = .error e) :
    e = .ValueError ∨ (e = .TypeError ∧ w * h ≤ 9) := by
  have dec : ∀ x e', decode x w h [','] [] = .error e' → e' = .ValueError ∨ (e' = .TypeError ∧ w * h ≤ 9) := by
    intro x e' hx
    rcases C44_exceptions x w h _ _ e' hx with h1 | ⟨h1, _, _, _, h2⟩
    · exact .inl h1
    · exact .inr ⟨h1, h2⟩
  unfold decodeAction at he
  simp only at he
  split at he
  · split at he
    · rename_i h1
      cases he
      exact dec _ _ h1
    · split at he
      · rename_i h2
        cases he
        exact .inl (Py.ints_error h2)
      · cases he
  · split at he
    · split at he
      · rename_i h2
        cases he
        exact .inl (Py.ints_error h2)
      · split at he
        · rename_i h1
          cases he
          exact dec _ _ h1
        · cases he
    · split at he
      · split at he
        · rename_i h2
          cases he
          exact .inl (Py.int_error h2)
        · split at he
          · rename_i h1
            cases he
            exact dec _ _ h1
          · cases he
      · cases he
        exact .inl rfl

/-- **C48** The `TypeError` does occur (it ends the game shell, which catches `ValueError` only). -/
theorem C48_type_error : decodeAction "r=1".toList 3 3 = .error .TypeError ∧
    decodeAction "- r".toList 3 3 = .error .TypeError := by decide +kernel

example : decodeAction " r1c12=5 ".toList 3 3 = .ok (.setNumber [(0, 0), (0, 1)] 5) ∧
    decodeAction "b1p1<>123".toList 3 3 = .ok (.removeCandidates [(0, 0)] [1, 2, 3]) ∧
    decodeAction "-12 r1c1".toList 3 3 = .error .ValueError := by decide +kernel

/-- **C67** `encode_action` never gives a text for an action with integers: `SetNumber` raises, and so does
`RemoveCandidates` unless it has no candidates; then the result is `None`. -/
theorem C67_never (w h : Nat) (hw : 0 < w) (hh : 0 < h) (cs : List (Int × Int)) (hv : Valid w h cs) :
    (∀ v, encodeAction (.setNumber cs (.int v)) w h = .error .TypeError) ∧
    (∀ v vs, encodeAction (.removeCandidates cs ((v :: vs).map Val.int)) w h = .error .TypeError) ∧
    encodeAction (.removeCandidates cs []) w h = .ok none := by
  obtain ⟨rs, bs, h1, h2, h3⟩ := encode_forms hw hh hv [','] []
  have e := h3 none
  refine ⟨fun v => ?_, fun v vs => ?_, ?_⟩ <;> unfold encodeAction <;> simp only <;> rw [e] <;> simp

/-- **C67** No `RemoveCandidates` is ever written, whatever its candidates are (integers, strings or both), and no `SetNumber` with an
integer. -/
theorem C67_only (w h : Int) (action : Actions.Action Val) (s : List Char) (hs : encodeAction action w h = .ok (some s)) :
    ∃ cs t, action = .setNumber cs (.str t) := by
  cases action with
  | setNumber cs v =>
    cases v with
    | str t => exact ⟨cs, t, rfl⟩
    | int v =>
      exfalso
      unfold encodeAction at hs
      simp only at hs
      split at hs <;> cases hs
  | removeCandidates cs vs =>
    exfalso
    unfold encodeAction at hs
    simp only at hs
    split at hs
    · cases hs
    · split at hs <;> cases hs

/-- **C67** Coordinates outside of the grid: `ValueError`. -/
theorem C67_invalid (w h : Nat) (cs : List (Int × Int)) (hv : ¬ Valid w h cs) (v : Val) (vs : List Val) :
    encodeAction (.setNumber cs v) w h = .error .ValueError ∧
    encodeAction (.removeCandidates cs vs) w h = .error .ValueError := by
  have e : encode cs w h none [','] [] = .error .ValueError := (C45_errors w h [','] [] cs none .ValueError).2 ⟨rfl, .inr (.inr (by simpa using hv))⟩
  constructor <;> unfold encodeAction <;> simp only <;> rw [e]

/-- **C67** Only a `SetNumber` holding a string is written, in a form `decode_action` reads back as the number it shows. -/
theorem C67_string (w h : Nat) (hw : 0 < w) (hh : 0 < h) (cs : List (Int × Int)) (hv : Valid w h cs) (h0 : cs ≠ []) (v : Int) :
    ∃ s l, encodeAction (.setNumber cs (.str (Py.intStr v))) w h = .ok (some s) ∧ SortedFields l (Among cs) ∧
      decodeAction s w h = .ok (.setNumber (l.map toPair) v) := by
  obtain ⟨s, l, h1, h2, h3⟩ := C48_set w h hw hh cs hv h0 none v [] [] (by simp) (by simp)
  refine ⟨_, l, ?_, h2, by simpa using h3⟩
  unfold encodeAction
  simp only
  rw [h1]

example : encodeAction (.setNumber [(0, 0)] (.int 5)) 3 3 = .error .TypeError ∧
    encodeAction (.setNumber [(0, 0)] (.str "5".toList)) 3 3 = .ok (some "r1c1=5".toList) ∧
    encodeAction (.removeCandidates [(0, 0)] [.str "5".toList]) 3 3 = .ok none := by decide +kernel

end Props
