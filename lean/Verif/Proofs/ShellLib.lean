import Verif.Model.ShellLib
import Verif.Proofs.Strings

set_option autoImplicit false

/-!
# Lemmas about Python values and the library functions of the shell
-/

open Spec

namespace Shell

/-! ## literals -/

theorem litInt_intStr (k : Int) : litInt (Py.intStr k) = some k := by
  unfold litInt
  rw [Py.int_intStr]
  simp

theorem litAll_map (ks : List Int) : litAll (ks.map Py.intStr) = some ks := by
  induction ks with
  | nil => rfl
  | cons k ks ih => rw [List.map_cons, litAll, litInt_intStr, ih]

theorem int_no {d : Char} (h1 : Py.isDigit d = false) (h2 : d ≠ '-') (k : Int) : d ∉ Py.intStr k := by
  intro hm
  rcases Py.intStr_chars k d hm with h | h
  · rw [h1] at h; cases h
  · exact h2 h

/-- Integers separated by commas. -/
def commaText (ks : List Int) : List Char := Py.join [','] (ks.map Py.intStr)

theorem commaText_chars (ks : List Int) {c : Char} (h : c ∈ commaText ks) : Py.isDigit c = true ∨ c = '-' ∨ c = ',' := by
  rcases Py.mem_join h with h | ⟨x, hx, h⟩
  · simp at h; exact .inr (.inr h)
  · obtain ⟨k, _, rfl⟩ := List.mem_map.1 hx
    rcases Py.intStr_chars k c h with h | h
    · exact .inl h
    · exact .inr (.inl h)

theorem commaText_ne {ks : List Int} (h : ks ≠ []) : commaText ks ≠ [] := by
  intro h0
  cases ks with
  | nil => exact h rfl
  | cons k ks =>
    cases ks with
    | nil => exact Py.intStr_ne_nil k h0
    | cons l ks => 
      unfold commaText at h0
      simp [Py.join] at h0

theorem litInts_comma (ks : List Int) : litInts (commaText ks) = some ks := by
  unfold litInts
  by_cases h : ks = []
  · subst h; rfl
  rw [if_neg (commaText_ne h)]
  have := Py.split_join (sep := [',']) (by simp) (l := ks.map Py.intStr) (by simpa using h) (by
    intro x hx c hc hm
    obtain ⟨k, _, rfl⟩ := List.mem_map.1 hx
    simp only [List.mem_cons, List.not_mem_nil, or_false] at hm
    subst hm
    exact int_no (d := ',') (by decide) (by decide) k hc)
  unfold Py.split at this
  rw [if_neg (by simp)] at this
  rw [show commaText ks = Py.join [','] (ks.map Py.intStr) from rfl, Except.ok.inj this, litAll_map]

theorem inside_none {a b : Char} {t : List Char} (h : ∀ c ∈ t.head?, c ≠ a) : inside a b t = none := by
  cases t with
  | nil => rfl
  | cons c r => 
    show (if _ then _ else _) = _
    rw [if_neg]
    exact fun hc => h c rfl hc.1

theorem litStr_none {q : Char} {t : List Char} (h : ∀ c ∈ t.head?, c ≠ q) : litStr q t = none := by
  unfold litStr
  rw [inside_none h]

theorem litColl_none {a b : Char} {k : Kind} {n : Nat} {t : List Char} (h : ∀ c ∈ t.head?, c ≠ a) : litColl a b k n t = none := by
  unfold litColl
  rw [inside_none h]

theorem inside_some (a b : Char) (t : List Char) : inside a b (a :: (t ++ [b])) = some t := by
  simp [inside]

/-- A text whose first character is none that begins another kind of literal. -/
theorem literal_comma (ks : List Int) (h : ks ≠ []) : literalEval (commaText ks) =
    match ks with | [k] => some (.int k) | _ => some (.ints .tuple ks) := by
  have hh : ∀ c ∈ (commaText ks).head?, Py.isDigit c = true ∨ c = '-' ∨ c = ',' := fun c hc => commaText_chars ks (List.mem_of_mem_head? hc)
  have hd : ∀ d : Char, Py.isDigit d = false → d ≠ '-' → d ≠ ',' → ∀ c ∈ (commaText ks).head?, c ≠ d := by
    rintro d h1 h2 h3 c hc rfl
    rcases hh c hc with h | h | h
    · rw [h1] at h; cases h
    · exact h2 h
    · exact h3 h
  have hne : ∀ l : List Char, (∀ c ∈ l.head?, Py.isDigit c = false ∧ c ≠ '-' ∧ c ≠ ',') → l ≠ [] → commaText ks ≠ l := by
    rintro l h1 h2 rfl
    cases hk : commaText ks with
    | nil => exact h2 hk
    | cons c t =>
      obtain ⟨h3, h4, h5⟩ := h1 c (by rw [hk]; rfl)
      exact hd c h3 h4 h5 c (by rw [hk]; rfl) rfl
  unfold literalEval
  rw [if_neg (hne _ (by simp; decide) (by decide)), if_neg (hne _ (by simp; decide) (by decide)), if_neg (hne _ (by simp; decide) (by decide)),
    litStr_none (hd _ (by decide) (by decide) (by decide)), litStr_none (hd _ (by decide) (by decide) (by decide)),
    litColl_none (hd _ (by decide) (by decide) (by decide)), litColl_none (hd _ (by decide) (by decide) (by decide)),
    litColl_none (hd _ (by decide) (by decide) (by decide)), litInts_comma]
  cases ks with
  | nil => exact absurd rfl h
  | cons k ks => cases ks <;> rfl

theorem literal_int (k : Int) : literalEval (Py.intStr k) = some (.int k) := literal_comma [k] (by simp)

/-- Integers in brackets. -/
theorem literal_tuple (ks : List Int) (h : 2 ≤ ks.length) : literalEval ('(' :: (commaText ks ++ [')'])) = some (.ints .tuple ks) := by
  unfold literalEval
  rw [if_neg (by simp), if_neg (by simp), if_neg (by simp), litStr_none (by simp), litStr_none (by simp)]
  unfold litColl
  rw [inside_some]
  simp only
  rw [litInts_comma]
  simp only
  rw [if_pos h]

theorem literal_list (ks : List Int) : literalEval ('[' :: (commaText ks ++ [']'])) = some (.ints .list ks) := by
  unfold literalEval
  rw [if_neg (by simp), if_neg (by simp), if_neg (by simp), litStr_none (by simp), litStr_none (by simp), litColl_none (by simp)]
  unfold litColl
  rw [inside_some]
  simp only
  rw [litInts_comma]
  simp only
  rw [if_pos (Nat.zero_le _)]

theorem literal_set (ks : List Int) (h : ks ≠ []) : literalEval ('{' :: (commaText ks ++ ['}'])) = some (.ints .set ks) := by
  unfold literalEval
  rw [if_neg (by simp), if_neg (by simp), if_neg (by simp), litStr_none (by simp), litStr_none (by simp), litColl_none (by simp), litColl_none (by simp)]
  unfold litColl
  rw [inside_some]
  simp only
  rw [litInts_comma]
  simp only
  rw [if_pos (show 1 ≤ ks.length from List.length_pos_iff.2 h)]

/-- A text that can be written between the quotation marks `q`. -/
def Quotable (q : Char) (t : List Char) : Prop := ∀ c ∈ t, c ≠ q ∧ c ≠ '\\' ∧ c ≠ '\n' ∧ c ≠ '\r' ∧ c.toNat ≠ 0

theorem litStr_some {q : Char} {t : List Char} (h : Quotable q t) : litStr q (q :: (t ++ [q])) = some t := by
  unfold litStr
  rw [inside_some]
  simp only
  rw [if_pos]
  rw [List.all_eq_true]
  intro c hc
  obtain ⟨h1, h2, h3, h4, h5⟩ := h c hc
  simp [h1, h2, h3, h4, h5]

theorem literal_str {q : Char} (hq : q = '"' ∨ q = '\'') {t : List Char} (h : Quotable q t) :
    literalEval (q :: (t ++ [q])) = some (.str t) := by
  unfold literalEval
  rcases hq with rfl | rfl
  · rw [if_neg (by simp), if_neg (by simp), if_neg (by simp), litStr_some h]
  · rw [if_neg (by simp), if_neg (by simp), if_neg (by simp), litStr_none (by simp), litStr_some h]

/-! ## The library -/

section
variable {ν ω : Type} {lib : Lib Sudoku ν ω} {val : Val → ν} {π : Solve.SetOrder} {fuel : Nat}

namespace Real

theorem literal (hr : Real lib val π fuel) (k : Int) : lib.literal (Py.intStr k) = .ok (val (.int k)) := hr.literal' _ _ (literal_int k)

theorem toInt (hr : Real lib val π fuel) (k : Int) : lib.toInt (val (.int k)) = .ok k := hr.toInt' _

theorem isNone (hr : Real lib val π fuel) (k : Int) : lib.isNone (val (.int k)) = false := by rw [hr.isNone']; rfl

theorem isEnd (hr : Real lib val π fuel) (k : Int) : lib.isEnd (val (.int k)) = false := hr.isEnd' _

theorem get (hr : Real lib val π fuel) (r c : Int) (x : Sudoku) (u : ω) : lib.call .get (intArgs val [r, c]) [] x u =
    (x, u, match Actions.locate x (r, c) with | .ok _ => .ok .other | .error e => .error ⟨e, .builtin⟩) := by
  refine (hr.call .get [.value (.int r), .value (.int c)] [] x u _ _ _ rfl rfl rfl).trans ?_
  cases Actions.locate x (r, c) <;> rfl

theorem getCandidates (hr : Real lib val π fuel) (r c : Int) (x : Sudoku) (u : ω) : lib.call .getCandidates (intArgs val [r, c]) [] x u =
    (x, u, match Actions.locate x (r, c) with | .ok _ => .ok .other | .error e => .error ⟨e, .builtin⟩) := by
  refine (hr.call .getCandidates [.value (.int r), .value (.int c)] [] x u _ _ _ rfl rfl rfl).trans ?_
  cases Actions.locate x (r, c) <;> rfl

theorem set (hr : Real lib val π fuel) (r c v : Int) (x : Sudoku) (u : ω) : lib.call .set (intArgs val [r, c, v]) [] x u =
    match Actions.locate x (r, c) with | .ok a => (x.setNumber a v, u, .ok .none) | .error e => (x, u, .error ⟨e, .builtin⟩) := by
  refine (hr.call .set [.value (.int r), .value (.int c), .value (.int v)] [] x u _ _ _ rfl rfl rfl).trans ?_
  cases Actions.locate x (r, c) <;> rfl

theorem initCandidates (hr : Real lib val π fuel) (x : Sudoku) (u : ω) :
    lib.call .initCandidates [] [] x u = (Solve.initCandidates x, u, .ok .none) :=
  hr.call .initCandidates [] [] x u _ _ _ rfl rfl rfl

theorem encode (hr : Real lib val π fuel) (x : Sudoku) (u : ω) :
    lib.call .encode [] [] x u = (x, u, .ok (.text (Codec.encode x [] [] false))) :=
  hr.call .encode [] [] x u _ _ _ rfl rfl rfl

theorem print (hr : Real lib val π fuel) (x : Sudoku) (u : ω) : lib.call .print [] [] x u = (x, u, ErrorText.builtin (ofText (Codec.str x))) :=
  hr.call .print [] [] x u _ _ _ rfl rfl rfl

theorem view (hr : Real lib val π fuel) (x : Sudoku) (u : ω) : lib.call .view [] [] x u = (x, u, ErrorText.builtin (ofText (Codec.view x true ['*'] true))) :=
  hr.call .view [] [] x u _ _ _ rfl rfl rfl

theorem solve (hr : Real lib val π fuel) (x : Sudoku) (u : ω) : lib.call .solve [] [] x u = (x, u, match Solve.bruteforce π fuel x with
    | none => .error ⟨.RecursionError, .builtin⟩
    | some [] => .error ⟨.StopIteration, .builtin⟩
    | some (t :: _) => .ok (.sudoku t)) := by
  refine (hr.call .solve [] [] x u _ _ _ rfl rfl rfl).trans ?_
  cases Solve.bruteforce π fuel x with
  | none => rfl
  | some l => cases l <;> rfl

end Real

theorem RealGenerate.generate (hg : RealGenerate lib val) (m : Option Int) (u : ω) : ∃ (e : Generate.Env 3 3) (u' : ω),
    lib.create .generate (intArgs val m.toList) [] u = (u', ofGenerated (ErrorText.envGenerate e (m.getD 0) none)) := by
  cases m with
  | none => exact hg.generate' [] [] u _ _ _ _ _ rfl rfl
  | some m => exact hg.generate' [.value (.int m)] [] u _ _ _ _ _ rfl rfl

end

end Shell
