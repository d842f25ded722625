import Verif.Proofs.Complaint
import Verif.Props.Generate
import Verif.Props.NotationLanguage
import Verif.Props.SeparatedText

set_option autoImplicit false

/-!
# C110: What the exceptions of the library say

`Model/ErrorText.lean` contains the functions with the texts of their exceptions; `C110_same` says that they are the functions the other theorems are about.
-/

open Spec Spec.Text ErrorText

namespace Props

/-- **C110** Apart from the texts, these are the functions of the other models. -/
theorem C110_same :
    (∀ x w h, forget (theBox x w h) = Coordinates.theBox x w h) ∧ (∀ x w h, forget (theColumn x w h) = Coordinates.theColumn x w h) ∧
    (∀ x w h, forget (thePart x w h) = Coordinates.thePart x w h) ∧ (∀ x w h, forget (theRow x w h) = Coordinates.theRow x w h) ∧
    (∀ π ρ fuel rounds c coords minCount symmetry w h, forget (ErrorText.generate π ρ fuel rounds c coords minCount symmetry w h) =
      Generate.generate π ρ fuel rounds c coords minCount symmetry w h) ∧
    (∀ fuel rounds f template tries, forget (ErrorText.generateFromTemplate fuel rounds f template tries) =
      Generate.generateFromTemplate fuel rounds f template tries) ∧
    (∀ p s, forget (decodeSudoku p s) = Codec.decode p s) ∧
    (∀ cs w h b sep nsep, forget (ErrorText.encode cs w h b sep nsep) = Notation.encode cs w h b sep nsep) ∧
    (∀ s w h sep nsep, forget (ErrorText.decode s w h sep nsep) = Notation.decode s w h sep nsep) ∧
    (∀ s w h, forget (ErrorText.decodeAction s w h) = Notation.decodeAction s w h) :=
  ⟨forget_theBox, forget_theColumn, forget_thePart, forget_theRow, forget_generate,
    fun _ _ _ _ _ => forget_templateLoop _ _ _ _ _ _, forget_decodeSudoku, forget_encode, forget_decode, forget_decodeAction⟩

/-! ## coordinates.py -/

/-- `the_row`, `the_column`, `the_box` or `the_part`. -/
def unitOf : Letter → Int → Nat → Nat → Except Exn (List Cell)
  | .r => theRow
  | .c => theColumn
  | .b => theBox
  | .p => thePart

/-- **C110** (`the_row` etc.) The exception is raised exactly for numbers out of range; the message is repeated `height` times and
names the box width in place of the number of rows. -/
theorem C110_units (l : Letter) (k : Int) (w h : Nat) (e : Exn) : unitOf l k w h = .error e ↔
    ¬ (0 ≤ k ∧ k < (w * h : Nat)) ∧ e = saying (repeated h (lessThan l ++ Py.natStr w)) := by
  cases l
  · show theRow k w h = _ ↔ _
    unfold theRow
    by_cases hk : ¬ (0 ≤ k ∧ k < (w * h : Nat))
    · rw [if_pos hk, unitText_row]
      simp only [valueError, Except.error.injEq, hk, not_false_eq_true, true_and]
      exact eq_comm
    · rw [if_neg hk, Coordinates.theRow, if_neg hk]
      constructor
      · intro hx; cases hx
      · intro hx; exact absurd hx.1 hk
  · show theColumn k w h = _ ↔ _
    unfold theColumn
    by_cases hk : ¬ (0 ≤ k ∧ k < (w * h : Nat))
    · rw [if_pos hk, unitText_col]
      simp only [valueError, Except.error.injEq, hk, not_false_eq_true, true_and]
      exact eq_comm
    · rw [if_neg hk, Coordinates.theColumn, if_neg hk]
      constructor
      · intro hx; cases hx
      · intro hx; exact absurd hx.1 hk
  · show theBox k w h = _ ↔ _
    unfold theBox
    by_cases hk : ¬ (0 ≤ k ∧ k < (w * h : Nat))
    · rw [if_pos hk, unitText_box]
      simp only [valueError, Except.error.injEq, hk, not_false_eq_true, true_and]
      exact eq_comm
    · rw [if_neg hk, Coordinates.theBox, if_neg hk]
      constructor
      · intro hx; cases hx
      · intro hx; exact absurd hx.1 hk
  · show thePart k w h = _ ↔ _
    unfold thePart
    by_cases hk : ¬ (0 ≤ k ∧ k < (w * h : Nat))
    · rw [if_pos hk, unitText_part]
      simp only [valueError, Except.error.injEq, hk, not_false_eq_true, true_and]
      exact eq_comm
    · rw [if_neg hk, Coordinates.thePart, if_neg hk]
      constructor
      · intro hx; cases hx
      · intro hx; exact absurd hx.1 hk

private theorem count_digits (n : Nat) (c : Char) (hc : Py.isDigit c = false) : (Py.natStr n).count c = 0 := by
  rw [List.count_eq_zero]
  intro hm
  rw [Py.natStr_digits n c hm] at hc
  cases hc

/-- **C110** So the message is the one that was meant, with the number of rows, only if the boxes are one row high. -/
theorem C110_units_limit (l : Letter) (w h : Nat) :
    repeated h (lessThan l ++ Py.natStr w) = lessThan l ++ Py.natStr (w * h) ↔ h = 1 := by
  constructor
  · intro he
    have h1 := congrArg (List.count 'm') he
    have h2 : (lessThan l).count 'm' = 1 := by cases l <;> decide
    rw [List.count_append, count_digits _ _ (by decide), h2, repeated, List.count_flatten, List.map_replicate, List.sum_replicate,
      List.count_append, count_digits _ _ (by decide), h2] at h1
    simpa using h1
  · rintro rfl
    simp [repeated]

/-! ## generate.py -/

/-- **C110** (`generate`) Too large a `min_count` is reported first, with the number of fields; then an unknown `symmetry`. -/
theorem C110_generate {w h : Nat} (e : Generate.Env w h) (minCount : Int) (symmetry : Option String) (x : Exn) :
    ErrorText.generate e.π e.ρ e.fuel e.rounds e.c e.coords minCount symmetry w h = .error x ↔
      minCount > ((w * h) ^ 2 : Nat) ∧ x = saying ("min_count must be <= ".toList ++ Py.natStr ((w * h) ^ 2) ++ " (".toList ++
        Py.intStr minCount ++ " was given).".toList) ∨
      minCount ≤ ((w * h) ^ 2 : Nat) ∧ symmetry ∉ symmetries ∧
        x = saying "symmetry must be one of None, rotate-90, rotate-180, mirror-x, mirror-y, mirror-xy".toList := by
  have hl : w ^ 2 * h ^ 2 = (w * h) ^ 2 := (Nat.mul_pow w h 2).symm
  unfold ErrorText.generate
  simp only
  rw [hl]
  by_cases hm : minCount > ((w * h) ^ 2 : Nat)
  · rw [if_pos hm, show Py.intStr (((w * h) ^ 2 : Nat) : Int) = Py.natStr ((w * h) ^ 2) by
      rw [Py.intStr, if_neg (by omega), Int.natAbs_natCast]]
    constructor
    · intro hx
      cases hx
      exact .inl ⟨hm, rfl⟩
    · rintro (⟨-, rfl⟩ | ⟨h1, -⟩)
      · rfl
      · exact absurd hm (not_lt.2 h1)
  · rw [if_neg hm]
    have hm' := not_lt.1 hm
    by_cases hs : symmetry ∈ symmetries
    · obtain ⟨sym, hsym⟩ := (lookup_iff symmetry).2 hs
      rw [hsym]
      obtain ⟨t, ht⟩ := (C39_value_error e minCount symmetry).2 (by
        rintro (h1 | h1)
        · exact hm h1
        · exact h1 hs)
      have ht' : Generate.generate e.π e.ρ e.fuel e.rounds e.c e.coords minCount symmetry w h = .ok (some t) := ht
      simp only
      rw [ht']
      constructor
      · intro hx; cases hx
      · rintro (⟨h1, -⟩ | ⟨-, h1, -⟩)
        · exact absurd h1 hm
        · exact absurd hs h1
    · have hnone : Generate.Sym.lookup symmetry = none := by
        cases hc : Generate.Sym.lookup symmetry with
        | none => rfl
        | some sym => exact absurd ((lookup_iff symmetry).1 ⟨sym, hc⟩) hs
      rw [hnone]
      have htext : "symmetry must be one of ".toList ++ symmetryNames =
          "symmetry must be one of None, rotate-90, rotate-180, mirror-x, mirror-y, mirror-xy".toList := by decide
      simp only
      rw [htext]
      constructor
      · intro hx
        cases hx
        exact .inr ⟨hm', hs, rfl⟩
      · rintro (⟨h1, -⟩ | ⟨-, -, rfl⟩)
        · exact absurd h1 hm
        · rfl

private theorem template_error {template : Sudoku} (e : Generate.TryEnv template) (tries : Int) (rounds t : Nat) (x : Exn)
    (hx : ErrorText.templateLoop e.fuel e.f template tries rounds t = .error x) :
    x = ⟨.RuntimeError, .text ("Failed to generate sudoku from template within ".toList ++ Py.intStr tries ++ " tries.".toList)⟩ := by
  induction rounds generalizing t with
  | zero => cases hx
  | succ rounds ih =>
    rw [ErrorText.templateLoop] at hx
    split at hx
    · obtain ⟨sol, hsol, hp, -⟩ := Generate.createSolution_spec (e.hcreate t) (e.hchoices t) e.hf
      rw [hsol] at hx
      simp only at hx
      obtain ⟨b, hb, -⟩ := Props.C22_is_unique (e.f t).unique (e.hunique t) e.fuel (Generate.mask template sol.copy) (by
        refine lt_of_le_of_lt (Generate.length_empty_le _) ?_
        have hw : (Generate.mask template sol.copy).bw = template.bw := by
          rw [Generate.copy_plain hp, Generate.mask_eq]; exact hp.1
        have hh : (Generate.mask template sol.copy).bh = template.bh := by
          rw [Generate.copy_plain hp, Generate.mask_eq]; exact hp.2.1
        rw [hw, hh]
        exact e.hf)
      rw [hb] at hx
      cases b with
      | true => cases hx
      | false => exact ih _ hx
    · cases hx
      rfl

/-- **C110** (`generate_from_template`) Every exception is the one that tells the number of tries. -/
theorem C110_template (template : Sudoku) (e : Generate.TryEnv template) (rounds : Nat) (tries : Int) (x : Exn)
    (hx : ErrorText.generateFromTemplate e.fuel rounds e.f template tries = .error x) :
    x = ⟨.RuntimeError, .text ("Failed to generate sudoku from template within ".toList ++ Py.intStr tries ++ " tries.".toList)⟩ :=
  template_error e tries rounds 0 x hx

/-! ## Sudoku.decode -/

open Codec in
theorem decodeSudoku_chars {p : Args} {e : Char} (hp : Standard p e) {s : List Char} (hs : Ordinary s) (hb : '|' ∉ s) :
    decodeSudoku p s = match ErrorText.boxFor p (visible s) with
      | .error er => .error er
      | .ok (w, h) => ErrorText.readNumbers p ((visible s).map fun c => [c]) 0 0 (Sudoku.new w h) := by
  unfold decodeSudoku
  have hrs : removeSpace p (Py.strip s) = visible s := by
    rw [removeSpace_filter p hp.numberSep ?_, filter_strip hs]
    · rfl
    · intro c hc hm
      unfold special at hm
      rw [hp.empty, hp.sudokuSep, hp.candidateSep, hp.numberSep] at hm
      simp only [List.append_nil, List.cons_append, List.nil_append, List.mem_cons, List.not_mem_nil, or_false] at hm
      rcases hm with rfl | rfl | rfl
      · exact hp.visible hc
      · exact absurd hc (by decide)
      · exact absurd hc (by decide)
  have hparts : parts p (visible s) = .ok (visible s, []) := by
    unfold parts
    rw [hp.sudokuSep, Py.cut_none (s := visible s) fun h => hb (List.mem_filter.1 h).1]
  rw [hrs, hparts]
  simp only
  cases ErrorText.boxFor p (visible s) with
  | error er => rfl
  | ok b =>
    obtain ⟨w, h⟩ := b
    simp only
    rw [items_chars hp.numberSep]
    simp only
    cases ErrorText.readNumbers p ((visible s).map fun c => [c]) 0 0 (Sudoku.new w h) <;> rfl

private theorem natStr_eq (n : Nat) : Py.natStr n = Py.intStr n := by
  rw [Py.intStr, if_neg (by omega), Int.natAbs_natCast]

open Codec in
/-- **C110** (`Sudoku.decode` without box size) The number of visible characters is reported if it is no square, the row length if it is a
prime number. -/
theorem C110_size (p : Args) (e : Char) (hp : Standard p e) (hbox : p.boxSize = none) (s : List Char) (hs : Ordinary s) (hb : '|' ∉ s) :
    ((∀ m, (visible s).length ≠ m * m) → decodeSudoku p s =
      .error (saying ("Invalid number of fields given (must be square number): ".toList ++ Py.natStr (visible s).length))) ∧
    (∀ m, (visible s).length = m * m → m.Prime → decodeSudoku p s = .error (saying ("Invalid row length: ".toList ++ Py.natStr m))) := by
  rw [decodeSudoku_chars hp hs hb]
  have hbf : ErrorText.boxFor p (visible s) = ErrorText.guessBox (visible s).length := by
    unfold ErrorText.boxFor
    rw [hbox]
    simp only
    rw [items_chars hp.numberSep]
    simp
  rw [hbf]
  generalize (visible s).length = k
  constructor
  · intro hno
    unfold ErrorText.guessBox
    rw [if_neg fun h => hno _ h.symm]
    rfl
  · rintro m rfl hm
    have hg := guessBox_rect (m := m) (by
      rintro j rfl
      exact Nat.not_prime_mul (fun h => by subst h; exact absurd hm (by decide))
        (fun h => by subst h; exact absurd hm (by decide)) hm)
    rw [if_pos hm] at hg
    unfold ErrorText.guessBox
    unfold Codec.guessBox at hg
    rw [Nat.sqrt_eq] at hg ⊢
    simp only [if_true] at hg ⊢
    split at hg
    · cases hg
    · rename_i h1
      rw [if_neg h1]
      split at hg
      · rename_i h2
        rw [if_pos h2]
        rfl
      · cases hg

open Codec in
private theorem readNumbers_first (p : Args) {w h : Nat} (hN : 0 < w * h) (l : List (List Char)) (i : Nat) (hi : i < l.length)
    (hlt : i < (w * h) ^ 2) (x : Exn) (hbad : ErrorText.itemNumber p l[i] = .error x)
    (hfirst : ∀ j (hj : j < l.length), j < i → ∃ v, ErrorText.itemNumber p l[j] = .ok v) :
    ErrorText.readNumbers p l 0 0 (Sudoku.new w h) = .error x := by
  have key : ∀ (l : List (List Char)) (k i : Nat) (s : Sudoku), s.n = w * h → k + i < (w * h) * (w * h) → ∀ hi : i < l.length,
      ErrorText.itemNumber p l[i] = .error x → (∀ j (hj : j < l.length), j < i → ∃ v, ErrorText.itemNumber p l[j] = .ok v) →
      ErrorText.readNumbers p l (k / (w * h)) (k % (w * h)) s = .error x := by
    intro l
    induction l with
    | nil => intro k i s _ _ hi; simp at hi
    | cons y l ih =>
      intro k i s hs hk hi hbad hfirst
      rw [ErrorText.readNumbers]
      cases i with
      | zero =>
        rw [List.getElem_cons_zero] at hbad
        rw [hbad]
      | succ i =>
        obtain ⟨v, hv⟩ := hfirst 0 (by simp) (by omega)
        rw [List.getElem_cons_zero] at hv
        rw [hv]
        simp only
        have hk1 : k < (w * h) * (w * h) := by omega
        obtain ⟨h1, h2⟩ : k / (w * h) < s.n ∧ k % (w * h) < s.n := by
          rw [hs]
          exact ⟨Nat.div_lt_of_lt_mul hk1, Nat.mod_lt _ hN⟩
        rw [if_pos ⟨h1, h2⟩]
        have hs' : (s.setNumber (k / (w * h), k % (w * h)) v).n = w * h := hs
        rw [hs', (next_pos hk1).1, (next_pos hk1).2, if_neg (mt (next_end hk1).1 (by omega))]
        exact ih (k + 1) i _ hs' (by omega) (by simpa using hi) (by simpa using hbad) fun j hj hji =>
          hfirst (j + 1) (Nat.succ_lt_succ hj) (by omega)
  have := key l 0 i (Sudoku.new w h) rfl (by rw [Nat.zero_add, ← Nat.pow_two]; exact hlt) hi hbad hfirst
  rwa [Nat.zero_div, Nat.zero_mod] at this

open Codec in
/-- **C110** (`Sudoku.decode` with box size) The first visible character that stands for no number is reported by `int`, if it belongs to a field. -/
theorem C110_number (p : Args) (e : Char) (hp : Standard p e) (w h : Nat) (hN : 0 < w * h) (hbox : p.boxSize = some (w, h))
    (s : List Char) (hs : Ordinary s) (hb : '|' ∉ s) (i : Nat) (hi : i < (visible s).length) (hlt : i < (w * h) ^ 2)
    (hbad : charValue e (visible s)[i] = none) (hfirst : ∀ j (hj : j < (visible s).length), j < i → charValue e (visible s)[j] ≠ none) :
    decodeSudoku p s = .error ⟨.ValueError, .badInt [(visible s)[i]]⟩ := by
  rw [decodeSudoku_chars hp hs hb]
  unfold ErrorText.boxFor
  rw [hbox]
  simp only
  apply readNumbers_first p hN _ i (by simpa using hi) hlt
  · rw [List.getElem_map]
    have h1 := itemNumber_char hp (visible s)[i]
    rw [hbad, ← forget_itemNumber] at h1
    revert h1
    unfold ErrorText.itemNumber ErrorText.int
    split
    · intro h1; cases h1
    · cases Py.int [(visible s)[i]] with
      | ok v => intro h1; cases h1
      | error er =>
        intro h1
        have h2 : er = .ValueError := by
          simpa [forget] using h1
        rw [h2]
  · intro j hj hji
    rw [List.getElem_map]
    have hj' : j < (visible s).length := by simpa using hj
    have h1 := itemNumber_char hp (visible s)[j]
    have h2 := hfirst j hj' hji
    cases hv : charValue e (visible s)[j] with
    | none => exact absurd hv h2
    | some v =>
      rw [hv, ← forget_itemNumber] at h1
      exact ⟨v, forget_ok h1⟩

/-! ## notation.encode -/

/-- **C110** (`encode`) The sizes are checked first, then the first pair that is no field of the sudoku is reported. -/
theorem C110_encode (cs : List (Int × Int)) (w h : Int) (b : Option Bool) (sep nsep : List Char) (e : Exn) :
    ErrorText.encode cs w h b sep nsep = .error e ↔
      (w < 1 ∨ h < 1) ∧ e = saying "width and height must be >= 1.".toList ∨
      ¬ (w < 1 ∨ h < 1) ∧ ∃ as r c bs, cs = as ++ (r, c) :: bs ∧ (∀ a ∈ as, (0 ≤ a.1 ∧ a.1 < w * h) ∧ (0 ≤ a.2 ∧ a.2 < w * h)) ∧
        ¬ ((0 ≤ r ∧ r < w * h) ∧ (0 ≤ c ∧ c < w * h)) ∧
        e = saying ("Invalid coordinates (".toList ++ Py.intStr r ++ ", ".toList ++ Py.intStr c ++ ") for width = ".toList ++
          Py.intStr w ++ ", height = ".toList ++ Py.intStr h ++ ".".toList) := by
  unfold ErrorText.encode checkSize
  by_cases hwh : w < 1 ∨ h < 1
  · rw [if_pos hwh]
    simp only [valueError, Except.error.injEq, hwh, true_and, not_true_eq_false, false_and, or_false]
    exact eq_comm
  · rw [if_neg hwh]
    simp only [hwh, false_and, false_or, not_false_eq_true, true_and]
    obtain ⟨m, rfl⟩ : ∃ m : Nat, w = m := ⟨w.toNat, by omega⟩
    obtain ⟨k, rfl⟩ : ∃ k : Nat, h = k := ⟨h.toNat, by omega⟩
    simp only [Int.toNat_natCast]
    have key : ∀ (cs : List (Int × Int)) (rows boxes : Notation.Dict), ErrorText.collect m k cs rows boxes = .error e ↔
        ∃ as r c bs, cs = as ++ (r, c) :: bs ∧ (∀ a ∈ as, (0 ≤ a.1 ∧ a.1 < (m : Int) * k) ∧ (0 ≤ a.2 ∧ a.2 < (m : Int) * k)) ∧
        ¬ ((0 ≤ r ∧ r < (m : Int) * k) ∧ (0 ≤ c ∧ c < (m : Int) * k)) ∧
        e = saying ("Invalid coordinates (".toList ++ Py.intStr r ++ ", ".toList ++ Py.intStr c ++ ") for width = ".toList ++
          Py.intStr m ++ ", height = ".toList ++ Py.intStr k ++ ".".toList) := by
      intro cs
      induction cs with
      | nil => intro rows boxes; simp [ErrorText.collect]
      | cons a cs ih =>
        intro rows boxes
        obtain ⟨r, c⟩ := a
        rw [ErrorText.collect]
        have hcast : ((m * k : Nat) : Int) = (m : Int) * k := by push_cast; rfl
        rw [hcast]
        by_cases hbad : ¬ (0 ≤ r ∧ r < (m : Int) * k) ∨ ¬ (0 ≤ c ∧ c < (m : Int) * k)
        · rw [if_pos hbad, natStr_eq, natStr_eq]
          constructor
          · intro hx
            cases hx
            exact ⟨[], r, c, cs, rfl, by simp, fun hg => hbad.elim (· hg.1) (· hg.2), rfl⟩
          · rintro ⟨as, r', c', bs, h1, h2, h3, rfl⟩
            rcases as with _ | ⟨a, as⟩
            · cases h1; rfl
            · cases h1
              exact absurd (h2 (r, c) (by simp)) fun hg => hbad.elim (· hg.1) (· hg.2)
        · rw [if_neg hbad]
          simp only
          have hok : (0 ≤ r ∧ r < (m : Int) * k) ∧ (0 ≤ c ∧ c < (m : Int) * k) := by
            simpa only [not_or, not_not] using hbad
          rw [ih]
          constructor
          · rintro ⟨as, r', c', bs, rfl, h2, h3, h4⟩
            exact ⟨(r, c) :: as, r', c', bs, rfl, fun a ha => by
              rcases List.mem_cons.1 ha with rfl | ha
              · exact hok
              · exact h2 a ha, h3, h4⟩
          · rintro ⟨as, r', c', bs, h1, h2, h3, h4⟩
            rcases as with _ | ⟨a, as⟩
            · cases h1
              exact absurd hok h3
            · cases h1
              exact ⟨as, r', c', bs, rfl, fun a ha => h2 a (List.mem_cons_of_mem _ ha), h3, h4⟩
    rw [← key cs [] []]
    cases ErrorText.collect m k cs [] [] with
    | error e' => simp
    | ok v =>
      obtain ⟨rows, boxes⟩ := v
      simp only
      constructor
      · intro hx
        split at hx
        · split at hx <;> cases hx
        · cases hx
        · cases hx
      · intro hx; cases hx

/-! ## notation.decode -/

/-- **C110** (`decode`) An exception is raised exactly if there is a complaint about one of the groups; it is the complaint about the first
group that is not accepted.  (`Complaint`, in `ErrorSpec.lean`, lists what can be wrong with a group and what is said then.) -/
theorem C110_decode (w h : Nat) (hw : 0 < w) (hh : 0 < h) (sep nsep : List Char) (h0 : sep ≠ [])
    (hs : ∀ l : Letter, l.char ∉ sep) (hn : NumSepOk nsep) (h1 : nsep.length ≤ 1) (s : List Char) (hsp : ¬ Py.whitespace <:+: s)
    (e : Exn) : ErrorText.decode s w h sep nsep = .error e ↔
      ∃ as g bs, s = Py.join sep (as ++ g :: bs) ∧ Groups sep (as ++ g :: bs) ∧
        (∀ a ∈ as, ∃ g', a = writtenText (between w h nsep) g' ∧ Accepted w h (between w h nsep) g') ∧
        Complaint w h (between w h nsep) g e :=
  decode_error_iff hw hh h0 hs hn h1 hsp e

/-- **C110** (`decode`) The groups of a text are determined by the text, and there is at most one complaint about a group. -/
theorem C110_unique (w h : Nat) (n sep : List Char) (hn : NumSepOk n) (h1 : n.length ≤ 1) (hs : ∀ l : Letter, l.char ∉ sep) :
    (∀ gs gs' : List (List Char), Groups sep gs → Groups sep gs' → Py.join sep gs = Py.join sep gs' → gs = gs') ∧
    (∀ g e e', Complaint w h n g e → Complaint w h n g e' → e = e') := by
  constructor
  · intro gs gs' hg hg' hj
    rw [← Notation.splitGroups_groups hs hg, hj, Notation.splitGroups_groups hs hg']
  · intro g e e' hc hc'
    have h2 := complaint_error hn h1 hc
    rw [complaint_error hn h1 hc'] at h2
    cases h2
    rfl

/-- **C110** (`decode`) The sizes are checked first. -/
theorem C110_decode_size (w h : Int) (hwh : w < 1 ∨ h < 1) (s sep nsep : List Char) :
    ErrorText.decode s w h sep nsep = .error (saying "width and height must be >= 1.".toList) := by
  unfold ErrorText.decode checkSize
  rw [if_pos hwh]
  rfl

/-- **C110** (`decode_action`) A text without leading `-`, without `<>` and without `=` is quoted, without the blanks around it. -/
theorem C110_action (s : List Char) (w h : Int) (h1 : (Py.strip s).head? ≠ some '-') (h2 : ¬ ['<', '>'] <:+: Py.strip s)
    (h3 : '=' ∉ Py.strip s) :
    ErrorText.decodeAction s w h = .error (saying ("Cannot decode action '".toList ++ Py.strip s ++ "'".toList)) := by
  unfold ErrorText.decodeAction
  simp only
  rw [if_neg, cut_of_not_infix (by simp) h2, Py.cut_none h3]
  · rfl
  · rw [List.isPrefixOf_iff_prefix]
    rintro ⟨t, ht⟩
    rw [← ht] at h1
    exact h1 rfl

private theorem cut_arrow {s : List Char} (h : ¬ ['<', '>'] <:+: s ++ ['<']) (t : List Char) : Py.cut ['<', '>'] (s ++ '<' :: '>' :: t) = some (s, t) := by
  induction s with
  | nil => rw [List.nil_append, Py.cut, if_pos (by simp)]; rfl
  | cons c s ih =>
    rw [List.cons_append, Py.cut, if_neg, ih fun hs => h (hs.trans (List.suffix_cons c _).isInfix)]
    rw [List.isPrefixOf_iff_prefix]
    rintro ⟨r, hr⟩
    cases s with
    | nil => cases hr
    | cons d s =>
      simp only [List.cons_append, List.nil_append, List.cons.injEq] at hr
      obtain ⟨rfl, rfl, -⟩ := hr
      exact h (List.IsPrefix.isInfix ⟨s ++ ['<'], by simp⟩)

private theorem int_char_bad {c : Char} (h : Py.decimal c = none) : ErrorText.int [c] = .error ⟨.ValueError, .badInt [c]⟩ := by
  unfold ErrorText.int
  rw [Py.int_char, h]

private theorem ints_bad (as bs : List Char) (c : Char) (ha : ∀ a ∈ as, Py.decimal a ≠ none) (hc : Py.decimal c = none) :
    ErrorText.ints ((as ++ c :: bs).map fun c => [c]) = .error ⟨.ValueError, .badInt [c]⟩ := by
  induction as with
  | nil =>
    rw [List.nil_append, List.map_cons, ErrorText.ints, int_char_bad hc]
  | cons a as ih =>
    obtain ⟨k, hk⟩ := Option.ne_none_iff_exists'.1 (ha a (by simp))
    rw [List.cons_append, List.map_cons, ErrorText.ints, ih fun b hb => ha b (by simp [hb])]
    unfold ErrorText.int
    rw [Py.int_char, hk]

private theorem ints_good (as : List Char) (ha : ∀ a ∈ as, Py.decimal a ≠ none) : ∃ vs, ErrorText.ints (as.map fun c => [c]) = .ok vs := by
  induction as with
  | nil => exact ⟨[], rfl⟩
  | cons a as ih =>
    obtain ⟨k, hk⟩ := Option.ne_none_iff_exists'.1 (ha a (by simp))
    obtain ⟨vs, hvs⟩ := ih fun b hb => ha b (by simp [hb])
    refine ⟨k :: vs, ?_⟩
    rw [List.map_cons, ErrorText.ints, hvs]
    unfold ErrorText.int
    rw [Py.int_char, hk]

private theorem not_minus {t : List Char} (h1 : t.head? ≠ some '-') : ¬ (['-'].isPrefixOf t = true) := by
  rw [List.isPrefixOf_iff_prefix]
  rintro ⟨u, rfl⟩
  exact h1 rfl

/-- **C110** (`decode_action`) A text that begins with `-` is always refused: with the complaint of `decode` about what follows the first blank,
or else (since `-` is read as one of the candidates) with that of `int('-')`. -/
theorem C110_action_minus (s left right : List Char) (w h : Int) (hl : ' ' ∉ left)
    (hs : Py.strip s = '-' :: left ++ ' ' :: right ∨ Py.strip s = '-' :: left ∧ right = []) :
    ErrorText.decodeAction s w h = match ErrorText.decode right w h [','] [] with
      | .error e => .error e
      | .ok _ => .error ⟨.ValueError, .badInt ['-']⟩ := by
  have hl' : ' ' ∉ '-' :: left := by simp [hl]
  have hbad : ErrorText.ints (('-' :: left).map fun c => [c]) = .error ⟨.ValueError, .badInt ['-']⟩ :=
    ints_bad [] left '-' (by simp) (by decide)
  unfold ErrorText.decodeAction
  rcases hs with hs | ⟨hs, rfl⟩
  · simp only [hs]
    rw [if_pos (by simp), Py.cut_some hl']
    simp only [hbad]
    cases ErrorText.decode right w h [','] [] <;> rfl
  · simp only [hs]
    rw [if_pos (by simp), Py.cut_none hl']
    simp only [hbad]
    cases ErrorText.decode [] w h [','] [] <;> rfl

/-- **C110** (`decode_action`) In a text with `<>` the first character behind it that is no digit is reported; if there is none, the exception is that of
`decode` for the coordinates. -/
theorem C110_action_remove (s left right : List Char) (w h : Int) (h1 : (Py.strip s).head? ≠ some '-')
    (hs : Py.strip s = left ++ '<' :: '>' :: right) (hf : ¬ ['<', '>'] <:+: left ++ ['<']) :
    (∀ as c bs, right = as ++ c :: bs → (∀ a ∈ as, Py.decimal a ≠ none) → Py.decimal c = none →
      ErrorText.decodeAction s w h = .error ⟨.ValueError, .badInt [c]⟩) ∧
    ((∀ c ∈ right, Py.decimal c ≠ none) → ∀ e, ErrorText.decodeAction s w h = .error e ↔ ErrorText.decode left w h [','] [] = .error e) := by
  have key : ErrorText.decodeAction s w h = match ErrorText.ints (right.map fun c => [c]) with
      | .error e => .error e
      | .ok candidates => match ErrorText.decode left w h [','] [] with
        | .error e => .error e
        | .ok coordinates => .ok (.removeCandidates (coordinates.map Notation.toPair) candidates) := by
    unfold ErrorText.decodeAction
    simp only
    rw [if_neg (not_minus h1), hs, cut_arrow hf]
    rfl
  rw [key]
  refine ⟨fun as c bs hr ha hc => ?_, fun hr e => ?_⟩
  · rw [hr, ints_bad as bs c ha hc]
  · obtain ⟨vs, hvs⟩ := ints_good right hr
    rw [hvs]
    simp only
    cases ErrorText.decode left w h [','] [] <;> simp

/-- **C110** (`decode_action`) In a text with `=` (and without `<>`) what follows the first `=` is reported if it is no integer; otherwise the exception is that of
`decode` for the coordinates. -/
theorem C110_action_set (s left right : List Char) (w h : Int) (h1 : (Py.strip s).head? ≠ some '-') (h2 : ¬ ['<', '>'] <:+: Py.strip s)
    (hs : Py.strip s = left ++ '=' :: right) (hf : '=' ∉ left) :
    ((∀ n, Py.int right ≠ .ok n) → ErrorText.decodeAction s w h = .error ⟨.ValueError, .badInt right⟩) ∧
    ((∃ n, Py.int right = .ok n) → ∀ e, ErrorText.decodeAction s w h = .error e ↔ ErrorText.decode left w h [','] [] = .error e) := by
  have key : ErrorText.decodeAction s w h = match ErrorText.int right with
      | .error e => .error e
      | .ok number => match ErrorText.decode left w h [','] [] with
        | .error e => .error e
        | .ok coordinates => .ok (.setNumber (coordinates.map Notation.toPair) number) := by
    unfold ErrorText.decodeAction
    simp only
    rw [if_neg (not_minus h1), cut_of_not_infix (by simp) h2, hs, Py.cut_some hf]
    rfl
  rw [key]
  unfold ErrorText.int
  refine ⟨fun hr => ?_, fun ⟨n, hn⟩ e => ?_⟩
  · cases hi : Py.int right with
    | ok n => exact absurd hi (hr n)
    | error er =>
      have := Py.int_error hi
      rw [this]
  · rw [hn]
    simp only
    cases ErrorText.decode left w h [','] [] <;> simp

/-! ## Concrete cases -/

/-- The exception that is raised, if any. -/
def raised {α : Type} : Except Exn α → Option Exn
  | .error e => some e
  | .ok _ => none

/-- `decode_action` of texts that are refused, one for each kind: the right number, but the minus sign is read as a candidate; a candidate, a number,
coordinates that cannot be read. -/
example : raised (ErrorText.decodeAction "-4 r1c1".toList 3 3) = some ⟨.ValueError, .badInt ['-']⟩ ∧
    raised (ErrorText.decodeAction " r1c1<>4-7".toList 3 3) = some ⟨.ValueError, .badInt ['-']⟩ ∧
    raised (ErrorText.decodeAction "r1c1 = four ".toList 3 3) = some ⟨.ValueError, .badInt " four".toList⟩ ∧
    raised (ErrorText.decodeAction "r1x=4".toList 3 3) = raised (ErrorText.decode "r1x".toList 3 3 [','] []) := by decide +kernel

example := C110_action_minus "-4 r1c1".toList "4".toList "r1c1".toList 3 3 (by decide) (.inl (by decide +kernel))
example := C110_action_remove " r1c1<>4-7".toList "r1c1".toList "4-7".toList 3 3 (by decide +kernel) (by decide +kernel) (by decide +kernel)
example := C110_action_set "r1c1 = four ".toList "r1c1 ".toList " four".toList 3 3 (by decide +kernel) (by decide +kernel) (by decide +kernel) (by decide)

/-- `the_row(9, 3, 3)`: the message is written three times, with 3 as the limit. -/
example : unitOf .r 9 3 3 = .error (saying ("row must be less equal 0 and less than 3row must be less equal 0 and less than 3" ++
    "row must be less equal 0 and less than 3").toList) := by decide +kernel

/-- `the_part(-1, 2, 1)`: the message that was meant. -/
example : unitOf .p (-1) 2 1 = .error (saying "part must be less equal 0 and less than 2".toList) := by decide +kernel

example (w h : Nat) (e : Generate.Env w h) (hw : w = 3) (hh : h = 3) :
    ErrorText.generate e.π e.ρ e.fuel e.rounds e.c e.coords 100 none w h =
      .error (saying "min_count must be <= 81 (100 was given).".toList) := by
  subst hw hh
  exact (C110_generate e 100 none _).2 (.inl ⟨by decide, by decide +kernel⟩)

example (w h : Nat) (e : Generate.Env w h) (hw : w = 3) (hh : h = 3) :
    ErrorText.generate e.π e.ρ e.fuel e.rounds e.c e.coords 17 (some "rotate") w h =
      .error (saying "symmetry must be one of None, rotate-90, rotate-180, mirror-x, mirror-y, mirror-xy".toList) := by
  subst hw hh
  exact (C110_generate e 17 (some "rotate") _).2 (.inr ⟨by decide, by decide, rfl⟩)

/-- No tries at all. -/
example (template : Sudoku) (e : Generate.TryEnv template) : ErrorText.generateFromTemplate e.fuel 1 e.f template 0 =
    .error ⟨.RuntimeError, .text "Failed to generate sudoku from template within 0 tries.".toList⟩ := by
  unfold ErrorText.generateFromTemplate ErrorText.templateLoop
  have : "Failed to generate sudoku from template within ".toList ++ Py.intStr 0 ++ " tries.".toList =
      "Failed to generate sudoku from template within 0 tries.".toList := by decide +kernel
  simp only [Nat.cast_zero, lt_irrefl, or_self, if_false, this]

open Codec in
example : raised (decodeSudoku (standardArgs '0' none) "123 456 7890".toList) =
    some (saying "Invalid number of fields given (must be square number): 10".toList) := by decide +kernel

open Codec in
example : raised (decodeSudoku (standardArgs '0' none) "123 456 789".toList) = some (saying "Invalid row length: 3".toList) := by
  decide +kernel

open Codec in
example : raised (decodeSudoku (standardArgs '0' (some (2, 2))) "12 a4 b".toList) = some ⟨.ValueError, .badInt ['a']⟩ := by decide +kernel

example : ErrorText.encode [(0, 8), (3, -1), (9, 9)] 3 3 none [','] [] =
    .error (saying "Invalid coordinates (3, -1) for width = 3, height = 3.".toList) := by decide +kernel

/-- The groups of `r1c1,2x,r9,rr` are `r1c1,2x`, `r9` and `rr`. -/
example : Notation.splitGroups [','] "r1c1,2x,r9,rr".toList = ["r1c1,2x".toList, "r9".toList, "rr".toList] := by decide +kernel

example : ErrorText.decode "r1c1,2x,r9,rr".toList 3 3 [','] [] =
    .error (saying "Malformed group 'r1c1,2x'. Illegal character ','.".toList) := by decide +kernel

example : ErrorText.decode "r1c1,".toList 3 3 [';'] [','] = .error ⟨.ValueError, .badInt []⟩ := by decide +kernel

example : ErrorText.decode "r1c1,rb1".toList 3 3 [','] [] =
    .error (saying "Malformed group 'rb1'. No numbers given for 'r'".toList) := by decide +kernel

example : ErrorText.decode "r1c1,r1c1r2".toList 3 3 [','] [] =
    .error (saying "Malformed group 'r1c1r2'. 'r' has multiple occurrences.".toList) := by decide +kernel

example : ErrorText.decode "1r".toList 3 3 [','] [] =
    .error (saying "Malformed group '1r'. '1' is illegal at this position.".toList) := by decide +kernel

example : ErrorText.decode [] 3 3 [','] [] = .error (saying "Empty group ''".toList) := by decide +kernel

/-- A column and a row out of range: the row is reported. -/
example : ErrorText.decode "c5r5".toList 2 2 [','] [] =
    .error (saying "row must be less equal 0 and less than 2row must be less equal 0 and less than 2".toList) := by decide +kernel

example : ErrorText.decode "r".toList 3 3 [','] [] = .error ⟨.TypeError, .builtin⟩ := by decide +kernel

/-- The conditions on a group that is not finished. -/
example : Opening [] [(.r, [['1'], ['2']])] .c ['3'] ∧ openingText [] [(.r, [['1'], ['2']])] .c ['3'] = "r12c3".toList :=
  ⟨⟨by unfold Numerals; decide, by simp [Tidy], by decide⟩, by decide⟩

example : ErrorText.decodeAction " r1c1 : 5 ".toList 3 3 = .error (saying "Cannot decode action 'r1c1 : 5'".toList) := by decide +kernel

end Props
