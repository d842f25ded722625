import Verif.Props.Arguments
import Verif.Props.ErrorText

set_option autoImplicit false

/-!
# C112: What the shell says when a function of the library refuses its arguments

`error i e s` is the state `s` with `e` added to the errors; the line written to stderr is `e.line`, and a shell that is not interactive ends with status 1.
-/

open Spec

namespace Props

open Shell Codec

variable {ν ω : Type} {lib : Lib Sudoku ν ω} {val : Val → ν} {π : Solve.SetOrder} {fuel : Nat}

/-- The text `t` is written to stderr after "Error: ", and nothing else happens (but maybe to the random number generator, `u`); a shell that is not
interactive ends with status 1. -/
def Complains (lib : Lib Sudoku ν ω) (i : Bool) (line : List Char) (s : State Sudoku ν ω) (t : List Char) : Prop :=
  ∃ (e : Err) (u : ω), e.line = some ("Error: ".toList ++ t ++ "\n".toList) ∧
    executeLine lib i line s = ({ s with world := u, errors := s.errors ++ [e] }, if i then none else some (.exit 1))

/-- **C112** Whatever `Sudoku.decode` complains about is passed on by `decode "t"`, and the current sudoku and the stack stay. -/
theorem C112_decode (hr : Real lib val π fuel) (i : Bool) (s : State Sudoku ν ω) (hl : s.loopN = none) (t : List Char) (ht : Quoted t)
    (box : Option (Nat × Nat)) (e : ErrorText.Exn) (he : ErrorText.decodeSudoku (standardArgs '0' box) t = .error e) :
    executeLine lib i (decodeLine t box) s = error i (.exn e.cls e.why) s := by
  obtain ⟨items, h1, h2, h3⟩ := decode_call hr t ht box
  rw [h1]
  have h0 := (item_execute hr i "decode" .decode rfl (by simp) items h2 s hl).trans (library lib i ⟨.decode, _, _⟩ (by simp) s)
  simp only [Name.takesSudoku, Bool.false_eq_true, if_false, h3, he] at h0
  exact h0

private theorem space_white : ∀ c ∈ Py.whitespace, Py.isSpace c = true := by decide

private theorem word_visible {t : List Char} (ht : Word t) : Ordinary t ∧ visible t = t := by
  constructor
  · intro c hc h
    rw [(ht c hc).1] at h; cases h
  · unfold visible
    rw [List.filter_eq_self]
    intro c hc
    rw [decide_eq_true_eq]
    intro h
    have := space_white c h
    rw [(ht c hc).1] at this; cases this

private theorem standard (box : Option (Nat × Nat)) : Standard (standardArgs '0' box) '0' :=
  standardArgs_ok '0' (by decide) (by decide) (by decide) box

/-- **C112** `decode "t"` with a number of fields that is no square, or with a prime number of fields in a row. -/
theorem C112_size (hr : Real lib val π fuel) (i : Bool) (s : State Sudoku ν ω) (hl : s.loopN = none) (t : List Char) (ht : Quoted t) (hb : '|' ∉ t) :
    ((∀ m, t.length ≠ m * m) → Complains lib i ("decode \"".toList ++ t ++ ['"']) s
      ("Invalid number of fields given (must be square number): ".toList ++ Py.natStr t.length)) ∧
    (∀ m, t.length = m * m → m.Prime → Complains lib i ("decode \"".toList ++ t ++ ['"']) s ("Invalid row length: ".toList ++ Py.natStr m)) := by
  obtain ⟨ho, hv⟩ := word_visible ht.2.1
  have h1 := C110_size (standardArgs '0' none) '0' (standard none) rfl t ho hb
  rw [hv] at h1
  exact ⟨fun h => ⟨_, s.world, rfl, C112_decode hr i s hl t ht none _ (h1.1 h)⟩, fun m hm hp => ⟨_, s.world, rfl, C112_decode hr i s hl t ht none _ (h1.2 m hm hp)⟩⟩

private theorem given_box {t : List Char} (ho : Ordinary t) (hb : '|' ∉ t) (m : Nat) (hm : (visible t).length = m * m * (m * m)) :
    ErrorText.decodeSudoku (standardArgs '0' none) t = ErrorText.decodeSudoku (standardArgs '0' (some (m, m))) t := by
  have hread : ∀ (l : List (List Char)) row col (u : Sudoku), ErrorText.readNumbers (standardArgs '0' (some (m, m))) l row col u =
      ErrorText.readNumbers (standardArgs '0' none) l row col u := by
    intro l
    induction l with
    | nil => intros; rfl
    | cons x l ih =>
      intro row col u
      simp only [ErrorText.readNumbers, ih]
      rfl
  rw [decodeSudoku_chars (standard none) ho hb, decodeSudoku_chars (standard _) ho hb]
  have h2 : ErrorText.boxFor (standardArgs '0' none) (visible t) = .ok (m, m) := by
    apply ErrorText.forget_ok
    rw [ErrorText.forget_boxFor]
    unfold Codec.boxFor Codec.items
    simp only [standardArgs, ne_eq, not_true_eq_false, if_false, List.length_map, hm]
    exact guessBox_square m
  rw [h2]
  simp only [hread]
  rfl

/-- **C112** `decode "t"` with a character that is no digit. -/
theorem C112_digit (hr : Real lib val π fuel) (i : Bool) (s : State Sudoku ν ω) (hl : s.loopN = none) (t : List Char) (ht : Quoted t) (hb : '|' ∉ t)
    (box : Option (Nat × Nat)) (w h : Nat) (hN : 0 < w * h) (hbox : box = some (w, h) ∨ box = none ∧ w = h ∧ t.length = (w * h) ^ 2)
    (k : Nat) (hk : k < t.length) (hlt : k < (w * h) ^ 2) (hbad : Py.decimal t[k] = none)
    (hfirst : ∀ j (hj : j < t.length), j < k → Py.decimal t[j] ≠ none) :
    Complains lib i (decodeLine t box) s ("invalid literal for int() with base 10: ".toList ++ pyRepr [t[k]]) := by
  obtain ⟨ho, hv⟩ := word_visible ht.2.1
  have hz : ∀ c : Char, charValue '0' c = none ↔ Py.decimal c = none := by
    intro c
    unfold charValue
    by_cases hc : c = '0'
    · subst hc; decide
    · rw [if_neg hc, Option.map_eq_none_iff]
  have key : ErrorText.decodeSudoku (standardArgs '0' (some (w, h))) t = .error ⟨.ValueError, .badInt [t[k]]⟩ := by
    have := C110_number (standardArgs '0' (some (w, h))) '0' (standard _) w h hN rfl t ho hb k (by rw [hv]; exact hk) hlt
      (by rw [hz]; simpa only [hv] using hbad) (by
        intro j hj hjk
        rw [Ne, hz]
        simpa only [hv] using hfirst j (by rw [hv] at hj; exact hj) hjk)
    simpa only [hv] using this
  have key' : ErrorText.decodeSudoku (standardArgs '0' box) t = .error ⟨.ValueError, .badInt [t[k]]⟩ := by
    rcases hbox with rfl | ⟨rfl, rfl, hlen⟩
    · exact key
    · rw [given_box ho hb w (by rw [hv, hlen, Nat.pow_two])]; exact key
  refine ⟨_, s.world, ?_, C112_decode hr i s hl t ht box _ key'⟩
  have h200 : (pyRepr [t[k]]).take 200 = pyRepr [t[k]] := by
    apply List.take_of_length_le
    unfold pyRepr reprChar
    simp only [List.flatMap_cons, List.flatMap_nil, List.append_nil]
    split_ifs <;> simp
  show some _ = _
  rw [h200]
  simp only [List.append_assoc]
  rfl

/-- **C112** `generate` with arguments it refuses (by position or by name, in any order) says what is wrong. -/
theorem C112_generate (hr : Real lib val π fuel) (hg : RealGenerate lib val) (i : Bool) (s : State Sudoku ν ω) (hl : s.loopN = none)
    (items : List Item) (hi : ∀ x ∈ items, x.Ok) (m : Int) (sym : Option String) (kind : Kind) (hk : kind ≠ .set) (w h : Nat) (hw : 0 < w) (hh : 0 < h)
    (hb : LineBinds .generate items [.value (.int m), .value (symmetryValue sym), .value (.ints kind [(w : Int), h])]) :
    (m > ((w * h) ^ 2 : Nat) → Complains lib i (itemText "generate" items) s
      ("min_count must be <= ".toList ++ Py.natStr ((w * h) ^ 2) ++ " (".toList ++ Py.intStr m ++ " was given).".toList)) ∧
    (m ≤ ((w * h) ^ 2 : Nat) → sym ∉ symmetries → Complains lib i (itemText "generate" items) s
      "symmetry must be one of None, rotate-90, rotate-180, mirror-x, mirror-y, mirror-xy".toList) := by
  constructor
  · intro hm
    obtain ⟨u, hu⟩ := C83_error hr hg i s hl items hi m sym kind hk w h hw hh hb (.inl hm)
    refine ⟨_, u, ?_, hu⟩
    unfold generateMessage
    rw [if_pos hm]
    rfl
  · intro hm hs
    obtain ⟨u, hu⟩ := C83_error hr hg i s hl items hi m sym kind hk w h hw hh hb (.inr hs)
    refine ⟨_, u, ?_, hu⟩
    unfold generateMessage
    rw [if_neg (by omega)]
    rfl

/-- **C112** `generate_from_template` says how often it tried, if it did not succeed. -/
theorem C112_template (hr : Real lib val π fuel) (hg : RealGenerate lib val) (i : Bool) (s : State Sudoku ν ω) (hs : Separate s) (hl : s.loopN = none)
    (items : List Item) (hi : ∀ x ∈ items, x.Ok) (tries : Int) (ht : 0 ≤ tries) (hb : LineBinds .generateFromTemplate items [.value (.int tries)])
    (hw : 0 < (s.sudoku lib).bw) (hh : 0 < (s.sudoku lib).bh)
    (hno : ¬ ∃ t, executeLine lib i (itemText "generate_from_template" items) s = (t, none) ∧ Matches (s.sudoku lib) (t.sudoku lib)) :
    Complains lib i (itemText "generate_from_template" items) s
      ("Failed to generate sudoku from template within ".toList ++ Py.intStr tries ++ " tries.".toList) := by
  rcases C83_template hr hg i s hs hl items hi tries ht hb hw hh with ⟨t, h1, h2, -⟩ | ⟨u, hu⟩
  · exact absurd ⟨t, h1, h2⟩ hno
  · exact ⟨_, u, rfl, hu⟩

/-! ## Samples -/

private def sorted' : Solve.SetOrder := fun _ S => Solvers.sortSet S
private def real' : Lib Sudoku Val Unit := demoGenerate sorted' 100
private def lines (l : List String) : List (Option (List Char)) :=
  (seq (executeLine real' true) (l.map String.toList) (init real' true ())).1.errors.map Err.line

example : lines ["decode \"12345\"", "decode \"123412341\"", "decode \"1x34\" box_size=(2,1)", "decode \"1'34\" box_size=2,1", "new 3",
      "generate 100", "generate symmetry=\"diagonal\"", "generate_from_template 0"] =
    [some "Error: Invalid number of fields given (must be square number): 5\n".toList,
     some "Error: Invalid row length: 3\n".toList,
     some "Error: invalid literal for int() with base 10: 'x'\n".toList,
     some "Error: invalid literal for int() with base 10: \"'\"\n".toList,
     none,
     some "Error: min_count must be <= 81 (100 was given).\n".toList,
     some "Error: symmetry must be one of None, rotate-90, rotate-180, mirror-x, mirror-y, mirror-xy\n".toList,
     some "Error: Failed to generate sudoku from template within 0 tries.\n".toList] := by decide +kernel

example : Quoted "1x34".toList ∧ Quoted "12345".toList ∧ (∀ m, 5 ≠ m * m) := by
  refine ⟨⟨?_, ?_, by decide⟩, ⟨?_, ?_, by decide⟩, ?_⟩
  · simp [Quotable]
  · simp [Word]; decide
  · simp [Quotable]
  · simp [Word]; decide
  · intro m h
    have h1 : m < 3 := by
      by_contra hm
      have : 3 * 3 ≤ m * m := Nat.mul_le_mul (by omega) (by omega)
      omega
    have : m = 0 ∨ m = 1 ∨ m = 2 := by omega
    rcases this with rfl | rfl | rfl <;> omega

end Props
