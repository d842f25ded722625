import Verif.Props.ShellLib

set_option autoImplicit false

/-!
# C107: What the shell tells about commands it cannot read

All this holds for any state of the shell, also while a loop is defined.  `executeLine` returns what `error i (.message t) s` returns: the line `Error: t` is
written to stderr, nothing else changes, and a shell that is not interactive ends with status 1.
-/

namespace Props

open Shell

section
variable {σ ν ω : Type}

/-! ## Reading string literals -/

/-- The value of a hexadecimal digit. -/
def hexValue (c : Char) : Option Nat :=
  if '0' ≤ c ∧ c ≤ '9' then some (c.toNat - 48) else if 'a' ≤ c ∧ c ≤ 'f' then some (c.toNat - 87) else none

/-- What a backslash and a character mean within a string literal (as far as needed). -/
def escaped (c : Char) : Option Char :=
  if c = 't' then some '\t' else if c = 'n' then some '\n' else if c = 'r' then some '\r'
  else if c = '\\' ∨ c = '\'' ∨ c = '"' then some c else none

/-- A string literal after its first quotation mark `q`, up to the second one (which has to be the last character). -/
def literalRest (q : Char) : List Char → Option (List Char)
  | [] => none
  | '\\' :: 'x' :: a :: b :: r => match hexValue a, hexValue b with
    | some x, some y => (literalRest q r).map (Char.ofNat (16 * x + y) :: ·)
    | _, _ => none
  | '\\' :: c :: r => match escaped c with
    | some d => (literalRest q r).map (d :: ·)
    | none => none
  | c :: r => if c = q then (if r = [] then some [] else none) else (literalRest q r).map (c :: ·)

/-- The value of a Python string literal. -/
def literalValue : List Char → Option (List Char)
  | '"' :: r => literalRest '"' r
  | '\'' :: r => literalRest '\'' r
  | _ => none

/-- A character that can be written as it is. -/
def Printable (c : Char) : Prop := 32 ≤ c.toNat ∧ c.toNat ≠ 127

private theorem hex_value : ∀ n < 128, hexValue (hexDigit (n / 16)) = some (n / 16) ∧ hexValue (hexDigit (n % 16)) = some (n % 16) ∧
    Printable (hexDigit (n / 16)) ∧ Printable (hexDigit (n % 16)) := by
  unfold Printable
  decide

private theorem rest_char (q c : Char) (hq : q = '"' ∨ q = '\'') (r : List Char) :
    literalRest q (reprChar q c ++ r) = (literalRest q r).map (c :: ·) ∧ ∀ d ∈ reprChar q c, Printable d := by
  unfold reprChar
  split
  · rename_i h
    have hc : c = '"' ∨ c = '\'' ∨ c = '\\' := by
      rcases h with h | h
      · rcases hq with hq | hq
        · exact .inl (h.trans hq)
        · exact .inr (.inl (h.trans hq))
      · exact .inr (.inr h)
    refine ⟨?_, ?_⟩
    · rcases hc with rfl | rfl | rfl <;> rfl
    · rcases hc with rfl | rfl | rfl <;> simp [Printable]
  · rename_i h
    split
    · rename_i h1
      subst h1
      exact ⟨rfl, by simp [Printable]⟩
    · split
      · rename_i h1
        subst h1
        exact ⟨rfl, by simp [Printable]⟩
      · split
        · rename_i h1
          subst h1
          exact ⟨rfl, by simp [Printable]⟩
        · split
          · rename_i h2
            have hn : c.toNat < 128 := by omega
            obtain ⟨v1, v2, p1, p2⟩ := hex_value c.toNat hn

            constructor
            · show literalRest q ('\\' :: 'x' :: hexDigit (c.toNat / 16) :: hexDigit (c.toNat % 16) :: r) = _
              rw [literalRest, v1, v2]
              simp only
              rw [Nat.div_add_mod, Char.ofNat_toNat]
            · intro d hd
              simp only [List.mem_append, List.mem_cons, List.not_mem_nil, or_false] at hd
              rcases hd with hd | rfl | rfl
              · have : ∀ d ∈ "\\x".toList, Printable d := by unfold Printable; decide
                exact this d hd
              · exact p1
              · exact p2
          · rename_i h2
            constructor
            · rw [List.singleton_append, literalRest]
              · rw [if_neg fun e => h (.inl e)]
              · rintro a b r' rfl
                exact fun _ => h (.inr rfl)
              · rintro d r' rfl
                exact fun _ => h (.inr rfl)
            · intro d hd
              rw [List.mem_singleton] at hd
              subst hd
              unfold Printable
              omega

/-- `repr` of a string is a literal of this string, without control characters. -/
theorem reprStr_value (t : List Char) : literalValue (pyRepr t) = some t ∧ ∀ c ∈ pyRepr t, Printable c := by
  have key : ∀ q : Char, q = '"' ∨ q = '\'' →
      literalRest q (t.flatMap (reprChar q) ++ [q]) = some t ∧ ∀ c ∈ q :: t.flatMap (reprChar q) ++ [q], Printable c := by
    intro q hq
    have hp : Printable q := by rcases hq with rfl | rfl <;> (unfold Printable; decide)
    constructor
    · induction t with
      | nil => rcases hq with rfl | rfl <;> rfl
      | cons c t ih => rw [List.flatMap_cons, List.append_assoc, (rest_char q c hq _).1, ih]; rfl
    · intro c hc
      simp only [List.cons_append, List.mem_cons, List.mem_append, List.mem_flatMap, List.not_mem_nil, or_false] at hc
      rcases hc with rfl | ⟨d, _, hd⟩ | rfl
      · exact hp
      · exact (rest_char q d hq []).2 c hd
      · exact hp
  unfold pyRepr
  split
  · exact ⟨(key '"' (.inl rfl)).1, (key '"' (.inl rfl)).2⟩
  · exact ⟨(key '\'' (.inr rfl)).1, (key '\'' (.inr rfl)).2⟩

/-! ## Lines -/

/-- A command as it is typed: its words are separated by single blanks, and there is no white space around it. -/
structure Typed (line w : List Char) (items : List (List Char)) : Prop where
  text : line = Py.join [' '] (w :: items)
  words : ∀ x ∈ w :: items, ' ' ∉ x ∧ ';' ∉ x
  first : ∀ c, line.head? = some c → Py.isSpace c = false
  last : ∀ c, line.getLast? = some c → Py.isSpace c = false

/-- An argument that can be read: a literal, the name of a command, `end`, or `name=` with a literal. -/
def Readable (lib : Lib σ ν ω) (x : List Char) : Prop :=
  ('=' ∉ x ∧ ((∃ p ∈ commands, p.1 = x) ∨ x = "end".toList ∨ ∃ v, lib.literal x = .ok v)) ∨
  ∃ name value v, x = name ++ '=' :: value ∧ '=' ∉ name ∧ lib.literal value = .ok v

/-- An argument that cannot be read, because `value` is no literal. -/
def Unreadable (lib : Lib σ ν ω) (x value : List Char) : Prop :=
  lib.literal value = .error .syntaxOrValue ∧
  (('=' ∉ x ∧ x = value ∧ (∀ p ∈ commands, p.1 ≠ x) ∧ x ≠ "end".toList) ∨ ∃ name, x = name ++ '=' :: value ∧ '=' ∉ name)

private theorem command_some {x : List Char} : (command? x).isSome = true ↔ ∃ p ∈ commands, p.1 = x := by
  unfold command?
  simp

private theorem items_readable (lib : Lib σ ν ω) (items rest : List (List Char)) (h : ∀ x ∈ items, Readable lib x) (args : List (Arg ν))
    (kwargs : List (List Char × ν)) : ∃ args' kwargs', parseItems lib (items ++ rest) args kwargs = parseItems lib rest args' kwargs' := by
  induction items generalizing args kwargs with
  | nil => exact ⟨args, kwargs, rfl⟩
  | cons x items ih =>
    have ih := ih fun y hy => h y (by simp [hy])
    rw [List.cons_append, parseItems]
    rcases h x (by simp) with ⟨h1, h2⟩ | ⟨name, value, v, rfl, h1, h2⟩
    · rw [Py.cut_none h1]
      simp only
      by_cases hc : (command? x).isSome = true
      · rw [if_pos hc]; exact ih _ _
      · rw [if_neg hc]
        by_cases hk : x ∈ keywords
        · rw [if_pos hk]; exact ih _ _
        · rw [if_neg hk]
          rcases h2 with h2 | h2 | ⟨v, h2⟩
          · exact absurd (command_some.2 h2) hc
          · exact absurd (by rw [h2]; simp [keywords]) hk
          · rw [h2]; exact ih _ _
    · rw [Py.cut_some h1]
      simp only
      rw [h2]
      exact ih _ _

private theorem items_unreadable (lib : Lib σ ν ω) (x value : List Char) (rest : List (List Char)) (h : Unreadable lib x value) (args : List (Arg ν))
    (kwargs : List (List Char × ν)) : parseItems lib (x :: rest) args kwargs = .error (.invalid value) := by
  obtain ⟨h0, h | ⟨name, rfl, h1⟩⟩ := h
  · obtain ⟨h1, rfl, h2, h3⟩ := h
    rw [parseItems, Py.cut_none h1]
    simp only
    rw [if_neg (fun hc => by obtain ⟨p, hp, he⟩ := command_some.1 hc; exact h2 p hp he), if_neg (by simp [keywords]; exact h3), h0]
    rfl
  · rw [parseItems, Py.cut_some h1]
    simp only
    rw [h0]
    rfl

private theorem typed_words {line w : List Char} {items : List (List Char)} (h : Typed line w items) :
    Py.splitGo [' '] (Py.strip line) 0 [] = w :: items ∧ ';' ∉ line := by
  have h1 : Py.strip line = line := Py.stripBy_ends h.first h.last
  constructor
  · rw [h1, h.text]
    have := Py.split_join (sep := [' ']) (by simp) (l := w :: items) (by simp) (by
      intro x hx c hc
      simp only [List.mem_cons, List.not_mem_nil, or_false]
      rintro rfl
      exact (h.words x hx).1 hc)
    simpa [Py.split] using this
  · rw [h.text]
    intro hm
    rcases Py.mem_join hm with hm | ⟨x, hx, hm⟩
    · simp at hm
    · exact (h.words x hx).2 hm

private theorem unknown_line (lib : Lib σ ν ω) (i : Bool) {line w : List Char} {items : List (List Char)} (h : Typed line w items)
    (hi : ∀ x ∈ items, Readable lib x) (hw : ∀ p ∈ commands, p.1 ≠ w) (s : State σ ν ω) :
    executeLine lib i line s = error i (.message (unknownMessage w)) s := by
  obtain ⟨h1, h2⟩ := typed_words h
  rw [line_part lib i h2]
  unfold executePart executePartWith parse
  rw [h1]
  simp only
  obtain ⟨a, k, h3⟩ := items_readable lib items [] hi [] []
  rw [List.append_nil] at h3
  rw [h3, parseItems]
  simp only
  have : command? w = none := by
    cases hc : command? w with
    | none => rfl
    | some n =>
      obtain ⟨p, hp, he⟩ := command_some.1 (by rw [hc]; rfl)
      exact absurd he (hw p hp)
  rw [this]

/-- **C107** The name of a command that does not exist is shown; the whole message in double quotation marks. -/
theorem C107_unknown (lib : Lib σ ν ω) (i : Bool) (line w : List Char) (items : List (List Char)) (h : Typed line w items)
    (hi : ∀ x ∈ items, Readable lib x) (hw : ∀ p ∈ commands, p.1 ≠ w) (hc : ∀ c ∈ w, Printable c ∧ c ≠ '"' ∧ c ≠ '\\') (s : State σ ν ω) :
    executeLine lib i line s =
      error i (.message ("\"Unknown command: ".toList ++ w ++ ". Type 'help' for a list of commands.\"".toList)) s := by
  rw [unknown_line lib i h hi hw]
  have e : unknownMessage w = "\"Unknown command: ".toList ++ w ++ ". Type 'help' for a list of commands.\"".toList := by
    unfold unknownMessage pyRepr
    have plain : ∀ l : List Char, (∀ c ∈ l, Printable c ∧ c ≠ '"' ∧ c ≠ '\\') → l.flatMap (reprChar '"') = l := by
      intro l hl
      induction l with
      | nil => rfl
      | cons c l ih =>
        obtain ⟨⟨p1, p2⟩, p3, p4⟩ := hl c (by simp)
        have : reprChar '"' c = [c] := by
          unfold reprChar
          rw [if_neg (by simp [p3, p4]), if_neg (by rintro rfl; revert p1; decide), if_neg (by rintro rfl; revert p1; decide),
            if_neg (by rintro rfl; revert p1; decide), if_neg (by omega)]
        rw [List.flatMap_cons, this, ih fun d hd => hl d (by simp [hd])]
        rfl
    have k1 : ∀ c ∈ "Unknown command: ".toList, Printable c ∧ c ≠ '"' ∧ c ≠ '\\' := by unfold Printable; decide
    have k2 : ∀ c ∈ ". Type 'help' for a list of commands.".toList, Printable c ∧ c ≠ '"' ∧ c ≠ '\\' := by unfold Printable; decide
    have all : ∀ c ∈ "Unknown command: ".toList ++ w ++ ". Type 'help' for a list of commands.".toList, Printable c ∧ c ≠ '"' ∧ c ≠ '\\' := by
      intro c hm
      rcases List.mem_append.1 hm with hm | hm
      · rcases List.mem_append.1 hm with hm | hm
        · exact k1 c hm
        · exact hc c hm
      · exact k2 c hm
    rw [if_pos]
    · simp only
      rw [plain _ all]
      have e1 : "\"Unknown command: ".toList = '"' :: "Unknown command: ".toList := by decide
      have e2 : ". Type 'help' for a list of commands.\"".toList = ". Type 'help' for a list of commands.".toList ++ ['"'] := by decide
      rw [e1, e2]
      simp only [List.cons_append, List.append_assoc]
    · refine ⟨List.mem_append_right _ (by decide), fun hm => (all _ hm).2.1 rfl⟩
  rw [e]

/-- **C107** Whatever its characters are, the message is a string literal with the name, without control characters; so different names can be told apart. -/
theorem C107_any_name (lib : Lib σ ν ω) (i : Bool) (line w : List Char) (items : List (List Char)) (h : Typed line w items)
    (hi : ∀ x ∈ items, Readable lib x) (hw : ∀ p ∈ commands, p.1 ≠ w) (s : State σ ν ω) :
    ∃ t, executeLine lib i line s = error i (.message t) s ∧
      literalValue t = some ("Unknown command: ".toList ++ w ++ ". Type 'help' for a list of commands.".toList) ∧ ∀ c ∈ t, Printable c :=
  ⟨_, unknown_line lib i h hi hw s, (reprStr_value _).1, (reprStr_value _).2⟩

/-- **C107** The value of the first argument that cannot be read is shown, even if there is no such command. -/
theorem C107_argument (lib : Lib σ ν ω) (i : Bool) (line w x value : List Char) (items more : List (List Char))
    (h : Typed line w (items ++ x :: more)) (hi : ∀ y ∈ items, Readable lib y) (hx : Unreadable lib x value) (s : State σ ν ω) :
    executeLine lib i line s =
      error i (.message ("Invalid argument: ".toList ++ value ++ " (Did you forget quotation marks?)".toList)) s := by
  obtain ⟨h1, h2⟩ := typed_words h
  rw [line_part lib i h2]
  unfold executePart executePartWith parse
  rw [h1]
  simp only
  obtain ⟨a, k, h3⟩ := items_readable lib items (x :: more) hi [] []
  rw [h3, items_unreadable lib x value more hx]
  simp only
  unfold invalidMessage
  rw [List.append_assoc ("Invalid argument: ".toList ++ value)]
  rfl

/-- **C107** A line that ends with a semicolon has, at the end, a command without a name, which is an error. -/
theorem C107_semicolon (lib : Lib σ ν ω) (i : Bool) (line : List Char) (s : State σ ν ω) :
    executeLine lib i (line ++ [';']) s = match executeLine lib i line s with
      | (t, none) => error i (.message "\"Unknown command: . Type 'help' for a list of commands.\"".toList) t
      | r => r := by
  have h := C107_unknown lib i [] [] [] ⟨rfl, by simp, by simp, by simp⟩ (by simp) (by decide) (by simp)
  unfold executeLine at h ⊢
  rw [show line ++ [';'] = line ++ ';' :: [] from rfl, splitGo_semicolon, seq_append]
  cases seq (executePart lib i) (Py.splitGo [';'] line 0 []) s with
  | mk t o =>
    cases o with
    | some g => rfl
    | none => exact h t

end

/-! ## Samples -/

private def demo' : Lib Sudoku Val Unit := demo (fun _ S => Solvers.sortSet S) 100
private def start : State Sudoku Val Unit := init demo' true ()
private def typed (l : String) : List Err := (executeLine demo' true l.toList start).1.errors
private def spoken (l : String) : Err := .message l.toList

-- an unknown command with arguments that can be read
example : Typed "sovle 5 end x=(2,3) push".toList "sovle".toList ["5".toList, "end".toList, "x=(2,3)".toList, "push".toList] :=
  ⟨by decide, by decide, by decide, by decide⟩
example : ∀ x ∈ ["5".toList, "end".toList, "x=(2,3)".toList, "push".toList], Readable demo' x := by
  intro x hx
  simp only [List.mem_cons, List.not_mem_nil, or_false] at hx
  rcases hx with rfl | rfl | rfl | rfl
  · exact .inl ⟨by decide, .inr (.inr ⟨.int 5, by decide +kernel⟩)⟩
  · exact .inl ⟨by decide, .inr (.inl rfl)⟩
  · exact .inr ⟨['x'], "(2,3)".toList, .ints .tuple [2, 3], rfl, by decide, by decide +kernel⟩
  · exact .inl ⟨by decide, .inl ⟨("push".toList, .push), by decide, rfl⟩⟩
example : typed "sovle 5 end x=(2,3) push" = [spoken "\"Unknown command: sovle. Type 'help' for a list of commands.\""] := by decide +kernel
-- quotation marks and control characters
example : typed "a\"b" = [spoken "'Unknown command: a\"b. Type \\'help\\' for a list of commands.'"] := by decide +kernel
example : typed "a\tb\x1b\\c" = [spoken "\"Unknown command: a\\tb\\x1b\\\\c. Type 'help' for a list of commands.\""] := by decide +kernel
-- arguments that cannot be read; the command need not exist
example : Unreadable demo' "x=three".toList "three".toList := ⟨by decide +kernel, .inr ⟨['x'], rfl, by decide⟩⟩
example : typed "sovle 5 x=three y" = [spoken "Invalid argument: three (Did you forget quotation marks?)"] := by decide +kernel
-- blanks within quotation marks
example : typed "decode \"0300 0000 0000 0000\"" = [spoken "Invalid argument: \"0300 (Did you forget quotation marks?)"] := by decide +kernel
-- semicolons at the end
example : typed "new 2,2;set 0 1 3;" = [spoken "\"Unknown command: . Type 'help' for a list of commands.\""] := by decide +kernel
-- other messages of the shell
example : typed "loop 0; loop -3; loop 'a'; loop end; pop; push; pop 1; loop 2; loop 3; loop 'a'" =
    [spoken "loop command n must be int > 0, got 0", spoken "loop command n must be int > 0, got -3", spoken "loop command n must be int > 0, got a",
     spoken "No loop defined.", spoken "stack is empty", spoken "0 <= position < 1", spoken "Run current loop first ('loop end').",
     spoken "loop command n must be int > 0, got a"] := by decide +kernel
example := C50_errors demo' true start (.int 0) 0 rfl rfl
example := C50_no_number demo' true start (.str ['a']) rfl rfl

end Props
