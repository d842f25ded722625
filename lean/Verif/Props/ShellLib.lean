import Verif.Proofs.ShellLib
import Verif.Props.ShellRun
import Verif.Props.Solve
import Verif.Props.Store

set_option autoImplicit false

/-!
# Properties of the commands of the shell (C68 - C70), and samples for C49 - C52
-/

open Spec

namespace Props

open Shell

variable {ν ω : Type} {lib : Lib Sudoku ν ω} {val : Val → ν} {π : Solve.SetOrder} {fuel : Nat}

/-- The text of a command: a word and integers, separated by blanks. -/
def commandText (w : String) (ks : List Int) : List Char := Py.join [' '] (w.toList :: ks.map Py.intStr)

/-- An argument in a line: a literal, or a name and a literal; with the value. -/
inductive Item
  | pos (t : List Char) (v : Val)
  | key (name t : List Char) (v : Val)

/-- How it is written. -/
def Item.text : Item → List Char
  | .pos t _ => t
  | .key name t _ => name ++ '=' :: t

/-- No whitespace, and no semicolon. -/
def Word (t : List Char) : Prop := ∀ c ∈ t, Py.isSpace c = false ∧ c ≠ ';'

/-- The literal has this value; arguments cannot contain blanks or semicolons, and a literal with `=` must be given by name. -/
def Item.Ok : Item → Prop
  | .pos t v => literalEval t = some v ∧ Word t ∧ '=' ∉ t
  | .key name t v => literalEval t = some v ∧ Word t ∧ Word name ∧ '=' ∉ name

/-- The text of a command: a word and arguments, separated by blanks. -/
def itemText (w : String) (items : List Item) : List Char := Py.join [' '] (w.toList :: items.map Item.text)

/-- The arguments without name. -/
def posArgs : List Item → List (Arg Val)
  | [] => []
  | .pos _ v :: l => .value v :: posArgs l
  | .key _ _ _ :: l => posArgs l

/-- Those with name: of two with the same name the last one. -/
def keyArgs : List Item → List (List Char × Val) → List (List Char × Val)
  | [], kwargs => kwargs
  | .pos _ _ :: l, kwargs => keyArgs l kwargs
  | .key name _ v :: l, kwargs => keyArgs l (setKwarg kwargs name v)

theorem int_char {d : Char} (h1 : Py.isDigit d = false) (h2 : d ≠ '-') (k : Int) : d ∉ Py.intStr k := int_no h1 h2 k

theorem int_space (k : Int) : ∀ c ∈ Py.intStr k, Py.isSpace c = false := by
  intro c hc
  rcases Py.intStr_chars k c hc with h | rfl
  · exact Py.not_isSpace_of_digit h
  · decide

theorem int_word (k : Int) : Word (Py.intStr k) :=
  fun c hc => ⟨int_space k c hc, fun h => int_char (d := ';') (by decide) (by decide) k (h ▸ hc)⟩

private theorem command_literal {t : List Char} {v : Val} (h : literalEval t = some v) : command? t = none ∧ t ∉ keywords := by
  have key : ∀ p ∈ commands, literalEval p.1 = none := by decide +kernel
  have key2 : ∀ t ∈ keywords, literalEval t = none := by decide +kernel
  constructor
  · unfold command?
    rw [Option.map_eq_none_iff, List.find?_eq_none]
    intro p hp
    simp only [decide_eq_true_eq]
    rintro rfl
    rw [key p hp] at h
    cases h
  · intro hm
    rw [key2 t hm] at h
    cases h

theorem kwMap_set (kwargs : List (List Char × Val)) (name : List Char) (v : Val) (val : Val → ν) :
    kwMap val (setKwarg kwargs name v) = setKwarg (kwMap val kwargs) name (val v) := by
  unfold setKwarg kwMap
  rw [List.any_map]
  have : ((fun p : List Char × ν => p.1 == name) ∘ fun p : List Char × Val => (p.1, val p.2)) = fun p => p.1 == name := rfl
  rw [this]
  by_cases h : (kwargs.any fun p => p.1 == name) = true
  · rw [if_pos h, if_pos h, List.map_map, List.map_map]
    refine List.map_congr_left fun p _ => ?_
    simp only [Function.comp]
    by_cases hp : p.1 = name <;> simp [hp]
  · rw [if_neg h, if_neg h, List.map_append]
    rfl

private theorem parseItems_items (hr : Real lib val π fuel) (items : List Item) (hi : ∀ x ∈ items, x.Ok) (args : List (Arg ν))
    (kwargs : List (List Char × Val)) : parseItems lib (items.map Item.text) args (kwMap val kwargs) =
      .ok (args ++ (posArgs items).map (Arg.map val), kwMap val (keyArgs items kwargs)) := by
  induction items generalizing args kwargs with
  | nil => simp [parseItems, posArgs, keyArgs]
  | cons x items ih =>
    have hx := hi x (by simp)
    have ih := ih fun y hy => hi y (by simp [hy])
    cases x with
    | pos t v =>
      obtain ⟨h1, h2, h3⟩ := hx
      rw [List.map_cons, parseItems, Item.text, Py.cut_none h3]
      simp only
      rw [(command_literal h1).1, if_neg (by simp), if_neg (command_literal h1).2, hr.literal' _ _ h1]
      simp only
      rw [ih]
      simp [posArgs, keyArgs, Arg.map]
    | key name t v =>
      obtain ⟨h1, h2, h3, h4⟩ := hx
      rw [List.map_cons, parseItems, Item.text, Py.cut_some h4]
      simp only
      rw [hr.literal' _ _ h1]
      simp only
      rw [← kwMap_set, ih]
      simp [posArgs, keyArgs]

private theorem literal_ne {t : List Char} {v : Val} (h : literalEval t = some v) : t ≠ [] := by
  rintro rfl
  have : literalEval [] = none := by decide
  rw [this] at h
  cases h

theorem item_parse (hr : Real lib val π fuel) (w : String) (name : Name) (hw : command? w.toList = some name) (items : List Item)
    (hi : ∀ x ∈ items, x.Ok) : parse lib (Py.strip (itemText w items)) =
      .ok ⟨name, (posArgs items).map (Arg.map val), kwMap val (keyArgs items [])⟩ ∧ ';' ∉ itemText w items := by
  have key : ∀ p ∈ commands, p.1 ≠ [] ∧ ∀ c ∈ p.1, Py.isSpace c = false ∧ c ≠ ';' := by decide
  have hwm : ∃ p ∈ commands, p.1 = w.toList := by
    unfold command? at hw
    cases hf : commands.find? (fun p => p.1 = w.toList) with
    | none => rw [hf] at hw; cases hw
    | some p => exact ⟨p, List.mem_of_find?_eq_some hf, by simpa using List.find?_some hf⟩
  obtain ⟨p, hp, hpw⟩ := hwm
  have hk := key p hp
  rw [hpw] at hk
  have hpieces : ∀ x ∈ w.toList :: items.map Item.text, x ≠ [] ∧ ∀ c ∈ x, Py.isSpace c = false ∧ c ≠ ';' := by
    intro x hx
    rcases List.mem_cons.1 hx with rfl | hx
    · exact hk
    · obtain ⟨k, hkm, rfl⟩ := List.mem_map.1 hx
      have := hi k hkm
      cases k with
      | pos t v => exact ⟨literal_ne this.1, this.2.1⟩
      | key n t v =>
        refine ⟨by simp [Item.text], fun c hc => ?_⟩
        rcases List.mem_append.1 hc with hc | hc
        · exact this.2.2.1 c hc
        · rcases List.mem_cons.1 hc with rfl | hc
          · decide
          · exact this.2.1 c hc
  constructor
  · have h1 : Py.strip (itemText w items) = itemText w items := by
      refine Py.stripBy_ends (fun c hc => ?_) (fun c hc => ?_)
      · unfold itemText at hc
        rw [Py.head_join hk.1] at hc
        exact (hk.2 c (List.mem_of_mem_head? hc)).1
      · obtain ⟨x, hx, hl⟩ := Py.last_join (sep := [' ']) (l := w.toList :: items.map Item.text) (by simp) fun x hx => (hpieces x hx).1
        unfold itemText at hc
        rw [hl] at hc
        exact ((hpieces x hx).2 c (List.mem_of_getLast? hc)).1
    have h2 : Py.splitGo [' '] (itemText w items) 0 [] = w.toList :: items.map Item.text := by
      have := Py.split_join (sep := [' ']) (by simp) (l := w.toList :: items.map Item.text) (by simp) (by
        intro x hx c hc hm
        simp only [List.mem_cons, List.not_mem_nil, or_false] at hm
        subst hm
        exact absurd ((hpieces x hx).2 _ hc).1 (by decide))
      unfold Py.split at this
      rw [if_neg (by simp)] at this
      exact Except.ok.inj this
    unfold parse
    rw [h1, h2]
    simp only
    rw [show ([] : List (List Char × ν)) = kwMap val [] from rfl, parseItems_items hr items hi]
    simp only
    rw [hw]
    rfl
  · intro hm
    rcases Py.mem_join hm with h | ⟨x, hx, h⟩
    · exact absurd h (by decide)
    · exact ((hpieces x hx).2 _ h).2 rfl

/-- What a command does. -/
theorem item_execute (hr : Real lib val π fuel) (i : Bool) (w : String) (name : Name) (hw : command? w.toList = some name)
    (hn : name ≠ .loop ∧ name ≠ .exit ∧ name ≠ .stack ∧ name ≠ .push ∧ name ≠ .pop ∧ name ≠ .help) (items : List Item)
    (hi : ∀ x ∈ items, x.Ok) (s : State Sudoku ν ω) (hl : s.loopN = none) :
    executeLine lib i (itemText w items) s =
      executeBody lib i ⟨name, (posArgs items).map (Arg.map val), kwMap val (keyArgs items [])⟩ s := by
  obtain ⟨h1, h2⟩ := item_parse hr w name hw items hi
  rw [line_part lib i h2, part_plain hl h1, execute_eq_body lib i _ hn.1]

private theorem ints_items (ks : List Int) : posArgs (ks.map fun k => .pos (Py.intStr k) (.int k)) = ks.map (fun k => .value (.int k)) ∧
    keyArgs (ks.map fun k => .pos (Py.intStr k) (.int k)) [] = [] := by
  induction ks with
  | nil => exact ⟨rfl, rfl⟩
  | cons k ks ih => exact ⟨by rw [List.map_cons, posArgs, ih.1]; rfl, by rw [List.map_cons, keyArgs, ih.2]⟩

private theorem ints_ok (ks : List Int) : ∀ x ∈ ks.map (fun k => Item.pos (Py.intStr k) (.int k)), x.Ok := by
  intro x hx
  obtain ⟨k, _, rfl⟩ := List.mem_map.1 hx
  exact ⟨literal_int k, int_word k, int_char (by decide) (by decide) k⟩

theorem commandText_eq (w : String) (ks : List Int) : commandText w ks = itemText w (ks.map fun k => .pos (Py.intStr k) (.int k)) := by
  unfold commandText itemText
  rw [List.map_map]
  rfl

theorem text_parse (hr : Real lib val π fuel) (w : String) (name : Name) (hw : command? w.toList = some name) (ks : List Int) :
    parse lib (Py.strip (commandText w ks)) = .ok ⟨name, intArgs val ks, []⟩ ∧ ';' ∉ commandText w ks := by
  have := item_parse hr w name hw _ (ints_ok ks)
  rw [(ints_items ks).1, (ints_items ks).2, ← commandText_eq, List.map_map] at this
  exact this

/-- What a command with integers as arguments does. -/
theorem text_execute (hr : Real lib val π fuel) (i : Bool) (w : String) (name : Name) (hw : command? w.toList = some name)
    (hn : name ≠ .loop ∧ name ≠ .exit ∧ name ≠ .stack ∧ name ≠ .push ∧ name ≠ .pop ∧ name ≠ .help) (ks : List Int) (s : State Sudoku ν ω)
    (hl : s.loopN = none) :
    executeLine lib i (commandText w ks) s = executeBody lib i ⟨name, intArgs val ks, []⟩ s := by
  obtain ⟨h1, h2⟩ := text_parse hr w name hw ks
  rw [line_part lib i h2, part_plain hl h1, execute_eq_body lib i _ hn.1]

theorem set_self (s : State Sudoku ν ω) (hs : Separate s) : s.heap.set s.cur (s.sudoku lib) = s.heap := by
  unfold State.sudoku
  rw [List.getD_eq_getElem?_getD, List.getElem?_eq_getElem hs.cur, Option.getD_some, List.set_getElem_self]

/-- **C49** With the real `copy`: after `push`, any lines without stack commands, and `pop`, the numbers and candidates of the
current sudoku are what they were. -/
theorem C49_contents (hr : Real lib val π fuel) (i : Bool) (s t u : State Sudoku ν ω) (hs : Separate s) (hl : s.loopN = none)
    (hb : s.body = []) (lines : List (List Char)) (hn : ∀ line ∈ lines, NoStack lib line)
    (ht : executeLine lib i "push".toList s = (t, none)) (hu : seq (executeLine lib i) lines t = (u, none)) (hul : u.loopN = none) :
    ∃ v, executeLine lib i "pop".toList u = (v, none) ∧
      (v.sudoku lib).bw = (s.sudoku lib).bw ∧ (v.sudoku lib).bh = (s.sudoku lib).bh ∧
      ∀ a, InGrid (s.sudoku lib).bw (s.sudoku lib).bh a → (v.sudoku lib).get a = (s.sudoku lib).get a ∧
        (v.sudoku lib).getCandidates a = (s.sudoku lib).getCandidates a := by
  obtain ⟨v, h1, h2, _⟩ := C49_restore lib i s t u hs hl hb lines hn ht hu hul
  refine ⟨v, h1, ?_⟩
  rw [h2, hr.copy, Sudoku.copy_eq]
  refine ⟨rfl, rfl, fun a ha => ?_⟩
  simp [Sudoku.get, Sudoku.getCandidates, ha]

/-! ## C68: `get` and `get_candidates` -/

/-- **C68** `get row col` and `get_candidates row col` never print anything: they report an error and change nothing. -/
theorem C68_get (hr : Real lib val π fuel) (i : Bool) (s : State Sudoku ν ω) (hs : Separate s) (hl : s.loopN = none) (w : String)
    (hw : w = "get" ∨ w = "get_candidates") (r c : Int) :
    ∃ e, executeLine lib i (commandText w [r, c]) s = error i (.exn e) s := by
  have h1 : ∃ name, command? w.toList = some name ∧ name.takesSudoku = true ∧
      (name ≠ .loop ∧ name ≠ .exit ∧ name ≠ .stack ∧ name ≠ .push ∧ name ≠ .pop ∧ name ≠ .help) ∧
      ∀ x u, lib.call name (intArgs val [r, c]) [] x u =
        (x, u, match Actions.locate x (r, c) with | .ok _ => .ok .other | .error e => .error ⟨e, .builtin⟩) := by
    rcases hw with rfl | rfl
    · exact ⟨.get, rfl, rfl, by simp, hr.get r c⟩
    · exact ⟨.getCandidates, rfl, rfl, by simp, hr.getCandidates r c⟩
  obtain ⟨name, h1, h2, h3, h4⟩ := h1
  rw [text_execute hr i w name h1 h3 _ s hl, library lib i _ h3 s]
  simp only
  rw [if_pos h2, if_pos h2, h4]
  simp only [Pre.apply]
  rw [set_self s hs]
  cases Actions.locate (s.sudoku lib) (r, c) with
  | ok a => exact ⟨.TypeError, rfl⟩
  | error e => exact ⟨e, rfl⟩

/-! ## C69: `set`, `new`, `init_candidates`, and printing -/

/-- **C69** `set row col v` puts `v` into this field of the current sudoku, and does nothing else; outside of the grid it
reports an error and does nothing. -/
theorem C69_set (hr : Real lib val π fuel) (i : Bool) (s : State Sudoku ν ω) (hs : Separate s) (hl : s.loopN = none) (r c v : Int) :
    (∀ a, Actions.locate (s.sudoku lib) (r, c) = .ok a →
      executeLine lib i (commandText "set" [r, c, v]) s = ({ s with heap := s.heap.set s.cur ((s.sudoku lib).setNumber a v) }, none)) ∧
    (∀ e, Actions.locate (s.sudoku lib) (r, c) = .error e →
      executeLine lib i (commandText "set" [r, c, v]) s = error i (.exn e) s) := by
  have h0 : executeLine lib i (commandText "set" [r, c, v]) s = _ :=
    (text_execute hr i "set" .set rfl (by simp) _ s hl).trans (library lib i _ (by simp) s)
  simp only [Name.takesSudoku, if_true] at h0
  rw [hr.set] at h0
  rw [h0]
  constructor
  · intro a ha
    rw [ha]
    rfl
  · intro e he
    rw [he]
    simp only [Pre.apply]
    rw [set_self s hs]
    rfl

/-- **C69** The indices `row` and `col` in the grid mean this field. -/
theorem C69_field (x : Sudoku) (a : Cell) (ha : InGrid x.bw x.bh a) : Actions.locate x ((a.1 : Int), (a.2 : Int)) = .ok a := by
  unfold Actions.locate Store.pyIdx
  have h1 : a.1 < x.n := ha.1
  have h2 : a.2 < x.n := ha.2
  simp [h1, h2]

/-- **C69** `new w,h`, `new (w,h)`, `new [w,h]` and `new box_size=(w,h)` make an empty sudoku the current one; the stack stays as it is. -/
theorem C69_new (hr : Real lib val π fuel) (i : Bool) (s : State Sudoku ν ω) (hs : Separate s) (hl : s.loopN = none) (w h : Nat) (line : List Char)
    (hline : line = "new ".toList ++ Py.natStr w ++ ',' :: Py.natStr h ∨
      line = "new (".toList ++ Py.natStr w ++ ',' :: Py.natStr h ++ [')'] ∨
      line = "new [".toList ++ Py.natStr w ++ ',' :: Py.natStr h ++ [']'] ∨
      line = "new box_size=(".toList ++ Py.natStr w ++ ',' :: Py.natStr h ++ [')']) :
    ∃ t, executeLine lib i line s = (t, none) ∧ t.sudoku lib = Sudoku.new w h ∧
      stackValues lib t = stackValues lib s ∧ t.out = s.out ∧ t.errors = s.errors := by
  obtain ⟨kind, items, hk, rfl, hi, hb⟩ : ∃ (kind : Kind) (items : List Item), kind ≠ .set ∧ line = itemText "new" items ∧ (∀ x ∈ items, x.Ok) ∧
      bindCommand .new (posArgs items) (keyArgs items []) = .ok [.value (.ints kind [(w : Int), h])] := by
    have hc : ∀ k l : Nat, Py.natStr k ++ ',' :: Py.natStr l = commaText [(k : Int), l] := fun k l => by
      have hn : ∀ k : Nat, Py.intStr k = Py.natStr k := fun k => by
        unfold Py.intStr
        rw [if_neg (by omega)]
        rfl
      simp [commaText, Py.join, hn]
    have hw : ∀ (ks : List Int) (a b : Char), Py.isSpace a = false ∧ a ≠ ';' → Py.isSpace b = false ∧ b ≠ ';' → Word (commaText ks) ∧
        Word (a :: (commaText ks ++ [b])) := fun ks a b ha hb => by
      have h1 : Word (commaText ks) := fun c hc => by
        rcases commaText_chars ks hc with h | rfl | rfl
        · refine ⟨Py.not_isSpace_of_digit h, ?_⟩
          rintro rfl
          exact absurd h (by decide)
        · decide
        · decide
      refine ⟨h1, fun c hc => ?_⟩
      rcases List.mem_cons.1 hc with rfl | hc
      · exact ha
      · rcases List.mem_append.1 hc with hc | hc
        · exact h1 c hc
        · rw [List.mem_singleton.1 hc]; exact hb
    have he : ∀ (ks : List Int), '=' ∉ commaText ks := fun ks hm => by
      rcases commaText_chars ks hm with h | h | h
      · exact absurd h (by decide)
      · exact absurd h (by decide)
      · exact absurd h (by decide)
    rcases hline with rfl | rfl | rfl | rfl
    · refine ⟨.tuple, [.pos (commaText [(w : Int), h]) (.ints .tuple [(w : Int), h])], by simp, ?_, ?_, rfl⟩
      · rw [List.append_assoc, hc]; rfl
      · intro x hx
        rw [List.mem_singleton.1 hx]
        exact ⟨literal_comma [(w : Int), h] (by simp), (hw _ 'a' 'a' (by decide) (by decide)).1, he _⟩
    · refine ⟨.tuple, [.pos ('(' :: (commaText [(w : Int), h] ++ [')'])) (.ints .tuple [(w : Int), h])], by simp, ?_, ?_, rfl⟩
      · rw [← hc]; simp [itemText, Py.join, Item.text]
      · intro x hx
        rw [List.mem_singleton.1 hx]
        refine ⟨literal_tuple [(w : Int), h] (by simp), (hw _ '(' ')' (by decide) (by decide)).2, ?_⟩
        simp [he]
    · refine ⟨.list, [.pos ('[' :: (commaText [(w : Int), h] ++ [']'])) (.ints .list [(w : Int), h])], by simp, ?_, ?_, rfl⟩
      · rw [← hc]; simp [itemText, Py.join, Item.text]
      · intro x hx
        rw [List.mem_singleton.1 hx]
        refine ⟨literal_list [(w : Int), h], (hw _ '[' ']' (by decide) (by decide)).2, ?_⟩
        simp [he]
    · refine ⟨.tuple, [.key "box_size".toList ('(' :: (commaText [(w : Int), h] ++ [')'])) (.ints .tuple [(w : Int), h])], by simp, ?_, ?_, rfl⟩
      · rw [← hc]; simp [itemText, Py.join, Item.text]
      · intro x hx
        rw [List.mem_singleton.1 hx]
        exact ⟨literal_tuple [(w : Int), h] (by simp), (hw _ '(' ')' (by decide) (by decide)).2, by simp [Word]; decide, by decide⟩
  have h0 := (item_execute hr i "new" .new rfl (by simp) items hi s hl).trans (library lib i _ (by simp) s)
  simp only [Name.takesSudoku, Bool.false_eq_true, if_false] at h0
  rw [hr.create .new _ _ _ _ (.ok (.sudoku (Sudoku.new w h))) rfl hb (by cases kind <;> first | exact absurd rfl hk | simp [createFn, newFn, ofSudoku, ErrorText.builtin])] at h0
  refine ⟨_, h0, ?_, ?_, rfl, rfl⟩
  · simp [State.sudoku, Pre.apply]
  · unfold stackValues
    simp only [Pre.apply]
    refine List.map_congr_left fun a ha => ?_
    rw [List.getD_eq_getElem?_getD, List.getD_eq_getElem?_getD, List.getElem?_append_left (hs.stack a ha)]

/-- **C69** `new w h` is an error (there is only one argument, the box size). -/
theorem C69_new_two (hr : Real lib val π fuel) (i : Bool) (s : State Sudoku ν ω) (hl : s.loopN = none) (w h : Int) :
    executeLine lib i (commandText "new" [w, h]) s = error i (.exn .TypeError) s := by
  have h0 : executeLine lib i (commandText "new" [w, h]) s = _ :=
    (text_execute hr i "new" .new rfl (by simp) _ s hl).trans (library lib i _ (by simp) s)
  simp only [Name.takesSudoku, Bool.false_eq_true, if_false] at h0
  rw [show intArgs val [w, h] = [Arg.value (.int w), .value (.int h)].map (Arg.map val) from rfl, show ([] : List (List Char × ν)) = kwMap val [] from rfl,
    hr.createError .new _ _ _ .TypeError rfl rfl] at h0
  exact h0

/-- **C69** `encode`, `print` and `view` print what the functions return, and change nothing. -/
theorem C69_print (hr : Real lib val π fuel) (i : Bool) (s : State Sudoku ν ω) (hs : Separate s) (hl : s.loopN = none) :
    executeLine lib i "encode".toList s =
      ({ s with out := s.out ++ [.text (Codec.encode (s.sudoku lib) [] [] false ++ ['\n'])] }, none) ∧
    (∀ t, Codec.str (s.sudoku lib) = .ok t → executeLine lib i "print".toList s = ({ s with out := s.out ++ [.text (t ++ ['\n'])] }, none)) ∧
    (∀ t, Codec.view (s.sudoku lib) true ['*'] true = .ok t →
      executeLine lib i "view".toList s = ({ s with out := s.out ++ [.text (t ++ ['\n'])] }, none)) := by
  have key : ∀ (w : String) (name : Name) (t : List Char), command? w.toList = some name → name.takesSudoku = true →
      (name ≠ .loop ∧ name ≠ .exit ∧ name ≠ .stack ∧ name ≠ .push ∧ name ≠ .pop ∧ name ≠ .help) →
      lib.call name [] [] (s.sudoku lib) s.world = (s.sudoku lib, s.world, .ok (.text t)) →
      executeLine lib i w.toList s = ({ s with out := s.out ++ [.text (t ++ ['\n'])] }, none) := by
    intro w name t h1 h2 h3 h4
    have h0 := (text_execute hr i w name h1 h3 [] s hl).trans (library lib i _ h3 s)
    simp only [intArgs, List.map_nil] at h0
    rw [if_pos h2, if_pos h2, h4] at h0
    simp only [Pre.apply] at h0
    rw [set_self s hs] at h0
    exact h0
  refine ⟨key "encode" .encode _ rfl rfl (by simp) (hr.encode _ _), fun t ht => ?_, fun t ht => ?_⟩
  · refine key "print" .print t rfl rfl (by simp) ?_
    rw [hr.print, ht]; rfl
  · refine key "view" .view t rfl rfl (by simp) ?_
    rw [hr.view, ht]; rfl

/-- **C69** For a sudoku without fields `print` and `view` report an error (`ValueError`), and change nothing. -/
theorem C69_print_error (hr : Real lib val π fuel) (i : Bool) (s : State Sudoku ν ω) (hs : Separate s) (hl : s.loopN = none)
    (h0 : (s.sudoku lib).bw * (s.sudoku lib).bh = 0) (w : String) (hw : w = "print" ∨ w = "view") :
    executeLine lib i w.toList s = error i (.exn .ValueError) s := by
  have key : ∀ (w : String) (name : Name), command? w.toList = some name → name.takesSudoku = true →
      (name ≠ .loop ∧ name ≠ .exit ∧ name ≠ .stack ∧ name ≠ .push ∧ name ≠ .pop ∧ name ≠ .help) →
      lib.call name [] [] (s.sudoku lib) s.world = (s.sudoku lib, s.world, .error ⟨.ValueError, .builtin⟩) →
      executeLine lib i w.toList s = error i (.exn .ValueError) s := by
    intro w name h1 h2 h3 h4
    have h0 := (text_execute hr i w name h1 h3 [] s hl).trans (library lib i _ h3 s)
    simp only [intArgs, List.map_nil] at h0
    rw [if_pos h2, if_pos h2, h4] at h0
    simp only [Pre.apply] at h0
    rw [set_self s hs] at h0
    exact h0
  have hv : ∀ c, Codec.view (s.sudoku lib) c ['*'] true = .error .ValueError := fun c => by
    unfold Codec.view Sudoku.n
    rw [if_pos h0]
  rcases hw with rfl | rfl
  · refine key "print" .print rfl rfl (by simp) ?_
    rw [hr.print]
    unfold Codec.str
    rw [hv]; rfl
  · refine key "view" .view rfl rfl (by simp) ?_
    rw [hr.view, hv]; rfl

/-! ## C70: `solve` -/

/-- **C70** `solve`: the current sudoku becomes a completion of it, or an error is reported and nothing changes if there is
none. -/
theorem C70_solve (hr : Real lib val π fuel) (hπ : π.Ok) (i : Bool) (s : State Sudoku ν ω) (hs : Separate s) (hl : s.loopN = none)
    (hf : (s.sudoku lib).empty.length < fuel) :
    (∃ t, executeLine lib i "solve".toList s = (t, none) ∧ (t.sudoku lib).bw = (s.sudoku lib).bw ∧ (t.sudoku lib).bh = (s.sudoku lib).bh ∧
      IsCompletion (s.sudoku lib).bw (s.sudoku lib).bh (s.sudoku lib).get (t.sudoku lib).get ∧
      stackValues lib t = stackValues lib s ∧ t.out = s.out ∧ t.errors = s.errors) ∨
    (executeLine lib i "solve".toList s = error i (.exn .StopIteration) s ∧
      ¬ ∃ g, IsCompletion (s.sudoku lib).bw (s.sudoku lib).bh (s.sudoku lib).get g) := by
  have h0 : executeLine lib i (commandText "solve" []) s = _ :=
    (text_execute hr i "solve" .solve rfl (by simp) [] s hl).trans (library lib i _ (by simp) s)
  simp only [Name.takesSudoku, if_true, intArgs, List.map_nil] at h0
  rw [hr.solve] at h0
  simp only [Pre.apply] at h0
  rw [set_self s hs] at h0
  change executeLine lib i "solve".toList s = _ at h0
  rw [h0]
  obtain ⟨sols, h1, -, h2, h3, -⟩ := C20_bruteforce π hπ fuel (s.sudoku lib) hf
  rw [h1]
  cases sols with
  | nil =>
    right
    refine ⟨rfl, ?_⟩
    rintro ⟨g, hg⟩
    obtain ⟨t, ht, _⟩ := h3 g hg
    cases ht
  | cons t sols =>
    left
    obtain ⟨hp, hc⟩ := h2 t (by simp)
    refine ⟨_, rfl, ?_⟩
    have ht : ∀ s' : State Sudoku ν ω, s' = { s with heap := s.heap ++ [t], cur := s.heap.length } → s'.sudoku lib = t := by
      rintro s' rfl
      simp [State.sudoku]
    rw [ht _ rfl]
    refine ⟨hp.1, hp.2.1, hc, ?_, rfl, rfl⟩
    unfold stackValues
    simp only
    refine List.map_congr_left fun a ha => ?_
    rw [List.getD_eq_getElem?_getD, List.getD_eq_getElem?_getD, List.getElem?_append_left (hs.stack a ha)]

/-! ## A library for the samples -/

/-- A library that knows nothing but what is modelled. -/
def demo (π : Solve.SetOrder) (fuel : Nat) : Lib Sudoku Val Unit where
  literal x := match literalEval x with | some v => .ok v | none => .error .syntaxOrValue
  isEnd _ := false
  isNone v := decide (v = .none)
  toInt v := v.toInt
  str v := match v with | .str s => s | _ => []
  fresh := Sudoku.new 3 3
  copy x := x.copy true
  create name args kwargs u := match bindCommand name args kwargs with
    | .error e => (u, .error ⟨e, .builtin⟩)
    | .ok vs => match createFn name vs with
      | some r => (u, r)
      | none => (u, .error ⟨.TypeError, .builtin⟩)
  call name args kwargs x u := match bindCommand name args kwargs with
    | .error e => (x, u, .error ⟨e, .builtin⟩)
    | .ok vs => match callFn π fuel x name vs with
      | some r => (r.1, u, ErrorText.builtin r.2)
      | none => (x, u, .error ⟨.TypeError, .builtin⟩)
  help _ _ := .ok []

theorem map_id (args : List (Arg Val)) (kwargs : List (List Char × Val)) : args.map (Arg.map id) = args ∧ kwMap id kwargs = kwargs := by
  constructor
  · conv => rhs; rw [← List.map_id args]
    exact List.map_congr_left fun x _ => by cases x <;> rfl
  · conv => rhs; rw [← List.map_id kwargs]
    rfl

theorem demo_real (π : Solve.SetOrder) (fuel : Nat) : Real (demo π fuel) id π fuel where
  literal' t v h := by
    show (match literalEval t with | some v => _ | none => _) = _
    rw [h]; rfl
  toInt' _ := rfl
  isNone' _ := rfl
  isEnd' _ := rfl
  str' _ := rfl
  fresh := rfl
  copy _ := rfl
  createError n args kwargs u e _ h := by
    rw [(map_id args kwargs).1, (map_id args kwargs).2]
    show (match bindCommand n args kwargs with | .error e => _ | .ok vs => _) = _
    rw [h]
  create n args kwargs u vs r _ h h' := by
    rw [(map_id args kwargs).1, (map_id args kwargs).2]
    show (match bindCommand n args kwargs with | .error e => _ | .ok vs => _) = _
    rw [h]
    simp only
    rw [h']
  callError n args kwargs x u e _ h := by
    rw [(map_id args kwargs).1, (map_id args kwargs).2]
    show (match bindCommand n args kwargs with | .error e => _ | .ok vs => _) = _
    rw [h]
  call n args kwargs x u vs y r _ h h' := by
    rw [(map_id args kwargs).1, (map_id args kwargs).2]
    show (match bindCommand n args kwargs with | .error e => _ | .ok vs => _) = _
    rw [h]
    simp only
    rw [h']

private def start : State Sudoku Val Unit := init (demo (fun _ S => Solvers.sortSet S) 100) true ()

private def demo' : Lib Sudoku Val Unit := demo (fun _ S => Solvers.sortSet S) 100

-- C49: after push, set, pop the field is empty again; without pop it is not
example : ((seq (executeLine demo' true) ["new 2,2".toList, "push; set 0 1 3".toList, "set 1 1 2;pop".toList] start).1.sudoku demo').get
    (0, 1) = 0 := by decide +kernel
example : ((seq (executeLine demo' true) ["new 2,2".toList, "push; set 0 1 3".toList, "set 1 1 2".toList] start).1.sudoku demo').get
    (0, 1) = 3 := by decide +kernel
-- `pop 0` takes the sudoku pushed first, `pop 2` is an error
example : ((executeLine demo' true "new 2,2;push;set 0 1 3;push;set 0 1 4;pop 0".toList start).1.sudoku demo').get (0, 1) = 0 := by
  decide +kernel
example : (executeLine demo' true "new 2,2;push;set 0 1 3;push;set 0 1 4;pop 2".toList start).1.errors =
    [.message "0 <= position < 2".toList] := by decide +kernel
-- C50: the body of a loop is executed as often as told, and only by `loop end`
example : stackValues demo' (executeLine demo' true "new 2,2;loop 3;push;loop end".toList start).1 |>.length |> (· = 3) := by decide +kernel
example : ∀ k, k = 3 → (executeLine demo' true "new 2,2;loop 3;push".toList start).1.loopN = some k ∧
    (executeLine demo' true "new 2,2;loop 3;push".toList start).1.stack = [] := by rintro k rfl; decide +kernel
example : Reads demo' 3 (.int 3) := ⟨by decide +kernel, rfl, rfl, rfl⟩
example : ∀ b ∈ ["push".toList, "set 0 0 1".toList], ';' ∉ b ∧
    ∃ c, parse demo' (Py.strip b) = .ok c ∧ c.name ≠ .loop ∧ c.name ≠ .exit := by
  intro b hb
  rcases List.mem_cons.1 hb with rfl | hb
  · exact ⟨by decide, ⟨.push, [], []⟩, rfl, by simp, by simp⟩
  · rw [List.mem_singleton.1 hb]
    refine ⟨by decide, ⟨.set, [.value (.int 0), .value (.int 0), .value (.int 1)], []⟩, ?_, by simp, by simp⟩
    rw [show "set 0 0 1".toList = commandText "set" [0, 0, 1] by decide +kernel]
    exact (text_parse (demo_real _ _) "set" .set rfl [0, 0, 1]).1
-- C52: in a script the first error is the last thing that happens
example : (run demo' false [] ["new 2,2\n".toList, "foo\n".toList, "set 0 0 1\n".toList] (init demo' false ())).2 = some (.exit 1) ∧
    ((run demo' false [] ["new 2,2\n".toList, "foo\n".toList, "set 0 0 1\n".toList] (init demo' false ())).1.sudoku demo').get (0, 0) = 0 := by
  decide +kernel
example : (run demo' true [] ["new 2,2\n".toList, "foo\n".toList, "set 0 0 1\n".toList] start).2 = none ∧
    ((run demo' true [] ["new 2,2\n".toList, "foo\n".toList, "set 0 0 1\n".toList] start).1.sudoku demo').get (0, 0) = 1 := by
  decide +kernel
example : (executeLine demo' true "set 0 0 1; set 9 0 1; get 0 0".toList start).1.errors = [.exn .IndexError, .exn .TypeError] := by
  decide +kernel

end Props
