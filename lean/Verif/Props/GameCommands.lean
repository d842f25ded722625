import Verif.Proofs.GameCommands
import Verif.Props.Game
import Verif.Props.GameRun
import Verif.Props.Complete

set_option autoImplicit false

/-! # C71, C72, C73: hints, the end of the game, "check" and "conflicts" -/

open Spec

namespace Props

open Game

/-! ## C72 -/

/-- Neither blank nor one of the commands. -/
def MoveLine (line : List Char) : Prop := ∃ word, firstWord line = some word ∧ word ∉ commandWords

/-- **C72** The shell ends (before the end of the input) only by an uncaught exception: for a blank line, for "settings", for
a move in which `decode_action` raises a `TypeError`; or it hangs in `autofill`.  No command ends it. -/
theorem C72_endings {w h : Nat} (hw : 0 < w) (hh : 0 < h) (set : Settings) (π : HintOrders) (rounds : Nat) (line : List Char) (s : State)
    (hs : Fine w h s) (e : Ending) :
    (∃ t, step set π rounds line s = (t, some e)) ↔
      ((∀ c ∈ line, Py.isSpace c = true) ∧ e = .crash .IndexError) ∨
      (firstWord line = some "settings".toList ∧ e = .crash .TypeError) ∨
      (MoveLine line ∧ Notation.decodeAction line w h = .error .TypeError ∧ e = .crash .TypeError) ∨
      (MoveLine line ∧ e = .hangs ∧ ∃ action, Notation.decodeAction line w h = .ok action ∧
        autofill set true rounds (Actions.call action (s.now.copy true)).1 [] = none) := by
  obtain ⟨v, hv, k1, k2⟩ := step_begun set π rounds line hw hh hs
  cases hl : firstWord line with
  | none =>
    have hb := (firstWord_none line).1 hl
    rw [k1 hl]
    constructor
    · rintro ⟨t, ht⟩
      cases ht
      exact .inl ⟨hb, rfl⟩
    · rintro (⟨_, rfl⟩ | ⟨h, _⟩ | ⟨⟨_, h, _⟩, _⟩ | ⟨⟨_, h, _⟩, _⟩)
      · exact ⟨_, rfl⟩
      · cases h
      · rw [hl] at h; cases h
      · rw [hl] at h; cases h
  | some word =>
    have hb : ¬ ∀ c ∈ line, Py.isSpace c = true := by rw [← firstWord_none, hl]; simp
    have hmove : MoveLine line ↔ word ∉ commandWords := by
      unfold MoveLine
      rw [hl]
      exact ⟨fun ⟨_, h1, h2⟩ => by cases h1; exact h2, fun h => ⟨word, rfl, h⟩⟩
    rw [k2 word hl, hmove]
    have nocrash : ∀ x u, dispatch set π rounds line word s.heap.length (begun s v) = (u, x) → word ∈ commandWords → word ≠ "settings".toList →
        x = none := by
      intro x u hd hc hset
      have h5 : ∀ y : Sudoku, 0 < y.bw → 0 < y.bh → (∃ ts, texts (conflictText y) (listConflicts y) = .ok ts) ∧
          ∀ sol, ∃ ts, texts (checkText y) (wrongFields y sol) = .ok ts := by
        intro y hy1 hy2
        have ft := fun a => fieldText_ok y hy1 hy2 a
        refine ⟨?_, fun sol => ?_⟩
        · have : ∀ p ∈ listConflicts y, ∃ t, conflictText y p = .ok t := by
            rintro ⟨a, b, z⟩ hp
            obtain ⟨ha, hb, -⟩ := (listConflicts_spec y).1 a b z hp
            obtain ⟨t, ht, -⟩ := ft a ha
            obtain ⟨t', ht', -⟩ := ft b hb
            unfold conflictText
            simp only [ht, ht']
            exact ⟨_, rfl⟩
          refine ⟨_, texts_ok _ (fun p => if hp : p ∈ listConflicts y then (this p hp).choose else []) _ fun p hp => ?_⟩
          rw [dif_pos hp]
          exact (this p hp).choose_spec
        · have : ∀ a ∈ wrongFields y sol, ∃ t, checkText y a = .ok t := by
            intro a ha
            obtain ⟨t, ht, -⟩ := ft a ((Sudoku.mem_cells y).1 (List.mem_of_mem_filter ha))
            unfold checkText
            rw [ht]
            exact ⟨_, rfl⟩
          refine ⟨_, texts_ok _ (fun p => if hp : p ∈ wrongFields y sol then (this p hp).choose else []) _ fun p hp => ?_⟩
          rw [dif_pos hp]
          exact (this p hp).choose_spec
      have hat : (begun s v).at s.heap.length = s.now.copy true := at_append_self s _
      obtain ⟨e1, e2⟩ := now_size hs
      obtain ⟨f1, f2⟩ := copy_size s.now
      obtain ⟨g1, g2⟩ := h5 (s.now.copy true) (by rw [f1, e1]; exact hw) (by rw [f2, e2]; exact hh)
      simp only [commandWords, List.mem_cons, List.not_mem_nil, or_false] at hc
      rcases hc with rfl | rfl | rfl | rfl | rfl | rfl | rfl
      · cases hd; rfl
      · cases hd; rfl
      · obtain ⟨ts, hts⟩ := g1
        have : dispatch set π rounds line "conflicts".toList s.heap.length (begun s v) =
          printAll (texts (conflictText ((begun s v).at s.heap.length)) (listConflicts ((begun s v).at s.heap.length))) (begun s v) := rfl
        rw [this, hat, hts] at hd
        cases hd; rfl
      · exact absurd rfl hset
      · obtain ⟨ts, hts⟩ := g2 (begun s v).solution
        have : dispatch set π rounds line "check".toList s.heap.length (begun s v) =
          printAll (texts (checkText ((begun s v).at s.heap.length)) (wrongFields ((begun s v).at s.heap.length) (begun s v).solution)) (begun s v) := rfl
        rw [this, hat, hts] at hd
        cases hd; rfl
      · cases hd; rfl
      · cases hd; rfl
    by_cases hset : word = "settings".toList
    · subst hset
      rw [show dispatch set π rounds line "settings".toList s.heap.length (begun s v) = (begun s v, some (.crash .TypeError)) from rfl]
      constructor
      · rintro ⟨t, ht⟩
        cases ht
        exact .inr (.inl ⟨rfl, rfl⟩)
      · rintro (⟨h, _⟩ | ⟨_, rfl⟩ | ⟨h, _⟩ | ⟨h, _⟩)
        · exact absurd h hb
        · exact ⟨_, rfl⟩
        · exact absurd (by decide) h
        · exact absurd (by decide) h
    by_cases hcw : word ∈ commandWords
    · cases hd : dispatch set π rounds line word s.heap.length (begun s v) with
      | mk u x =>
        cases nocrash x u hd hcw hset
        constructor
        · rintro ⟨t, ht⟩; cases ht
        · rintro (⟨h, _⟩ | ⟨h, _⟩ | ⟨h, _⟩ | ⟨h, _⟩)
          · exact absurd h hb
          · exact absurd (Option.some.inj h) hset
          · exact absurd hcw h
          · exact absurd hcw h
    · have hne : ∀ u, u ∈ commandWords → word ≠ u := fun u hu e => hcw (e ▸ hu)
      have hd : dispatch set π rounds line word s.heap.length (begun s v) = act set rounds line s.heap.length (begun s v) := by
        unfold dispatch
        rw [if_neg (hne _ (by decide)), if_neg (hne _ (by decide)), if_neg (hne _ (by decide)), if_neg (hne _ (by decide)),
          if_neg (hne _ (by decide)), if_neg (hne _ (by decide)), if_neg (hne _ (by decide))]
      have hat : (begun s v).at s.heap.length = s.now.copy true := at_append_self s _
      have esz : (s.now.copy true).bw = w ∧ (s.now.copy true).bh = h := by
        rw [(copy_size s.now).1, (copy_size s.now).2]; exact now_size hs
      have hact : act set rounds line s.heap.length (begun s v) = match Notation.decodeAction line w h with
          | .error .ValueError => unknown line (begun s v)
          | .error e => (begun s v, some (.crash e))
          | .ok action => match Actions.call action (s.now.copy true) with
            | (x, .error .ValueError) => unknown line { begun s v with heap := (begun s v).heap.set s.heap.length x }
            | (x, .error e) => ({ begun s v with heap := (begun s v).heap.set s.heap.length x }, some (.crash e))
            | (x, .ok ()) => match autofill set true rounds x (begun s v).out with
              | none => (begun s v, some .hangs)
              | some (r, none) => ({ begun s v with heap := (begun s v).heap.set s.heap.length r.sudoku, out := r.out }, none)
              | some (r, some .ValueError) => unknown line { begun s v with heap := (begun s v).heap.set s.heap.length r.sudoku, out := r.out }
              | some (r, some e) => ({ begun s v with heap := (begun s v).heap.set s.heap.length r.sudoku, out := r.out }, some (.crash e)) := by
        unfold act
        rw [hat, esz.1, esz.2]
        rfl
      rw [hd, hact]
      cases hdec : Notation.decodeAction line w h with
      | error x =>
        rcases C48_exceptions line w h x hdec with rfl | ⟨rfl, -⟩
        · constructor
          · rintro ⟨t, ht⟩; cases ht
          · rintro (⟨h, _⟩ | ⟨h, _⟩ | ⟨_, h, _⟩ | ⟨_, _, _, h, _⟩)
            · exact absurd h hb
            · exact absurd (Option.some.inj h) hset
            · cases h
            · cases h
        · constructor
          · rintro ⟨t, ht⟩
            cases ht
            exact .inr (.inr (.inl ⟨hcw, rfl, rfl⟩))
          · rintro (⟨h, _⟩ | ⟨h, _⟩ | ⟨_, _, rfl⟩ | ⟨_, _, _, h, _⟩)
            · exact absurd h hb
            · exact absurd (Option.some.inj h) hset
            · exact ⟨_, rfl⟩
            · cases h
      | ok action =>
        obtain ⟨y, hy, -, -⟩ := decode_legal hdec (s.now.copy true) esz.1 esz.2
        simp only [hy]
        have hout := autofill_out set true rounds y (begun s v).out []
        cases ha : autofill set true rounds y (begun s v).out with
        | none =>
          rw [ha] at hout
          have hb0 : autofill set true rounds y [] = none := by simpa using hout.symm
          constructor
          · rintro ⟨t, ht⟩
            cases ht
            exact .inr (.inr (.inr ⟨hcw, rfl, action, rfl, by rw [hy]; exact hb0⟩))
          · rintro (⟨h, _⟩ | ⟨h, _⟩ | ⟨_, h, _⟩ | ⟨_, rfl, _⟩)
            · exact absurd h hb
            · exact absurd (Option.some.inj h) hset
            · cases h
            · exact ⟨_, rfl⟩
        | some r =>
          obtain ⟨r, x⟩ := r
          have hx : x = none ∨ x = some .ValueError := loop_errors set true rounds _ ha
          have hb0 : autofill set true rounds y [] ≠ none := by
            rw [ha] at hout
            intro h0
            rw [h0] at hout
            cases hout
          have hno : ¬ ((∀ c ∈ line, Py.isSpace c = true) ∧ e = .crash .IndexError ∨ some word = some "settings".toList ∧ e = .crash .TypeError ∨
              word ∉ commandWords ∧ (Except.ok action : Except PyErr (Actions.Action Int)) = .error .TypeError ∧ e = .crash .TypeError ∨
              word ∉ commandWords ∧ e = .hangs ∧ ∃ action', (Except.ok action : Except PyErr (Actions.Action Int)) = .ok action' ∧
                autofill set true rounds (Actions.call action' (s.now.copy true)).1 [] = none) := by
            rintro (⟨h, _⟩ | ⟨h, _⟩ | ⟨_, h, _⟩ | ⟨_, _, _, h, h'⟩)
            · exact absurd h hb
            · exact absurd (Option.some.inj h) hset
            · cases h
            · cases h
              rw [hy] at h'
              exact hb0 h'
          rcases hx with rfl | rfl
          · exact ⟨(by rintro ⟨t, ht⟩; cases ht), fun h => absurd h hno⟩
          · exact ⟨(by rintro ⟨t, ht⟩; cases ht), fun h => absurd h hno⟩

/-- **C72** A line which `decode_action` rejects with a `ValueError` is reported and changes nothing; among these lines is "help",
which the greeting recommends. -/
theorem C72_unknown {w h : Nat} (hw : 0 < w) (hh : 0 < h) (set : Settings) (π : HintOrders) (rounds : Nat) (line : List Char) (s : State)
    (hs : Fine w h s) (hm : MoveLine line) (hd : Notation.decodeAction line w h = .error .ValueError) :
    ∃ v t, step set π rounds line s = (t, none) ∧ t.history = s.history ∧
      t.out = s.out ++ [.view v, .text ("Unknown command '".toList ++ line ++ "'".toList)] := by
  obtain ⟨v, hv, k1, k2⟩ := step_begun set π rounds line hw hh hs
  obtain ⟨word, hl, hcw⟩ := hm
  have hne : ∀ u, u ∈ commandWords → word ≠ u := fun u hu e => hcw (e ▸ hu)
  have hd' : dispatch set π rounds line word s.heap.length (begun s v) = unknown line (begun s v) := by
    unfold dispatch
    rw [if_neg (hne _ (by decide)), if_neg (hne _ (by decide)), if_neg (hne _ (by decide)), if_neg (hne _ (by decide)),
      if_neg (hne _ (by decide)), if_neg (hne _ (by decide)), if_neg (hne _ (by decide))]
    unfold act
    have hat : (begun s v).at s.heap.length = s.now.copy true := at_append_self s _
    rw [hat, (copy_size s.now).1, (copy_size s.now).2, (now_size hs).1, (now_size hs).2, hd]
  have hst := k2 word hl
  rw [hd'] at hst
  simp only [unknown] at hst
  rw [if_neg (by rintro (h | h); exacts [hne _ (by decide) h, hne _ (by decide) h])] at hst
  rw [record_print hs] at hst
  refine ⟨v, _, hst, ?_, by simp [begun]⟩
  unfold State.history
  show History.mk (s.sudokus.map _) s.index = _
  congr 1
  exact List.map_congr_left fun a ha => at_append s a _ (hs.addr a ha).1

/-- "help", "exit" and "quit" are such lines. -/
theorem C72_help (w h : Nat) : ∀ line ∈ ["help".toList, "exit".toList, "quit".toList],
    MoveLine line ∧ Notation.decodeAction line w h = .error .ValueError := by
  intro line hl
  simp only [List.mem_cons, List.not_mem_nil, or_false] at hl
  rcases hl with rfl | rfl | rfl
  · exact ⟨⟨"help".toList, by decide +kernel, by decide +kernel⟩, rfl⟩
  · exact ⟨⟨"exit".toList, by decide +kernel, by decide +kernel⟩, rfl⟩
  · exact ⟨⟨"quit".toList, by decide +kernel, by decide +kernel⟩, rfl⟩

/-- **C72** With the settings a game starts with (numbers are not set automatically), the shell never hangs. -/
theorem C72_answers {w h : Nat} (hw : 0 < w) (hh : 0 < h) (set : Settings) (hset : set.autoset = false) (π : HintOrders) (line : List Char)
    (s : State) (hs : Fine w h s) : ∃ m, ∀ rounds, m ≤ rounds → ∀ t, step set π rounds line s ≠ (t, some .hangs) := by
  cases hd : Notation.decodeAction line w h with
  | error e =>
    refine ⟨0, fun rounds _ t ht => ?_⟩
    rcases (C72_endings hw hh set π rounds line s hs _).1 ⟨t, ht⟩ with ⟨_, h⟩ | ⟨_, h⟩ | ⟨_, _, h⟩ | ⟨_, _, _, h, _⟩
    · cases h
    · cases h
    · cases h
    · rw [hd] at h; cases h
  | ok action =>
    obtain ⟨m, r, hr⟩ := C54_terminates set true (Actions.call action (s.now.copy true)).1 [] (by rw [hset]; simp)
    refine ⟨m, fun rounds hm t ht => ?_⟩
    rcases (C72_endings hw hh set π rounds line s hs _).1 ⟨t, ht⟩ with ⟨_, h⟩ | ⟨_, h⟩ | ⟨_, _, h⟩ | ⟨_, _, _, h, h'⟩
    · cases h
    · cases h
    · cases h
    · rw [hd] at h
      cases h
      rw [hr rounds hm] at h'
      cases h'

/-! ## C73 -/

/-- **C73** "check" lists, in reading order, the filled fields whose number is not the one of the solution, each with a name that
`decode` understands, and its number. -/
theorem C73_check {w h : Nat} (hw : 0 < w) (hh : 0 < h) (set : Settings) (π : HintOrders) (rounds : Nat) (line : List Char) (s : State)
    (hs : Fine w h s) (hl : firstWord line = some "check".toList) :
    ∃ v t l, ∃ name : Cell → List Char, step set π rounds line s = (t, none) ∧ t.history = s.history ∧
      Text.SortedFields l (fun a => InGrid w h a ∧ s.now.num a ≠ 0 ∧ s.now.num a ≠ s.solution.num a) ∧
      (∀ a ∈ l, Notation.decode (name a) w h [','] [] = .ok [a]) ∧
      t.out = s.out ++ [.view v] ++ l.map fun a => .text ("[F] ".toList ++ name a ++ " = ".toList ++ Py.intStr (s.now.num a)) := by
  classical
  obtain ⟨v, hv, k1, k2⟩ := step_begun set π rounds line hw hh hs
  have hat : (begun s v).at s.heap.length = s.now.copy true := at_append_self s _
  obtain ⟨e1, e2⟩ := now_size hs
  obtain ⟨f1, f2⟩ := copy_size s.now
  have hst := k2 _ hl
  rw [show dispatch set π rounds line "check".toList s.heap.length (begun s v) = printAll (texts (checkText ((begun s v).at s.heap.length))
    (wrongFields ((begun s v).at s.heap.length) (begun s v).solution)) (begun s v) from rfl, hat] at hst
  have ft := fun a => fieldText_ok (s.now.copy true) (by rw [f1, e1]; exact hw) (by rw [f2, e2]; exact hh) a
  have hin : ∀ a, a ∈ wrongFields (s.now.copy true) s.solution ↔ InGrid w h a ∧ s.now.num a ≠ 0 ∧ s.now.num a ≠ s.solution.num a := by
    intro a
    unfold wrongFields
    rw [List.mem_filter, Sudoku.mem_cells, f1, f2, e1, e2]
    refine and_congr_right fun ha => ?_
    rw [show (s.now.copy true).get a = s.now.num a from copy_num s.now a (by rw [e1, e2]; exact ha)]
    simp [Sudoku.get]
  have hname : ∀ a, ∃ t, InGrid w h a → fieldText (s.now.copy true) a = .ok t ∧ Notation.decode t w h [','] [] = .ok [a] := by
    intro a
    by_cases ha : InGrid w h a
    · obtain ⟨t, h1, h2⟩ := ft a (by rw [f1, f2, e1, e2]; exact ha)
      rw [f1, f2, e1, e2] at h2
      exact ⟨t, fun _ => ⟨h1, h2⟩⟩
    · exact ⟨[], fun h => absurd h ha⟩
  choose name hname using hname
  have htexts : texts (checkText (s.now.copy true)) (wrongFields (s.now.copy true) s.solution) =
      .ok ((wrongFields (s.now.copy true) s.solution).map fun a => "[F] ".toList ++ name a ++ " = ".toList ++ Py.intStr (s.now.num a)) := by
    refine texts_ok _ _ _ fun a ha => ?_
    have ha := ((hin a).1 ha).1
    unfold checkText
    rw [(hname a ha).1, show (s.now.copy true).get a = s.now.num a from copy_num s.now a (by rw [e1, e2]; exact ha)]
  rw [show (begun s v).solution = s.solution from rfl, htexts] at hst
  simp only [printAll] at hst
  rw [if_neg (by decide), record_print hs] at hst
  refine ⟨v, _, wrongFields (s.now.copy true) s.solution, name, hst, ?_, ⟨?_, hin⟩, fun a ha => (hname a ((hin a).1 ha).1).2, ?_⟩
  · unfold State.history
    show History.mk (s.sudokus.map _) s.index = _
    congr 1
    exact List.map_congr_left fun a ha => at_append s a _ (hs.addr a ha).1
  · exact (Solvers.cells_sorted _).filter _
  · simp [begun, Function.comp_def]

/-- **C73** "conflicts" lists the conflicts: every two fields in conflict once, in one of the two orders. -/
theorem C73_conflicts {w h : Nat} (hw : 0 < w) (hh : 0 < h) (set : Settings) (π : HintOrders) (rounds : Nat) (line : List Char) (s : State)
    (hs : Fine w h s) (hl : firstWord line = some "conflicts".toList) :
    ∃ v t, ∃ l : List (Cell × Cell × Int), ∃ name : Cell → List Char, step set π rounds line s = (t, none) ∧ t.history = s.history ∧
      l.Nodup ∧
      (∀ a b x, (a, b, x) ∈ l → InGrid w h a ∧ InGrid w h b ∧ Peer w h a b ∧ x ≠ 0 ∧ s.now.num a = x ∧ s.now.num b = x) ∧
      (∀ a b x, InGrid w h a → InGrid w h b → Peer w h a b → x ≠ 0 → s.now.num a = x → s.now.num b = x →
        ((a, b, x) ∈ l ↔ (b, a, x) ∉ l)) ∧
      (∀ a, InGrid w h a → Notation.decode (name a) w h [','] [] = .ok [a]) ∧
      t.out = s.out ++ [.view v] ++ l.map fun p => .text ("[F]".toList ++ name p.1 ++ " = ".toList ++ name p.2.1 ++ " = ".toList ++ Py.intStr p.2.2) := by
  classical
  obtain ⟨v, hv, k1, k2⟩ := step_begun set π rounds line hw hh hs
  have hat : (begun s v).at s.heap.length = s.now.copy true := at_append_self s _
  obtain ⟨e1, e2⟩ := now_size hs
  obtain ⟨f1, f2⟩ := copy_size s.now
  have hst := k2 _ hl
  rw [show dispatch set π rounds line "conflicts".toList s.heap.length (begun s v) = printAll (texts (conflictText ((begun s v).at s.heap.length))
    (listConflicts ((begun s v).at s.heap.length))) (begun s v) from rfl, hat] at hst
  have ft := fun a => fieldText_ok (s.now.copy true) (by rw [f1, e1]; exact hw) (by rw [f2, e2]; exact hh) a
  have hname : ∀ a, ∃ t, InGrid w h a → fieldText (s.now.copy true) a = .ok t ∧ Notation.decode t w h [','] [] = .ok [a] := by
    intro a
    by_cases ha : InGrid w h a
    · obtain ⟨t, h1, h2⟩ := ft a (by rw [f1, f2, e1, e2]; exact ha)
      rw [f1, f2, e1, e2] at h2
      exact ⟨t, fun _ => ⟨h1, h2⟩⟩
    · exact ⟨[], fun h => absurd h ha⟩
  choose name hname using hname
  have hnum : ∀ a, InGrid w h a → (s.now.copy true).get a = s.now.num a := fun a ha => copy_num s.now a (by rw [e1, e2]; exact ha)
  obtain ⟨c1, c2, c3⟩ := listConflicts_spec (s.now.copy true)
  simp only [Conflict, f1, f2, e1, e2] at c1 c2
  have c1' : ∀ a b x, (a, b, x) ∈ listConflicts (s.now.copy true) →
      InGrid w h a ∧ InGrid w h b ∧ Peer w h a b ∧ x ≠ 0 ∧ s.now.num a = x ∧ s.now.num b = x := by
    intro a b x hx
    obtain ⟨h1, h2, h3, h4, h5, h6⟩ := c1 a b x hx
    rw [hnum a h1] at h5
    rw [hnum b h2] at h6
    exact ⟨h1, h2, h3, h4, h5, h6⟩
  have htexts : texts (conflictText (s.now.copy true)) (listConflicts (s.now.copy true)) =
      .ok ((listConflicts (s.now.copy true)).map fun p =>
        "[F]".toList ++ name p.1 ++ " = ".toList ++ name p.2.1 ++ " = ".toList ++ Py.intStr p.2.2) := by
    refine texts_ok _ _ _ ?_
    rintro ⟨a, b, x⟩ hp
    obtain ⟨h1, h2, -⟩ := c1' a b x hp
    unfold conflictText
    rw [(hname a h1).1]
    simp only
    rw [(hname b h2).1]
  rw [htexts] at hst
  simp only [printAll] at hst
  rw [if_neg (by decide), record_print hs] at hst
  refine ⟨v, _, listConflicts (s.now.copy true), name, hst, ?_, ?_, c1', fun a b x ha hb hp hx h1 h2 => ?_, fun a ha => (hname a ha).2, ?_⟩
  · unfold State.history
    show History.mk (s.sudokus.map _) s.index = _
    congr 1
    exact List.map_congr_left fun a ha => at_append s a _ (hs.addr a ha).1
  · exact c3.imp fun {p q} hpq e => by subst e; exact hpq (alike_refl p)
  · constructor
    · intro m1 m2
      have hne : (a, b, x) ≠ (b, a, x) := fun e => by
        have : a = b := (Prod.mk.inj e).1
        subst this
        exact hp.1 rfl
      have := alike_symm
      exact absurd (⟨rfl, .inr ⟨rfl, rfl⟩⟩ : Alike (a, b, x) (b, a, x)) (c3.forall m1 m2 hne)
    · intro m
      rcases c2 a b x ha ⟨hb, hp, hx, by rw [hnum a ha]; exact h1, by rw [hnum b hb]; exact h2⟩ with h | h
      · exact h
      · exact absurd h m
  · simp [begun, Function.comp_def]

/-! ## C71 -/

theorem history_begun {w h : Nat} {s : State} (hs : Fine w h s) (t : State) (h1 : t.sudokus = s.sudokus) (h2 : t.index = s.index)
    (h3 : ∀ a, a < s.heap.length → t.at a = s.at a) (h4 : s.heap.length ≤ t.heap.length) : t.history = s.history ∧ t.now = s.now ∧ Fine w h t := by
  refine ⟨?_, ?_, ⟨by rw [h1, h2]; exact hs.index, fun k hk => ?_⟩⟩
  · unfold State.history
    rw [h1, h2]
    congr 1
    exact List.map_congr_left fun a ha => h3 a (hs.addr a ha).1
  · unfold State.now State.cur
    rw [h1, h2]
    exact h3 _ (hs.addr _ (cur_mem hs)).1
  · rw [h1] at hk
    obtain ⟨a1, a2⟩ := hs.addr k hk
    exact ⟨by omega, by rw [h3 k a1]; exact a2⟩

/-- **C71** The first "hint", and the first one after the numbers have changed, gives the first hint for the position shown. -/
theorem C71_first {w h : Nat} (hw : 0 < w) (hh : 0 < h) (set : Settings) (π : HintOrders) (rounds : Nat) (line : List Char) (s : State)
    (hs : Fine w h s) (hl : firstWord line = some "hint".toList)
    (hf : s.hints = none ∨ ∃ x k i, Shows π s x k i ∧ (x.bw = w ∧ x.bh = h) ∧ ¬ SameGrid w h x.num s.now.num) :
    ∃ v t, step set π rounds line s = (t, none) ∧ Codec.view (s.now.copy true) true ['*'] true = .ok v ∧
      t.out = s.out ++ [.view v, answer (hintList (π s.heap.length) (s.now.copy true)) 0] ∧
      Shows π t (s.now.copy true) s.heap.length 1 ∧ t.history = s.history ∧ t.now = s.now ∧ Fine w h t := by
  obtain ⟨v, t, h1, hv, rfl⟩ := hint_first set π rounds line hw hh hs hl hf
  have hat : ∀ a, a < s.heap.length → ∀ o p q, ({ begun s v with
      heap := s.heap ++ [s.now.copy true, s.now.copy true], hints := p, hinted := q, out := o } : State).at a = s.at a := by
    intro a ha o p q
    simp only [State.at, List.getD_eq_getElem?_getD]
    rw [List.getElem?_append_left ha]
  refine ⟨v, _, h1, hv, rfl, ⟨rfl, by simp, ?_, s.heap.length + 1, rfl, by simp, ?_⟩,
    history_begun hs _ rfl rfl (fun a ha => hat a ha _ _ _) (by simp)⟩
  · simp [State.at, List.getD_eq_getElem?_getD]
  · simp [State.at, List.getD_eq_getElem?_getD]

/-- **C71** As long as the numbers are the same, "hint" gives one hint after the other, and then says that there are no more. -/
theorem C71_next {w h : Nat} (hw : 0 < w) (hh : 0 < h) (set : Settings) (π : HintOrders) (rounds : Nat) (line : List Char) (s : State)
    (hs : Fine w h s) (hl : firstWord line = some "hint".toList) (x : Sudoku) (k i : Nat) (hx : Shows π s x k i)
    (hsz : x.bw = w ∧ x.bh = h) (hnum : SameGrid w h x.num s.now.num) :
    ∃ v t, step set π rounds line s = (t, none) ∧ Codec.view (s.now.copy true) true ['*'] true = .ok v ∧
      t.out = s.out ++ [.view v, answer (hintList (π k) x) i] ∧
      Shows π t x k (i + 1) ∧ t.history = s.history ∧ t.now = s.now ∧ Fine w h t := by
  obtain ⟨v, t, h1, hv, rfl⟩ := hint_next set π rounds line hw hh hs hl hx hsz hnum
  obtain ⟨a, ha1, ha2, ha3⟩ := hx.hinted
  have hat : ∀ a, a < s.heap.length → ({ begun s v with
      hints := some (k, min (i + 1) (hintList (π k) x).length), out := s.out ++ [.view v, answer (hintList (π k) x) i] } : State).at a = s.at a :=
    fun a ha => at_append s a _ ha
  have hlen : s.heap.length ≤ (begun s v).heap.length := by simp [begun]
  exact ⟨v, _, h1, hv, rfl, ⟨rfl, Nat.lt_of_lt_of_le hx.addr hlen, (hat k hx.addr).trans hx.content, a, ha1,
    Nat.lt_of_lt_of_le ha2 hlen, (hat a ha2).trans ha3⟩, history_begun hs _ rfl rfl hat hlen⟩

/-- **C71** Other commands do not disturb this (even if they change candidates). -/
theorem C71_kept {w h : Nat} (set : Settings) (π : HintOrders) (rounds : Nat) (line : List Char) (s t : State) (hs : Fine w h s)
    (hl : firstWord line ≠ some "hint".toList) (ht : step set π rounds line s = (t, none)) (x : Sudoku) (k i : Nat) (hx : Shows π s x k i) :
    Shows π t x k i := by
  obtain ⟨-, -, h1, h2, -⟩ := C53_step set π rounds line s t hs ht
  obtain ⟨a, ha1, ha2, ha3⟩ := hx.hinted
  have key : t.hints = s.hints ∧ t.hinted = s.hinted := by
    rw [step_eq] at ht
    cases hv : Codec.view ((s.at s.cur).copy true) true ['*'] true with
    | error e => rw [hv] at ht; cases ht
    | ok v =>
      rw [hv] at ht
      simp only at ht
      cases hw : firstWord line with
      | none => rw [hw] at ht; cases ht
      | some word =>
        rw [hw] at ht
        simp only at ht
        have hd := dispatch_hints set π rounds line word s.heap.length (begun s v) (by rintro rfl; exact hl hw)
        cases hx : dispatch set π rounds line word s.heap.length (begun s v) with
        | mk u e =>
          rw [hx] at ht hd
          cases e with
          | some e => cases ht
          | none =>
            simp only [Prod.mk.injEq, and_true] at ht
            have hrec : (record s.heap.length u).hints = u.hints ∧ (record s.heap.length u).hinted = u.hinted := by
              unfold record
              split <;> exact ⟨rfl, rfl⟩
            rw [← ht]
            split
            · exact hd
            · exact ⟨hrec.1.trans hd.1, hrec.2.trans hd.2⟩
  exact ⟨by rw [key.1]; exact hx.hints, by have := hx.addr; omega, (h2 k hx.addr).trans hx.content, a, by rw [key.2]; exact ha1, by omega,
    (h2 a ha2).trans ha3⟩

/-- **C71** Typing "hint" again and again lists all hints, followed by "No more hints available." for ever; the game stays as it is. -/
theorem C71_all {w h : Nat} (hw : 0 < w) (hh : 0 < h) (set : Settings) (π : HintOrders) (rounds : Nat) (s : State) (hs : Fine w h s)
    (h0 : s.hints = none) (n : Nat) :
    ∃ v t, run set π rounds (List.replicate n "hint".toList) s = (t, .eof) ∧ t.history = s.history ∧
      t.out = s.out ++ (List.range n).flatMap fun i => [.view v, answer (hintList (π s.heap.length) (s.now.copy true)) i] := by
  obtain ⟨e1, e2⟩ := now_size hs
  obtain ⟨f1, f2⟩ := copy_size s.now
  have hl : firstWord "hint".toList = some "hint".toList := by decide +kernel
  obtain ⟨v, hv⟩ := view_ok (s.now.copy true) (by rw [f1, e1]; exact hw) (by rw [f2, e2]; exact hh)
  have more : ∀ m i u, Fine w h u → Shows π u (s.now.copy true) s.heap.length i → u.now = s.now → ∃ t,
      run set π rounds (List.replicate m "hint".toList) u = (t, .eof) ∧ t.history = u.history ∧
      t.out = u.out ++ (List.range' i m).flatMap fun i => [.view v, answer (hintList (π s.heap.length) (s.now.copy true)) i] := by
    intro m
    induction m with
    | zero => exact fun i u _ _ _ => ⟨u, rfl, rfl, by simp⟩
    | succ m ih =>
      intro i u hu hx hnow
      obtain ⟨v', t, h1, h2, h3, h4, h5, h6, h7⟩ := C71_next hw hh set π rounds "hint".toList u hu hl (s.now.copy true) s.heap.length i hx
        ⟨f1.trans e1, f2.trans e2⟩ (fun c hc => by rw [hnow]; exact copy_num s.now c (by rw [e1, e2]; exact hc))
      rw [hnow, hv] at h2
      cases h2
      obtain ⟨t', i1, i2, i3⟩ := ih (i + 1) t h7 h4 (h6.trans hnow)
      refine ⟨t', ?_, i2.trans h5, ?_⟩
      · rw [List.replicate_succ, run, h1]
        exact i1
      · rw [i3, h3, List.range'_succ, List.flatMap_cons]
        simp
  cases n with
  | zero => exact ⟨v, s, rfl, rfl, by simp⟩
  | succ n =>
    obtain ⟨v', t, h1, h2, h3, h4, h5, h6, h7⟩ := C71_first hw hh set π rounds "hint".toList s hs hl (.inl h0)
    rw [hv] at h2
    cases h2
    obtain ⟨t', i1, i2, i3⟩ := more n 1 t h7 h4 h6
    refine ⟨v, t', ?_, i2.trans h5, ?_⟩
    · rw [List.replicate_succ, run, h1]
      exact i1
    · rw [i3, h3, List.range_eq_range', List.range'_succ, List.flatMap_cons]
      simp

/-- **C71** The hints are those of `hints` (C66), and each is true of every solution contained in the candidates (C29). -/
theorem C71_hints (π : Solvers.Orders Watch) (hπ : π.Ok) (x : Sudoku) :
    (∃ Ls : List (List Solvers.Step), hintList π x = Ls.flatten ∧ List.Forall₂ (Complete x) hintKinds Ls) ∧
    ∀ g, Contains x g → ∀ st ∈ hintList π x, TrueOf g st := by
  constructor
  · obtain ⟨Ls, h1, h2⟩ := C66_hints π hπ x
    refine ⟨Ls, ?_, h2⟩
    have : hintList π x = (Solvers.hints Prod.fst (watch leave) π (x, [])).2.map Prod.snd := rfl
    rw [this, h1]
    simp [Function.comp_def]
  · intro g hg st hst
    obtain ⟨p, hp, rfl⟩ := List.mem_map.1 hst
    exact (C29_true x g hg leave (keeps_leave g) π hπ p hp).1

/-! ## A small game -/

/-- A 2 by 2 sudoku with one number and all candidates calculated. -/
def tiny : Sudoku :=
  { bw := 2, bh := 1, num := fun a => if a = (0, 0) then 1 else 0,
    cand := fun a => if a.1 < 2 ∧ a.2 < 2 then (if (a.1 + a.2) % 2 = 0 then {1} else {2}) else ∅ }

/-- Its solution. -/
def tinySolution : Sudoku := { tiny with num := fun a => if a.1 < 2 ∧ a.2 < 2 then (if (a.1 + a.2) % 2 = 0 then 1 else 2) else 0 }

def tinyGame : State := { heap := [tiny], sudokus := [0], index := 0, solution := tinySolution, hints := none, hinted := none, out := [] }

def plainHints : HintOrders := fun _ => plainWatch _

/-- What is printed besides the sudokus. -/
def said (l : List Event) : List Event := l.filter fun e => match e with | .view _ => false | _ => true

theorem tiny_fine : Fine 2 1 tinyGame := ⟨by decide, fun k hk => by
  have : k = 0 := by simpa [tinyGame] using hk
  subst this
  exact ⟨by decide, rfl, rfl⟩⟩

/-- **C71** Hints are not calculated again when only candidates change: here the candidate 2 of the field in the second row is
removed, and "hint" still says that 2 is its only candidate, which is no hint for this position. -/
theorem C71_stale :
    said (run {} plainHints 9 ["hint".toList, "r2c1<>2".toList, "hint".toList] tinyGame).1.out =
      [.hint (Solvers.Step.single .nakedSingle (0, 1) 2), .hint (Solvers.Step.single .nakedSingle (1, 0) 2)] ∧
    (run {} plainHints 9 ["hint".toList, "r2c1<>2".toList, "hint".toList] tinyGame).1.now.cand (1, 0) = ∅ ∧
    Solvers.Step.single .nakedSingle (1, 0) 2 ∉
      hintList (plainHints 0) (run {} plainHints 9 ["hint".toList, "r2c1<>2".toList, "hint".toList] tinyGame).1.now := by
  decide +kernel

/-- **C53** A wrong number, its undo and redo: the candidates removed by `autofill` come back. -/
example :
    let t := (run {} plainHints 9 ["r1c2=1".toList] tinyGame).1
    let u := (run {} plainHints 9 ["r1c2=1".toList, "undo".toList] tinyGame).1
    let x := (run {} plainHints 9 ["r1c2=1".toList, "undo".toList, "redo".toList] tinyGame).1
    (t.now.num (0, 1), t.now.cand (0, 0), t.now.cand (1, 1), t.index, t.sudokus.length) = (1, ∅, ∅, 1, 2) ∧
    (u.now.num (0, 1), u.now.cand (0, 0), u.now.cand (1, 1), u.index, u.sudokus.length) = (0, {1}, {1}, 0, 2) ∧
    (x.now.num (0, 1), x.now.cand (0, 0), x.now.cand (1, 1), x.index, x.sudokus.length) = (1, ∅, ∅, 1, 2) := by
  decide +kernel

/-- **C73** "check" and "conflicts" after this move. -/
example : said (run {} plainHints 9 ["r1c2=1".toList, "check".toList, "conflicts".toList, "undo".toList, "undo".toList, "exit".toList] tinyGame).1.out =
    [.text "autoremove: r1c2<>1".toList, .text "autoremove: b1p15<>1".toList, .text "[F] r1c2 = 1".toList, .text "[F]r1c1 = r1c2 = 1".toList, .text "Nothing to undo.".toList,
     .text "Unknown command 'exit'".toList] := by
  decide +kernel

/-- **C72** Three ways to end the game, and the normal one. -/
example : (run {} plainHints 9 ["hint".toList, " ".toList, "hint".toList] tinyGame).2 = .crash .IndexError ∧
    (run {} plainHints 9 ["settings".toList] tinyGame).2 = .crash .TypeError ∧
    (run {} plainHints 9 ["r=1".toList] tinyGame).2 = .crash .TypeError ∧
    (run {} plainHints 9 ["r1c2=2".toList, "help".toList] tinyGame).2 = .eof := by
  decide +kernel

/-- **C72** With `autoset`, setting the number 0 keeps the shell busy for ever. -/
example (rounds : Nat) (v : List Char) : Fine 2 1 tinyGame ∧ MoveLine "r1c2=0".toList ∧
    autofill { autoset := true } true rounds { tiny with cand := fun _ => {0} } [.view v] = none :=
  ⟨tiny_fine, ⟨"r1c2=0".toList, by decide +kernel, by decide +kernel⟩,
    C54_forever _ rfl _ _ (fun _ => by decide) _ (0, 1) (by decide) rfl rfl rounds⟩

end Props
