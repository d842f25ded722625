import Verif.GameSpec
import Verif.Proofs.Game
import Verif.Proofs.Solve
import Verif.Props.Actions
import Verif.Props.Store

set_option autoImplicit false

/-! # Lemmas about the game shell: the loop of `run` -/

open Spec

namespace Game

/-! ## What is printed does not matter for `autofill` -/

theorem removeFrom_out (v : Int) (l : List Cell) (s : Fill) (o : List Event) (cs : List Cell) :
    removeFrom v l { s with out := o } cs = ({ (removeFrom v l s cs).1 with out := o }, (removeFrom v l s cs).2) := by
  induction l generalizing s cs with
  | nil => rfl
  | cons b l ih =>
    rw [removeFrom, removeFrom]
    by_cases h : v ∈ s.sudoku.getCandidates b
    · rw [if_pos h, if_pos (show v ∈ ({ s with out := o } : Fill).sudoku.getCandidates b from h)]
      exact ih { s with sudoku := s.sudoku.removeCandidates b {v}, changed := true } _
    · rw [if_neg h, if_neg (show ¬ v ∈ ({ s with out := o } : Fill).sudoku.getCandidates b from h)]
      exact ih s _

/-- Everything but what is printed. -/
def core (p : Fill × Option PyErr) : Sudoku × Bool × Option PyErr := (p.1.sudoku, p.1.changed, p.2)

theorem removeStep_out (verbose : Bool) (a : Cell) (s : Fill) (o : List Event) :
    core (removeStep verbose a { s with out := o }) = core (removeStep verbose a s) := by
  unfold removeStep
  by_cases h : s.sudoku.get a ≠ 0
  · rw [if_pos h, if_pos (show ({ s with out := o } : Fill).sudoku.get a ≠ 0 from h)]
    simp only [removeFrom_out]
    split
    · cases Notation.encode ((removeFrom (s.sudoku.get a) (s.sudoku.surroundingOf a false) s []).2.map Notation.toPair) 3 3 none [','] [] <;> rfl
    · rfl
  · rw [if_neg h, if_neg (show ¬ ({ s with out := o } : Fill).sudoku.get a ≠ 0 from h)]
    rfl

theorem setStep_out (verbose : Bool) (a : Cell) (s : Fill) (o : List Event) :
    core (setStep verbose a { s with out := o }) = core (setStep verbose a s) := by
  unfold setStep
  by_cases h : s.sudoku.get a = 0 ∧ (s.sudoku.getCandidates a).card = 1
  · rw [if_pos h, if_pos (show ({ s with out := o } : Fill).sudoku.get a = 0 ∧ (({ s with out := o } : Fill).sudoku.getCandidates a).card = 1 from h)]
    obtain ⟨v, hv⟩ := Finset.card_eq_one.1 h.2
    simp only [hv, sortSet_singleton, List.foldl_cons, List.foldl_nil]
    cases verbose with
    | false => rfl
    | true => cases Notation.encode [Notation.toPair a] 3 3 none [','] [] <;> rfl
  · rw [if_neg h, if_neg (show ¬ (({ s with out := o } : Fill).sudoku.get a = 0 ∧ (({ s with out := o } : Fill).sudoku.getCandidates a).card = 1) from h)]
    rfl

theorem each_out {f : Cell → Fill → Fill × Option PyErr} (hf : ∀ a s o, core (f a { s with out := o }) = core (f a s)) (l : List Cell) (s : Fill)
    (o : List Event) : core (each f l { s with out := o }) = core (each f l s) := by
  induction l generalizing s o with
  | nil => rfl
  | cons a l ih =>
    rw [each, each]
    have h := hf a s o
    cases h1 : f a { s with out := o } with
    | mk t e =>
      cases h2 : f a s with
      | mk t' e' =>
        rw [h1, h2] at h
        simp only [core, Prod.mk.injEq] at h
        obtain ⟨h3, h4, h5⟩ := h
        cases h5
        cases e with
        | some e => simp only [core]; rw [h3, h4]
        | none =>
          have : t = { t' with out := t.out } := by cases t; cases t'; simp only at h3 h4; subst h3; subst h4; rfl
          rw [this]
          exact ih t' _

theorem round_out (set : Settings) (verbose : Bool) (s : Fill) (o : List Event) :
    core (round set verbose { s with out := o }) = core (round set verbose s) := by
  have key : ∀ p q : Fill × Option PyErr, core p = core q →
      core (match p with
        | (s, some e) => (s, some e)
        | (s, none) => if set.autoset = true then each (setStep verbose) s.sudoku.cells s else (s, none)) =
      core (match q with
        | (s, some e) => (s, some e)
        | (s, none) => if set.autoset = true then each (setStep verbose) s.sudoku.cells s else (s, none)) := by
    rintro ⟨t, e⟩ ⟨t', e'⟩ h
    simp only [core, Prod.mk.injEq] at h
    obtain ⟨h3, h4, h5⟩ := h
    cases h5
    have : t = { t' with out := t.out } := by cases t; cases t'; simp only at h3 h4; subst h3; subst h4; rfl
    rw [this]
    cases e with
    | some e => rfl
    | none =>
      simp only
      split
      · exact each_out (setStep_out verbose) _ _ _
      · rfl
  unfold round
  refine key _ _ ?_
  simp only
  split
  · exact each_out (removeStep_out verbose) _ { s with changed := false } o
  · rfl

theorem loop_out (set : Settings) (verbose : Bool) (n : Nat) (s : Fill) (o : List Event) :
    (autofillLoop set verbose n { s with out := o }).map core = (autofillLoop set verbose n s).map core := by
  induction n generalizing s o with
  | zero => rfl
  | succ n ih =>
    rw [autofillLoop, autofillLoop]
    have h := round_out set verbose s o
    cases h1 : round set verbose { s with out := o } with
    | mk t e =>
      cases h2 : round set verbose s with
      | mk t' e' =>
        rw [h1, h2] at h
        simp only [core, Prod.mk.injEq] at h
        obtain ⟨h3, h4, h5⟩ := h
        cases h5
        have : t = { t' with out := t.out } := by cases t; cases t'; simp only at h3 h4; subst h3; subst h4; rfl
        rw [this]
        cases e with
        | some e => rfl
        | none =>
          simp only
          split
          · exact ih t' _
          · rfl

theorem autofill_out (set : Settings) (verbose : Bool) (n : Nat) (x : Sudoku) (o o' : List Event) :
    (autofill set verbose n x o).map core = (autofill set verbose n x o').map core :=
  loop_out set verbose n ⟨x, true, o'⟩ o

/-! ## Memory -/

theorem at_set_ne (s : State) (k a : Nat) (x : Sudoku) (h : a ≠ k) : ({ s with heap := s.heap.set k x } : State).at a = s.at a := by
  simp only [State.at, List.getD_eq_getElem?_getD]
  rw [List.getElem?_set_ne (Ne.symm h)]

theorem at_set_self (s : State) (k : Nat) (x : Sudoku) (h : k < s.heap.length) : ({ s with heap := s.heap.set k x } : State).at k = x := by
  simp only [State.at, List.getD_eq_getElem?_getD]
  rw [List.getElem?_set_self h]
  rfl

theorem at_append (s : State) (a : Nat) (x : Sudoku) (h : a < s.heap.length) : ({ s with heap := s.heap ++ [x] } : State).at a = s.at a := by
  simp only [State.at, List.getD_eq_getElem?_getD]
  rw [List.getElem?_append_left h]

theorem at_append_self (s : State) (x : Sudoku) : ({ s with heap := s.heap ++ [x] } : State).at s.heap.length = x := by
  simp [State.at, List.getD_eq_getElem?_getD]

/-- What commands do not change. -/
structure Later (k : Nat) (s t : State) : Prop where
  len : s.heap.length ≤ t.heap.length
  old : ∀ a, a < k → t.at a = s.at a
  sudokus : t.sudokus = s.sudokus
  index : t.index = s.index
  solution : t.solution = s.solution

theorem Later.refl (k : Nat) (s : State) : Later k s s := ⟨Nat.le_refl _, fun _ _ => rfl, rfl, rfl, rfl⟩

theorem later_nextHint (π : Nat → Solvers.Orders (Sudoku × List (Sudoku × Solvers.Step))) (k : Nat) (s : State) :
    Later k s (nextHint π s) ∧ (nextHint π s).heap = s.heap := by
  unfold nextHint
  cases s.hints with
  | none => exact ⟨Later.refl _ _, rfl⟩
  | some p =>
    obtain ⟨a, i⟩ := p
    simp only
    cases (hintList (π a) (s.at a))[i]? with
    | some st => exact ⟨⟨Nat.le_refl _, fun _ _ => rfl, rfl, rfl, rfl⟩, rfl⟩
    | none => exact ⟨⟨Nat.le_refl _, fun _ _ => rfl, rfl, rfl, rfl⟩, rfl⟩

theorem later_hint (π : Nat → Solvers.Orders (Sudoku × List (Sudoku × Solvers.Step))) (k : Nat) (s : State) :
    Later s.heap.length s (hint π k s) := by
  unfold hint
  cases fresh k s with
  | false => exact (later_nextHint π _ s).1
  | true =>
    rw [if_pos rfl]
    have := (later_nextHint π s.heap.length { s with heap := s.heap ++ [(s.at k).copy true], hinted := some s.heap.length, hints := some (k, 0) }).1
    refine ⟨?_, fun a ha => ?_, this.sudokus, this.index, this.solution⟩
    · refine Nat.le_trans ?_ this.len
      simp
    · rw [this.old a ha]
      exact at_append s a _ ha

theorem later_set (k : Nat) (s : State) (x : Sudoku) (o : List Event) : Later k s { s with heap := s.heap.set k x, out := o } :=
  ⟨by simp, fun a ha => at_set_ne s k a x (by omega), rfl, rfl, rfl⟩

/-- The fields of the action exist. -/
def LegalAction (n : Nat) : Actions.Action Int → Prop
  | .setNumber cs _ => Props.Legal n cs
  | .removeCandidates cs _ => Props.Legal n cs

theorem decode_legal {line : List Char} {w h : Nat} {act : Actions.Action Int} (hd : Notation.decodeAction line w h = .ok act) (x : Sudoku)
    (h1 : x.bw = w) (h2 : x.bh = h) : ∃ y, Actions.call act x = (y, .ok ()) ∧ y.bw = w ∧ y.bh = h := by
  have leg : ∀ (l : List Cell) (sep : List Char) (t : List Char), Notation.decode t w h [','] sep = .ok l → Props.Legal x.n (l.map Notation.toPair) := by
    intro l sep t hl rc hrc
    obtain ⟨_, _, _, h4⟩ := Props.C44_decode t w h _ _ l hl
    obtain ⟨a, ha, rfl⟩ := List.mem_map.1 hrc
    have := h4 a ha
    simp only [Int.toNat_natCast] at this
    refine ⟨a, ⟨?_, .inl rfl⟩, ⟨?_, .inl rfl⟩⟩
    · unfold Sudoku.n; rw [h1, h2]; exact this.1
    · unfold Sudoku.n; rw [h1, h2]; exact this.2
  have hlegal : LegalAction x.n act := by
    unfold Notation.decodeAction at hd
    simp only at hd
    split at hd
    · have go : ∀ p : List Char × List Char, (match Notation.decode p.2 w h [','] [] with
          | .error e => .error e
          | .ok coordinates => match Py.ints (p.1.map fun c => [c]) with
            | .error e => .error e
            | .ok candidates => .ok (.removeCandidates (coordinates.map Notation.toPair) candidates) : Except PyErr (Actions.Action Int)) = .ok act →
          LegalAction x.n act := by
        intro p hd
        cases h3 : Notation.decode p.2 w h [','] [] with
        | error e => rw [h3] at hd; cases hd
        | ok cs =>
          rw [h3] at hd
          simp only at hd
          cases h4 : Py.ints (p.1.map fun c => [c]) with
          | error e => rw [h4] at hd; cases hd
          | ok vs => rw [h4] at hd; cases hd; exact leg cs _ _ h3
      exact go _ hd
    · cases h3 : Py.cut ['<', '>'] (Py.strip line) with
      | some p =>
        rw [h3] at hd
        obtain ⟨l, r⟩ := p
        simp only at hd
        cases h4 : Py.ints (r.map fun c => [c]) with
        | error e => rw [h4] at hd; cases hd
        | ok vs =>
          rw [h4] at hd
          simp only at hd
          cases h5 : Notation.decode l w h [','] [] with
          | error e => rw [h5] at hd; cases hd
          | ok cs => rw [h5] at hd; cases hd; exact leg cs _ _ h5
      | none =>
        rw [h3] at hd
        simp only at hd
        cases h3 : Py.cut ['='] (Py.strip line) with
        | some p =>
          rw [h3] at hd
          obtain ⟨l, r⟩ := p
          simp only at hd
          cases h4 : Py.int r with
          | error e => rw [h4] at hd; cases hd
          | ok vs =>
            rw [h4] at hd
            simp only at hd
            cases h5 : Notation.decode l w h [','] [] with
            | error e => rw [h5] at hd; cases hd
            | ok cs => rw [h5] at hd; cases hd; exact leg cs _ _ h5
        | none => rw [h3] at hd; cases hd
  cases act with
  | setNumber cs v =>
    obtain ⟨t, h3, h4, h5, _⟩ := Props.C47_set x cs v hlegal
    exact ⟨t, h3, h4.trans h1, h5.trans h2⟩
  | removeCandidates cs vs =>
    obtain ⟨t, h3, h4, h5, _⟩ := Props.C47_remove x cs vs hlegal
    exact ⟨t, h3, h4.trans h1, h5.trans h2⟩

/-- The commands other than "undo" and "redo". -/
theorem dispatch_spec (set : Settings) (π : Nat → Solvers.Orders (Sudoku × List (Sudoku × Solvers.Step))) (rounds : Nat) (line word : List Char)
    (hword : firstWord line = some word) (k : Nat) (s : State) (hk : k < s.heap.length) (hu : word ≠ "undo".toList) (hr : word ≠ "redo".toList) :
    Later k s (dispatch set π rounds line word k s).1 ∧
    ((dispatch set π rounds line word k s).2 = none → (dispatch set π rounds line word k s).1.at k = effect set rounds line (s.at k)) := by
  have special : ∀ v, v ∈ commandWords → v ≠ "candidates".toList → word = v → effect set rounds line (s.at k) = s.at k := by
    intro v hv hc hw
    unfold effect
    rw [hword, hw, if_neg (by simpa using hc), if_pos ⟨v, hv, rfl⟩]
  have hprint : ∀ r, Later k s (printAll r s).1 ∧ (printAll r s).1.at k = s.at k := by
    intro r
    unfold printAll
    cases r with
    | error e => exact ⟨Later.refl _ _, rfl⟩
    | ok ts => exact ⟨⟨Nat.le_refl _, fun _ _ => rfl, rfl, rfl, rfl⟩, rfl⟩
  unfold dispatch
  by_cases h1 : word = "hint".toList
  · rw [if_pos h1, special _ (by decide) (by decide) h1]
    have h2 := later_hint π k s
    exact ⟨⟨h2.len, fun a ha => h2.old a (by omega), h2.sudokus, h2.index, h2.solution⟩, fun _ => h2.old k hk⟩
  rw [if_neg h1]
  by_cases h2 : word = "candidates".toList
  · rw [if_pos h2]
    refine ⟨later_set k s _ s.out, fun _ => ?_⟩
    unfold effect
    rw [hword, h2, if_pos rfl]
    exact at_set_self s k _ hk
  rw [if_neg h2]
  by_cases h3 : word = "conflicts".toList
  · rw [if_pos h3, special _ (by decide) (by decide) h3]
    exact ⟨(hprint _).1, fun _ => (hprint _).2⟩
  rw [if_neg h3]
  by_cases h4 : word = "settings".toList
  · rw [if_pos h4]
    exact ⟨Later.refl _ _, by simp⟩
  rw [if_neg h4]
  by_cases h5 : word = "check".toList
  · rw [if_pos h5, special _ (by decide) (by decide) h5]
    exact ⟨(hprint _).1, fun _ => (hprint _).2⟩
  rw [if_neg h5, if_neg hu, if_neg hr]
  have heff : effect set rounds line (s.at k) = match Notation.decodeAction line (s.at k).bw (s.at k).bh with
      | .error _ => s.at k
      | .ok action => match autofill set true rounds (Actions.call action (s.at k)).1 [] with
        | none => (Actions.call action (s.at k)).1
        | some r => r.1.sudoku := by
    have hneg : ¬ ∃ v ∈ commandWords, some word = some v := by
      rintro ⟨v, hv, hw⟩
      cases hw
      simp only [commandWords, List.mem_cons, List.not_mem_nil, or_false] at hv
      rcases hv with h | h | h | h | h | h | h <;> contradiction
    unfold effect
    rw [hword, if_neg (by simpa using h2), if_neg hneg]
    rfl
  rw [heff]
  unfold act
  cases hd : Notation.decodeAction line (s.at k).bw (s.at k).bh with
  | error e =>
    have : Later k s (unknown line s).1 ∧ (unknown line s).1.at k = s.at k := ⟨⟨Nat.le_refl _, fun _ _ => rfl, rfl, rfl, rfl⟩, rfl⟩
    cases e <;> first | exact ⟨this.1, fun _ => this.2⟩ | exact ⟨Later.refl _ _, fun h => by cases h⟩
  | ok action =>
    obtain ⟨y, hy, _, _⟩ := decode_legal hd (s.at k) rfl rfl
    simp only [hy]
    have hout := autofill_out set true rounds y s.out []
    cases ha : autofill set true rounds y s.out with
    | none => exact ⟨Later.refl _ _, fun h => by cases h⟩
    | some r =>
      rw [ha] at hout
      cases hb : autofill set true rounds y [] with
      | none => rw [hb] at hout; cases hout
      | some r' =>
        rw [hb] at hout
        simp only [Option.map_some, Option.some.injEq, core, Prod.mk.injEq] at hout
        obtain ⟨h6, _, h7⟩ := hout
        obtain ⟨r, e⟩ := r
        simp only at h6 h7 ⊢
        rw [← h6]
        have hu : Later k s (unknown line { s with heap := s.heap.set k r.sudoku, out := r.out }).1 ∧
            (unknown line { s with heap := s.heap.set k r.sudoku, out := r.out }).1.at k = r.sudoku := by
          have := later_set k s r.sudoku r.out
          exact ⟨⟨this.len, this.old, this.sudokus, this.index, this.solution⟩, at_set_self s k _ hk⟩
        cases e with
        | none => exact ⟨later_set k s _ _, fun _ => at_set_self s k _ hk⟩
        | some e =>
          cases e <;> first | exact ⟨hu.1, fun _ => hu.2⟩ | exact ⟨later_set k s _ _, fun h => by cases h⟩

theorem samePosition_iff (x y : Sudoku) : x.equals y true = true ↔ SamePosition x y := by
  rw [Props.C07_equals]
  refine forall_congr' fun a => forall_congr' fun _ => ?_
  simp [Sudoku.get, Sudoku.getCandidates]

theorem effect_size (set : Settings) (rounds : Nat) (line : List Char) (x : Sudoku) :
    (effect set rounds line x).bw = x.bw ∧ (effect set rounds line x).bh = x.bh := by
  unfold effect
  split
  · rw [Solve.initCandidates_eq]; exact ⟨rfl, rfl⟩
  split
  · exact ⟨rfl, rfl⟩
  cases hd : Notation.decodeAction line x.bw x.bh with
  | error e => exact ⟨rfl, rfl⟩
  | ok action =>
    obtain ⟨y, hy, h1, h2⟩ := decode_legal hd x rfl rfl
    simp only [hy]
    cases ha : autofill set true rounds y [] with
    | none => exact ⟨h1, h2⟩
    | some r =>
      have h3 : Shrinks y r.1.sudoku := loop_inv (keeps_shrinks set y) true rounds (s := ⟨y, true, []⟩) (Shrinks.refl y) ha
      exact ⟨h3.bw.trans h1, h3.bh.trans h2⟩

theorem cur_mem {w h : Nat} {s : State} (hs : Fine w h s) : s.cur ∈ s.sudokus := by
  unfold State.cur
  rw [List.getD_eq_getElem?_getD, List.getElem?_eq_getElem hs.index]
  exact List.getElem_mem _

theorem history_now {w h : Nat} {s : State} (hs : Fine w h s) : s.history.positions[s.history.index]? = some s.now := by
  unfold State.history State.now State.cur
  simp [List.getD_eq_getElem?_getD, List.getElem?_eq_getElem hs.index]

/-- The state in which a command is carried out. -/
def begun (s : State) (t : List Char) : State := { s with heap := s.heap ++ [(s.at s.cur).copy true], out := s.out ++ [.view t] }

/-- `step`, unfolded. -/
theorem step_eq (set : Settings) (π : HintOrders) (rounds : Nat) (line : List Char) (s : State) :
    step set π rounds line s = match Codec.view ((s.at s.cur).copy true) true ['*'] true with
      | .error e => ({ s with heap := s.heap ++ [(s.at s.cur).copy true] }, some (.crash e))
      | .ok t => match firstWord line with
        | none => (begun s t, some (.crash .IndexError))
        | some word => match dispatch set π rounds line word s.heap.length (begun s t) with
          | (s, some e) => (s, some e)
          | (u, none) => (if word = "undo".toList ∨ word = "redo".toList then u else record s.heap.length u, none) := by
  unfold step
  simp only
  rw [at_append_self]
  rfl

end Game
