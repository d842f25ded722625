import Verif.Proofs.GameRun

set_option autoImplicit false

/-! # C53: undo and redo -/

open Spec

namespace Props

open Game

/-- **C53** What a command does to the history: "undo" and "redo" move in it; any other command that changes the position (numbers
or candidates) adds the new position behind the current one and forgets those that came later; everything else leaves it alone.
Sudokus in memory are never changed. -/
theorem C53_step {w h : Nat} (set : Settings) (π : HintOrders) (rounds : Nat) (line : List Char) (s t : State) (hs : Fine w h s)
    (ht : step set π rounds line s = (t, none)) :
    Fine w h t ∧ t.solution = s.solution ∧ s.heap.length ≤ t.heap.length ∧ (∀ a, a < s.heap.length → t.at a = s.at a) ∧
    (firstWord line = some "undo".toList → t.history = s.history.undo) ∧
    (firstWord line = some "redo".toList → t.history = s.history.redo) ∧
    (firstWord line ≠ some "undo".toList → firstWord line ≠ some "redo".toList →
      (SamePosition (effect set rounds line (s.now.copy true)) s.now → t.history = s.history) ∧
      (¬ SamePosition (effect set rounds line (s.now.copy true)) s.now →
        t.history = s.history.add (effect set rounds line (s.now.copy true)))) := by
  rw [step_eq] at ht
  cases hv : Codec.view ((s.at s.cur).copy true) true ['*'] true with
  | error e => rw [hv] at ht; cases ht
  | ok v =>
  rw [hv] at ht
  simp only at ht
  cases hw : firstWord line with
  | none => rw [hw] at ht; cases ht
  | some word =>
  rw [hw] at ht
  simp only at ht
  have hlt : s.cur < s.heap.length := (hs.addr _ (cur_mem hs)).1
  have hlen : (begun s v).heap.length = s.heap.length + 1 := by simp [begun]
  have hold : ∀ a, a < s.heap.length → (begun s v).at a = s.at a := fun a ha => at_append s a _ ha
  have hnew : (begun s v).at s.heap.length = s.now.copy true := at_append_self s _
  by_cases hu : word = "undo".toList
  · subst hu
    rw [show dispatch set π rounds line "undo".toList s.heap.length (begun s v) = (if (begun s v).index = 0 then
      { begun s v with out := (begun s v).out ++ [.text "Nothing to undo.".toList] } else { begun s v with index := (begun s v).index - 1 }, none)
      from rfl] at ht
    simp only [true_or, if_true, Prod.mk.injEq, and_true] at ht
    have key : t.sudokus = s.sudokus ∧ t.index = s.index - 1 ∧ t.heap = (begun s v).heap ∧ t.solution = s.solution := by
      rw [← ht]
      split
      · rename_i h0
        exact ⟨rfl, by rw [show s.index = 0 from h0]; exact h0, rfl, rfl⟩
      · exact ⟨rfl, rfl, rfl, rfl⟩
    obtain ⟨k1, k2, k3, k4⟩ := key
    have hat : ∀ a, a < s.heap.length → t.at a = s.at a := fun a ha => by
      rw [← hold a ha]; unfold State.at; rw [k3]
    refine ⟨⟨by rw [k1, k2]; have := hs.index; omega, fun k hk => ?_⟩, k4, by rw [k3, hlen]; omega, hat, fun _ => ?_, fun h => ?_, fun h => absurd rfl h⟩
    · rw [k1] at hk
      obtain ⟨a1, a2⟩ := hs.addr k hk
      exact ⟨by rw [k3, hlen]; omega, by rw [hat k a1]; exact a2⟩
    · unfold State.history History.undo
      rw [k1, k2]
      congr 1
      exact List.map_congr_left fun a ha => hat a (hs.addr a ha).1
    · exact absurd h (by decide)
  by_cases hr : word = "redo".toList
  · subst hr
    rw [show dispatch set π rounds line "redo".toList s.heap.length (begun s v) = (if (begun s v).index + 1 = (begun s v).sudokus.length then
      { begun s v with out := (begun s v).out ++ [.text "Nothing to redo.".toList] } else { begun s v with index := (begun s v).index + 1 }, none)
      from rfl] at ht
    simp only [or_true, if_true, Prod.mk.injEq, and_true] at ht
    have hi := hs.index
    have key : t.sudokus = s.sudokus ∧ t.index = (if s.index + 1 < s.sudokus.length then s.index + 1 else s.index) ∧ t.heap = (begun s v).heap ∧
        t.solution = s.solution := by
      rw [← ht]
      split
      · rename_i h0
        refine ⟨rfl, ?_, rfl, rfl⟩
        rw [if_neg (by rw [show s.index + 1 = s.sudokus.length from h0]; omega)]
        rfl
      · rename_i h0
        refine ⟨rfl, ?_, rfl, rfl⟩
        rw [if_pos (by have : ¬ s.index + 1 = s.sudokus.length := h0; omega)]
        rfl
    obtain ⟨k1, k2, k3, k4⟩ := key
    have hat : ∀ a, a < s.heap.length → t.at a = s.at a := fun a ha => by
      rw [← hold a ha]; unfold State.at; rw [k3]
    refine ⟨⟨by rw [k1, k2]; split <;> omega, fun k hk => ?_⟩, k4, by rw [k3, hlen]; omega, hat, fun h => ?_, fun _ => ?_, fun _ h => absurd rfl h⟩
    · rw [k1] at hk
      obtain ⟨a1, a2⟩ := hs.addr k hk
      exact ⟨by rw [k3, hlen]; omega, by rw [hat k a1]; exact a2⟩
    · exact absurd h (by decide)
    · unfold State.history History.redo
      rw [k1, k2]
      simp only [List.length_map]
      congr 1
      exact List.map_congr_left fun a ha => hat a (hs.addr a ha).1
  · have hd := dispatch_spec set π rounds line word hw s.heap.length (begun s v) (by rw [hlen]; omega) hu hr
    cases hx : dispatch set π rounds line word s.heap.length (begun s v) with
    | mk u e =>
    rw [hx] at ht hd
    cases e with
    | some e => cases ht
    | none =>
    obtain ⟨l, he⟩ := hd
    have he := he rfl
    simp only at ht he l
    rw [if_neg (by simp only [hu, hr]; simp), Prod.mk.injEq] at ht
    have ht := ht.1
    rw [hnew] at he
    have hat : ∀ a, a < s.heap.length → u.at a = s.at a := fun a ha => by rw [l.old a ha, hold a ha]
    have e1 : u.sudokus = s.sudokus := l.sudokus
    have e2 : u.index = s.index := l.index
    have e3 : u.cur = s.cur := by unfold State.cur; rw [e1, e2]
    have e4 : s.heap.length < u.heap.length := by have := l.len; rw [hlen] at this; omega
    have e5 : u.sudokus.map u.at = s.sudokus.map s.at := by
      rw [e1]; exact List.map_congr_left fun a ha => hat a (hs.addr a ha).1
    have hcond : (u.at s.heap.length).equals (u.at u.cur) true = true ↔ SamePosition (effect set rounds line (s.now.copy true)) s.now := by
      rw [samePosition_iff, he, e3, hat _ hlt]
      rfl
    have fineU : Fine w h u := ⟨by rw [e1, e2]; exact hs.index, fun k hk => by
      rw [e1] at hk
      obtain ⟨a1, a2⟩ := hs.addr k hk
      exact ⟨by omega, by rw [hat k a1]; exact a2⟩⟩
    have hundo : some word = some "undo".toList → t.history = s.history.undo := fun h => absurd (Option.some.inj h) hu
    have hredo : some word = some "redo".toList → t.history = s.history.redo := fun h => absurd (Option.some.inj h) hr
    unfold record at ht
    by_cases hc : (u.at s.heap.length).equals (u.at u.cur) true = true
    · rw [if_pos hc] at ht
      subst ht
      refine ⟨fineU, l.solution, Nat.le_of_lt e4, hat, hundo, hredo, fun _ _ => ⟨fun _ => ?_, fun h => absurd (hcond.1 hc) h⟩⟩
      unfold State.history
      rw [e5, e2]
    · rw [if_neg hc] at ht
      subst ht
      refine ⟨⟨?_, fun k hk => ?_⟩, l.solution, Nat.le_of_lt e4, hat, hundo, hredo, fun _ _ => ⟨fun h => absurd (hcond.2 h) hc, fun _ => ?_⟩⟩
      · have := hs.index
        simp only [List.length_append, List.length_take, List.length_singleton, e1, e2]
        omega
      · rcases List.mem_append.1 hk with hk | hk
        · exact fineU.addr k (List.mem_of_mem_take hk)
        · rw [List.mem_singleton] at hk
          subst hk
          refine ⟨e4, ?_⟩
          have := effect_size set rounds line (s.now.copy true)
          have h2 : s.now.bw = w ∧ s.now.bh = h := (hs.addr _ (cur_mem hs)).2
          show (u.at s.heap.length).bw = w ∧ (u.at s.heap.length).bh = h
          rw [he, this.1, this.2, Sudoku.copy_eq]
          exact h2
      · unfold State.history History.add
        simp only [List.map_append, List.map_take, List.map_cons, List.map_nil]
        have : (State.at { u with sudokus := u.sudokus.take (u.index + 1) ++ [s.heap.length], index := u.index + 1 }) = u.at := rfl
        rw [this, he, e5, e2]

/-- **C53** "undo" after a change shows the position before it, with its candidates. -/
theorem C53_undo {w h : Nat} (set : Settings) (π : HintOrders) (rounds : Nat) (line line' : List Char) (s t u : State) (hs : Fine w h s)
    (ht : step set π rounds line s = (t, none)) (h1 : firstWord line ≠ some "undo".toList) (h2 : firstWord line ≠ some "redo".toList)
    (hc : ¬ SamePosition (effect set rounds line (s.now.copy true)) s.now)
    (hu : step set π rounds line' t = (u, none)) (h3 : firstWord line' = some "undo".toList) : u.now = s.now := by
  obtain ⟨ft, -, -, -, -, -, k⟩ := C53_step set π rounds line s t hs ht
  obtain ⟨fu, -, -, -, k', -, -⟩ := C53_step set π rounds line' t u ft hu
  have e := (k h1 h2).2 hc
  have e' := k' h3
  have n1 := history_now fu
  have n2 := history_now hs
  rw [e', e] at n1
  have hi : s.index < s.history.positions.length := by simpa [State.history] using hs.index
  simp only [History.undo, History.add, Nat.add_sub_cancel] at n1
  rw [List.getElem?_append_left (by simp [State.history] at hi ⊢; omega), List.getElem?_take, if_pos (Nat.lt_succ_self _), n2] at n1
  exact (Option.some.inj n1).symm

/-- **C53** "undo" and then "redo": nothing has happened. -/
theorem C53_undo_redo {w h : Nat} (set : Settings) (π : HintOrders) (rounds : Nat) (line line' : List Char) (s t u : State) (hs : Fine w h s)
    (h0 : 0 < s.index) (ht : step set π rounds line s = (t, none)) (h1 : firstWord line = some "undo".toList)
    (hu : step set π rounds line' t = (u, none)) (h2 : firstWord line' = some "redo".toList) : u.history = s.history ∧ u.now = s.now := by
  obtain ⟨ft, -, -, -, k, -, -⟩ := C53_step set π rounds line s t hs ht
  obtain ⟨fu, -, -, -, -, k', -⟩ := C53_step set π rounds line' t u ft hu
  have hi : s.index < s.sudokus.length := hs.index
  have e : u.history = s.history := by
    rw [k' h2, k h1]
    unfold History.redo History.undo State.history
    simp only [List.length_map]
    rw [if_pos (by omega)]
    congr 1
    omega
  refine ⟨e, ?_⟩
  have n1 := history_now fu
  rw [e, history_now hs] at n1
  exact (Option.some.inj n1).symm

/-- **C53** "redo" and then "undo", if there was something to redo. -/
theorem C53_redo_undo {w h : Nat} (set : Settings) (π : HintOrders) (rounds : Nat) (line line' : List Char) (s t u : State) (hs : Fine w h s)
    (h0 : s.index + 1 < s.sudokus.length) (ht : step set π rounds line s = (t, none)) (h1 : firstWord line = some "redo".toList)
    (hu : step set π rounds line' t = (u, none)) (h2 : firstWord line' = some "undo".toList) : u.history = s.history ∧ u.now = s.now := by
  obtain ⟨ft, -, -, -, -, k, -⟩ := C53_step set π rounds line s t hs ht
  obtain ⟨fu, -, -, -, k', -, -⟩ := C53_step set π rounds line' t u ft hu
  have e : u.history = s.history := by
    rw [k' h2, k h1]
    unfold History.redo History.undo State.history
    simp only [List.length_map]
    rw [if_pos h0]
    rfl
  refine ⟨e, ?_⟩
  have n1 := history_now fu
  rw [e, history_now hs] at n1
  exact (Option.some.inj n1).symm

/-- `t` is reached from `s` by some lines of input, the shell still running. -/
inductive After (set : Settings) (π : HintOrders) (rounds : Nat) : State → State → Prop
  | refl (s : State) : After set π rounds s s
  | line (line : List Char) (s t u : State) : step set π rounds line s = (t, none) → After set π rounds t u → After set π rounds s u

/-- **C53** Whatever is typed: as long as the shell runs, the current position exists, and sudokus in memory and the solution stay as
they are. -/
theorem C53_run {w h : Nat} (set : Settings) (π : HintOrders) (rounds : Nat) (s t : State) (hs : Fine w h s) (ha : After set π rounds s t) :
    Fine w h t ∧ t.solution = s.solution ∧ s.heap.length ≤ t.heap.length ∧ ∀ a, a < s.heap.length → t.at a = s.at a := by
  induction ha with
  | refl s => exact ⟨hs, rfl, Nat.le_refl _, fun _ _ => rfl⟩
  | line line s t u h1 _ ih =>
    obtain ⟨k1, k2, k3, k4, -⟩ := C53_step set π rounds line s t hs h1
    obtain ⟨i1, i2, i3, i4⟩ := ih k1
    exact ⟨i1, i2.trans k2, Nat.le_trans k3 i3, fun a ha => (i4 a (by omega)).trans (k4 a ha)⟩

/-- **C53** A new game begins with one position, which has the numbers of the generated sudoku (unless `autoset`). -/
theorem C53_start (set : Settings) (rounds : Nat) (generated solution : Sudoku) (s : State) (e : Option PyErr)
    (hs : newSudoku set rounds generated solution = some (s, e)) :
    Fine generated.bw generated.bh s ∧ s.history = ⟨[s.now], 0⟩ ∧ s.solution = solution ∧ e = none ∧
    (set.autoset = false → s.now.num = generated.num) := by
  have hin : ∀ b, (Solve.initCandidates generated b).bw = generated.bw ∧ (Solve.initCandidates generated b).bh = generated.bh ∧
      (Solve.initCandidates generated b).num = generated.num := by
    intro b; rw [Solve.initCandidates_eq]; exact ⟨rfl, rfl, rfl⟩
  unfold newSudoku at hs
  by_cases hc : set.autocandidates = true
  · simp only [if_pos hc] at hs
    cases ha : autofill set false rounds (Solve.initCandidates generated) [] with
    | none => rw [ha] at hs; cases hs
    | some r =>
      rw [ha] at hs
      obtain ⟨r, e'⟩ := r
      simp only [Option.some.injEq, Prod.mk.injEq] at hs
      obtain ⟨rfl, rfl⟩ := hs
      have h3 : Shrinks (Solve.initCandidates generated) r.sudoku :=
        loop_inv (keeps_shrinks set _) false rounds (s := ⟨_, true, []⟩) (Shrinks.refl _) ha
      have h4 : e' = none := loop_none set false rounds ⟨_, true, []⟩ (by simp) ha
      refine ⟨⟨by simp, fun k hk => ?_⟩, rfl, rfl, h4, fun hset => ?_⟩
      · simp only [List.mem_singleton] at hk
        subst hk
        exact ⟨by simp, h3.bw.trans (hin _).1, h3.bh.trans (hin _).2.1⟩
      · have := loop_inv (keeps_exact set hset (Solve.initCandidates generated)) false rounds (s := ⟨Solve.initCandidates generated, true, []⟩)
          ⟨⟨rfl, rfl⟩, rfl, fun b => ⟨Finset.Subset.refl _, fun v hv hn => absurd hv hn⟩⟩ ha
        exact this.2.1.trans (hin _).2.2
  · simp only [if_neg hc, Option.some.injEq, Prod.mk.injEq] at hs
    obtain ⟨rfl, rfl⟩ := hs
    refine ⟨⟨by simp, fun k hk => ?_⟩, rfl, rfl, rfl, fun _ => (hin _).2.2⟩
    simp only [List.mem_singleton] at hk
    subst hk
    exact ⟨by simp, (hin _).1, (hin _).2.1⟩

end Props
