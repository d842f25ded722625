import Verif.Proofs.Shell
import Verif.ShellSpec
import Mathlib.Data.List.InsertIdx
import Mathlib.Data.List.Nodup

set_option autoImplicit false

/-!
# Properties of the shell (C49 - C52)

They hold for every `Lib`, that is whatever the called library functions do and whatever `literal_eval` makes of an argument.
-/

namespace Props

open Shell

variable {σ ν ω : Type}

/-! ## C49: the stack -/

/-- The contents of the sudokus on the stack, the last one pushed at the end. -/
def stackValues (lib : Lib σ ν ω) (s : State σ ν ω) : List σ := s.stack.map fun a => s.heap.getD a lib.fresh

/-- The current sudoku and those on the stack are different objects. -/
structure Separate (s : State σ ν ω) : Prop where
  cur : s.cur < s.heap.length
  stack : ∀ a ∈ s.stack, a < s.heap.length
  nodup : s.stack.Nodup
  apart : s.cur ∉ s.stack

private theorem getD_mem {l : List Nat} {k : Nat} (h : k < l.length) : l.getD k 0 ∈ l := by
  rw [List.getD_eq_getElem?_getD, List.getElem?_eq_getElem h]
  exact List.getElem_mem h

private theorem notMem_eraseIdx {l : List Nat} (hl : l.Nodup) {k : Nat} (h : k < l.length) : l.getD k 0 ∉ l.eraseIdx k := by
  rw [List.getD_eq_getElem?_getD, List.getElem?_eq_getElem h, Option.getD_some]
  intro hm
  rw [List.mem_eraseIdx_iff_getElem] at hm
  obtain ⟨j, hj, hjk, he⟩ := hm
  exact hjk ((List.Nodup.getElem_inj_iff hl).1 he)

theorem Separate.pre {lib : Lib σ ν ω} {s : State σ ν ω} (h : Separate s) (p : Pre σ ω)
    (hp : ∀ k, p = .pop k → k < s.stack.length) : Separate (p.apply lib s) := by
  cases p with
  | keep => exact h
  | world w => exact ⟨h.cur, h.stack, h.nodup, h.apart⟩
  | stop => exact ⟨h.cur, h.stack, h.nodup, h.apart⟩
  | call x w =>
    refine ⟨?_, fun a ha => ?_, h.nodup, h.apart⟩
    · simp only [Pre.apply, List.length_set]; exact h.cur
    · simp only [Pre.apply, List.length_set]; exact h.stack a ha
  | push =>
    refine ⟨?_, fun a ha => ?_, ?_, ?_⟩
    · simp only [Pre.apply, List.length_append, List.length_singleton]; have := h.cur; omega
    · simp only [Pre.apply, List.length_append, List.length_singleton, List.mem_append, List.mem_singleton] at ha ⊢
      rcases ha with ha | rfl
      · have := h.stack a ha; omega
      · omega
    · simp only [Pre.apply]
      rw [List.nodup_append]
      refine ⟨h.nodup, by simp, fun a ha b hb => ?_⟩
      simp at hb
      have := h.stack a ha
      omega
    · simp only [Pre.apply, List.mem_append, List.mem_singleton, not_or]
      have := h.cur
      exact ⟨h.apart, by omega⟩
  | pop k =>
    have hk := hp k rfl
    refine ⟨h.stack _ (getD_mem hk), fun a ha => h.stack a (List.mem_of_mem_eraseIdx ha), ?_, notMem_eraseIdx h.nodup hk⟩
    exact h.nodup.sublist (List.eraseIdx_sublist _ _)

theorem Separate.post {s : State σ ν ω} (h : Separate s) (i : Bool) (q : Post σ) : Separate (q.apply i s).1 := by
  cases q with
  | done => exact h
  | text t => exact ⟨h.cur, h.stack, h.nodup, h.apart⟩
  | error e => exact ⟨h.cur, h.stack, h.nodup, h.apart⟩
  | alloc x =>
    refine ⟨?_, fun a ha => ?_, h.nodup, fun ha => ?_⟩
    · simp [Post.apply]
    · simp only [Post.apply, List.length_append, List.length_singleton] at ha ⊢
      have := h.stack a ha
      omega
    · have := h.stack _ ha
      simp [Post.apply] at this

theorem kept_separate (lib : Lib σ ν ω) (i : Bool) : Kept lib i (fun _ => True) Separate := by
  constructor
  · intro c s _ hc hs
    obtain ⟨f, hf, he⟩ := executeBody_form lib i c hc
    rw [he]
    exact (hs.pre _ fun k hk => ((hf (s.core lib)).pop k hk).2.1).post i _
  · intro s n b p o e hs
    exact ⟨hs.cur, hs.stack, hs.nodup, hs.apart⟩

theorem separate_init (lib : Lib σ ν ω) (i : Bool) (w : ω) : Good (fun _ => True) Separate (init lib i w) :=
  ⟨⟨by simp [init], by simp [init], by simp [init], by simp [init]⟩, by simp [init]⟩

theorem Separate.good {s : State σ ν ω} (h : Separate s) (hb : ∀ c ∈ s.body, c.name ≠ .loop) :
    Good (fun _ => True) Separate s := ⟨h, fun c hc => ⟨trivial, hb c hc⟩⟩

/-- **C49** Whatever lines have been executed: the current sudoku and those on the stack are different objects. -/
theorem C49_reachable (lib : Lib σ ν ω) (i : Bool) (w : ω) (lines : List (List Char)) :
    Separate (seq (executeLine lib i) lines (init lib i w)).1 :=
  ((kept_separate lib i).lines (fun _ _ _ _ _ _ => .inl trivial) (separate_init lib i w)).1

/-- **C49** The same for a script or an interactive session. -/
theorem C49_run (lib : Lib σ ν ω) (i : Bool) (w : ω) (greeting : List Char) (input : List (List Char)) :
    Separate (run lib i greeting input (init lib i w)).1 := by
  unfold run
  refine ((kept_separate lib i).run input [] ?_).1
  split
  · exact ⟨⟨by simp [init, State.write], by simp [init, State.write], by simp [init, State.write], by simp [init, State.write]⟩,
      by simp [init, State.write]⟩
  · exact separate_init lib i w

private theorem parse_push (lib : Lib σ ν ω) : parse lib (Py.strip "push".toList) = .ok ⟨.push, [], []⟩ := rfl

private theorem parse_pop (lib : Lib σ ν ω) : parse lib (Py.strip "pop".toList) = .ok ⟨.pop, [], []⟩ := rfl

theorem part_plain {lib : Lib σ ν ω} {i : Bool} {s : State σ ν ω} (hl : s.loopN = none) {part : List Char} {c : Command ν}
    (hp : parse lib (Py.strip part) = .ok c) : executePart lib i part s = execute lib i c s := by
  unfold executePart executePartWith
  rw [hp]
  simp only
  split
  · rfl
  · rw [if_neg (by rw [hl]; simp)]

theorem line_part (lib : Lib σ ν ω) (i : Bool) {part : List Char} (h : ';' ∉ part) (s : State σ ν ω) :
    executeLine lib i part s = executePart lib i part s := by
  unfold executeLine
  have : Py.splitGo [';'] part 0 [] = [part] := by
    have h1 := Py.split_join (sep := [';']) (by simp) (l := [part]) (by simp) (by
      intro x hx c hc
      simp only [List.mem_singleton] at hx ⊢
      subst hx
      rintro rfl
      exact h hc)
    unfold Py.split at h1
    rw [if_neg (by simp)] at h1
    exact Except.ok.inj h1
  rw [this, seq]
  cases executePart lib i part s with
  | mk t o => cases o <;> rfl

/-- **C49** `push` adds a copy of the current sudoku; nothing else changes. -/
theorem C49_push (lib : Lib σ ν ω) (i : Bool) (s : State σ ν ω) (hs : Separate s) (hl : s.loopN = none) :
    ∃ t, executeLine lib i "push".toList s = (t, none) ∧ Separate t ∧ t.sudoku lib = s.sudoku lib ∧
      stackValues lib t = stackValues lib s ++ [lib.copy (s.sudoku lib)] ∧ t.out = s.out ∧ t.errors = s.errors ∧
      t.world = s.world ∧ t.running = s.running ∧ t.loopN = s.loopN ∧ t.body = s.body := by
  rw [line_part lib i (by decide), part_plain hl (parse_push lib)]
  refine ⟨_, rfl, hs.pre (lib := lib) .push (by simp), ?_, ?_, rfl, rfl, rfl, rfl, rfl, rfl⟩
  · simp only [State.sudoku, List.getD_eq_getElem?_getD]
    rw [List.getElem?_append_left hs.cur]
  · simp only [stackValues, List.map_append, List.map_cons, List.map_nil]
    congr 1
    · refine List.map_congr_left fun a ha => ?_
      rw [List.getD_eq_getElem?_getD, List.getD_eq_getElem?_getD, List.getElem?_append_left (hs.stack a ha)]
    · simp [List.getD_eq_getElem?_getD]

theorem pop_values (lib : Lib σ ν ω) {s : State σ ν ω} {k : Nat} (hk : k < s.stack.length) :
    (stackValues lib s)[k]? = some (((Pre.pop k : Pre σ ω).apply lib s).sudoku lib) ∧
    stackValues lib ((Pre.pop k : Pre σ ω).apply lib s) = (stackValues lib s).eraseIdx k := by
  constructor
  · simp [stackValues, Pre.apply, State.sudoku, hk]
  · simp only [stackValues, Pre.apply]
    rw [List.eraseIdx_map]

/-- **C49** `pop` makes the sudoku pushed last the current one and removes it from the stack. -/
theorem C49_pop (lib : Lib σ ν ω) (i : Bool) (s : State σ ν ω) (hs : Separate s) (hl : s.loopN = none) (l : List σ) (x : σ)
    (hv : stackValues lib s = l ++ [x]) :
    ∃ t, executeLine lib i "pop".toList s = (t, none) ∧ Separate t ∧ t.sudoku lib = x ∧ stackValues lib t = l ∧
      t.out = s.out ∧ t.errors = s.errors ∧ t.world = s.world ∧ t.running = s.running ∧ t.loopN = s.loopN := by
  have hlen : s.stack.length = l.length + 1 := by
    have := congrArg List.length hv
    simpa [stackValues] using this
  have h0 : s.stack ≠ [] := by
    intro h; rw [h] at hlen; simp at hlen
  have hk : s.stack.length - 1 < s.stack.length := by omega
  rw [line_part lib i (by decide), part_plain hl (parse_pop lib)]
  have he : execute lib i ⟨.pop, [], []⟩ s = ((Pre.pop (s.stack.length - 1) : Pre σ ω).apply lib s, none) := by
    unfold execute executeWith callWith
    simp only [bindOne]
    unfold pop
    rw [if_neg h0]
    rfl
  obtain ⟨h1, h2⟩ := pop_values lib hk
  rw [he]
  refine ⟨_, rfl, hs.pre _ (by simp; omega), ?_, ?_, rfl, rfl, rfl, rfl, rfl⟩
  · rw [hv, hlen] at h1
    simpa [hlen] using h1.symm
  · rw [h2, hv, hlen, Nat.add_sub_cancel, List.eraseIdx_append_of_length_le (le_refl _)]
    simp

theorem natStr_head (n : Nat) : ∃ c t, Py.natStr n = c :: t ∧ Py.isDigit c = true := by
  cases h : Py.natStr n with
  | nil => exact absurd h (Py.natStr_ne_nil n)
  | cons c t => exact ⟨c, t, rfl, Py.natStr_digits n c (by rw [h]; simp)⟩

theorem command_digit {s : List Char} {c : Char} {t : List Char} (h : s = c :: t) (hc : Py.isDigit c = true) : command? s = none := by
  unfold command?
  rw [Option.map_eq_none_iff, List.find?_eq_none]
  intro p hp
  simp only [decide_eq_true_eq]
  rintro h'
  have key : ∀ p ∈ commands, ∀ c, p.1.head? = some c → Py.isDigit c = false := by decide
  have := key p hp c (by rw [h', h]; rfl)
  rw [hc] at this
  cases this

/-- A word, a blank and a number. -/
theorem parse_number (lib : Lib σ ν ω) (w : List Char) (hw : ∀ c ∈ w, Py.isSpace c = false) (hw0 : w ≠ []) (name : Name)
    (hn : command? w = some name) (n : Nat) (v : ν) (hv : lib.literal (Py.natStr n) = .ok v) :
    parse lib (Py.strip (w ++ ' ' :: Py.natStr n)) = .ok ⟨name, [.value v], []⟩ := by
  have hsp : ∀ c ∈ w, c ≠ ' ' := by
    rintro c hc rfl
    exact absurd (hw _ hc) (by decide)
  have hdig : ∀ {d : Char}, Py.isDigit d = false → d ∉ Py.natStr n := fun hd hm => Py.digit_ne (Py.natStr_digits n _ hm) hd rfl
  have h1 : Py.strip (w ++ ' ' :: Py.natStr n) = w ++ ' ' :: Py.natStr n := by
    refine Py.stripBy_ends (fun c hc => ?_) (fun c hc => ?_)
    · cases w with
      | nil => exact absurd rfl hw0
      | cons d w =>
        simp at hc
        exact hw c (by simp [hc])
    · rw [show w ++ ' ' :: Py.natStr n = (w ++ [' ']) ++ Py.natStr n by simp, List.getLast?_append] at hc
      cases hl : (Py.natStr n).getLast? with
      | none => exact absurd (List.getLast?_eq_none_iff.1 hl) (Py.natStr_ne_nil n)
      | some d =>
        rw [hl] at hc
        simp at hc
        subst hc
        exact Py.not_isSpace_of_digit (Py.natStr_digits n _ (List.mem_of_getLast? hl))
  have h2 : Py.splitGo [' '] (w ++ ' ' :: Py.natStr n) 0 [] = [w, Py.natStr n] := by
    have := Py.split_join (sep := [' ']) (by simp) (l := [w, Py.natStr n]) (by simp) (by
      intro x hx c hc
      simp only [List.mem_cons, List.not_mem_nil, or_false] at hx ⊢
      rcases hx with rfl | rfl
      · exact hsp c hc
      · rintro rfl; exact hdig (by decide) hc)
    unfold Py.split at this
    rw [if_neg (by simp)] at this
    have h3 := Except.ok.inj this
    simpa [Py.join] using h3
  obtain ⟨c, t, hd, hc⟩ := natStr_head n
  unfold parse
  rw [h1, h2]
  simp only
  rw [parseItems, Py.cut_none (hdig (by decide))]
  simp only
  rw [if_neg (by rw [command_digit hd hc]; simp), if_neg, hv]
  · simp only [parseItems]
    rw [hn]
    rfl
  · intro hm
    unfold keywords at hm
    simp only [List.mem_singleton] at hm
    rw [hd] at hm
    have h4 : c = 'e' := (List.cons.inj hm).1
    rw [h4] at hc
    exact absurd hc (by decide)

theorem semicolon_number (w : List Char) (hw : ';' ∉ w) (n : Nat) : ';' ∉ w ++ ' ' :: Py.natStr n := by
  intro hm
  rcases List.mem_append.1 hm with hm | hm
  · exact hw hm
  · rcases List.mem_cons.1 hm with hm | hm
    · exact absurd hm (by decide)
    · exact absurd (Py.natStr_digits n _ hm) (by decide)

/-- Python reads the digits of `n` as the number `n`. -/
structure Reads (lib : Lib σ ν ω) (n : Nat) (v : ν) : Prop where
  literal : lib.literal (Py.natStr n) = .ok v
  toInt : lib.toInt v = .ok n
  isNone : lib.isNone v = false
  isEnd : lib.isEnd v = false

/-- **C49** `pop k` takes the sudoku at position `k`, counted from the one pushed first. -/
theorem C49_pop_at (lib : Lib σ ν ω) (i : Bool) (s : State σ ν ω) (hs : Separate s) (hl : s.loopN = none) (k : Nat) (v : ν)
    (hv : Reads lib k v) (x : σ) (hx : (stackValues lib s)[k]? = some x) :
    ∃ t, executeLine lib i ("pop".toList ++ ' ' :: Py.natStr k) s = (t, none) ∧ Separate t ∧ t.sudoku lib = x ∧
      stackValues lib t = (stackValues lib s).eraseIdx k ∧ t.out = s.out ∧ t.errors = s.errors ∧ t.world = s.world ∧
      t.running = s.running ∧ t.loopN = s.loopN := by
  have hk : k < s.stack.length := by
    have := (List.getElem?_eq_some_iff.1 hx).1
    simpa [stackValues] using this
  have h0 : s.stack ≠ [] := by
    intro h; rw [h] at hk; simp at hk
  rw [line_part lib i (semicolon_number _ (by decide) k), part_plain hl (parse_number lib _ (by decide) (by decide) .pop rfl k v hv.literal)]
  have he : execute lib i ⟨.pop, [.value v], []⟩ s = ((Pre.pop k : Pre σ ω).apply lib s, none) := by
    unfold execute executeWith callWith
    simp only [bindOne]
    unfold pop
    rw [if_neg h0]
    simp only [givenArg, hv.isNone, Bool.false_eq_true, if_false, argInt, hv.toInt]
    rw [if_pos (by omega)]
    rfl
  obtain ⟨h1, h2⟩ := pop_values lib hk
  rw [he]
  refine ⟨_, rfl, hs.pre _ (by simpa using hk), ?_, h2, rfl, rfl, rfl, rfl, rfl⟩
  rw [hx] at h1
  exact (Option.some.inj h1).symm

/-- **C49** `pop` with an empty stack, or with a position that is not on the stack, only reports an error. -/
theorem C49_pop_error (lib : Lib σ ν ω) (i : Bool) (s : State σ ν ω) (hl : s.loopN = none) (k : Nat) (v : ν) (hv : Reads lib k v) :
    (s.stack = [] → executeLine lib i "pop".toList s = error i (.message "stack is empty".toList) s ∧
      executeLine lib i ("pop".toList ++ ' ' :: Py.natStr k) s = error i (.message "stack is empty".toList) s) ∧
    (s.stack ≠ [] → s.stack.length ≤ k → executeLine lib i ("pop".toList ++ ' ' :: Py.natStr k) s =
      error i (.message ("0 <= position < ".toList ++ Py.natStr s.stack.length)) s) := by
  have key : ∀ (p : Option (Arg ν)) (t : List Char), pop lib i p s = returnError i t s → ∀ args kwargs,
      bindOne "position".toList args kwargs = .ok p → execute lib i ⟨.pop, args, kwargs⟩ s = error i (.message t) s := by
    intro p t hp args kwargs hb
    unfold execute executeWith callWith
    simp only
    rw [hb]
    simp only
    rw [hp]
    unfold returnError error
    cases i <;> rfl
  constructor
  · intro h0
    rw [line_part lib i (by decide), part_plain hl (parse_pop lib), line_part lib i (semicolon_number _ (by decide) k),
      part_plain hl (parse_number lib _ (by decide) (by decide) .pop rfl k v hv.literal)]
    exact ⟨key none _ (by unfold pop; rw [if_pos h0]) _ _ rfl, key (some (.value v)) _ (by unfold pop; rw [if_pos h0]) _ _ rfl⟩
  · intro h0 hk
    rw [line_part lib i (semicolon_number _ (by decide) k), part_plain hl (parse_number lib _ (by decide) (by decide) .pop rfl k v hv.literal)]
    refine key (some (.value v)) _ ?_ _ _ rfl
    unfold pop
    rw [if_neg h0]
    simp only [givenArg, hv.isNone, Bool.false_eq_true, if_false, argInt, hv.toInt]
    rw [if_neg (by omega)]
    rfl

/-- The line has no stack commands (it may define and run loops). -/
def NoStack (lib : Lib σ ν ω) (line : List Char) : Prop :=
  ∀ part ∈ Py.splitGo [';'] line 0 [], ∀ c, parse lib (Py.strip part) = .ok c → c.name ≠ .push ∧ c.name ≠ .pop

private theorem kept_stack (lib : Lib σ ν ω) (i : Bool) (S : List Nat) (V : List σ) :
    Kept lib i (fun c => c.name ≠ .push ∧ c.name ≠ .pop)
      (fun s => Separate s ∧ s.stack = S ∧ stackValues lib s = V) := by
  constructor
  · intro c s hA hc ⟨hs, h1, h2⟩
    obtain ⟨f, hf, he⟩ := executeBody_form lib i c hc
    have fit := hf (s.core lib)
    rw [he]
    have hsep : Separate ((f (s.core lib)).1.apply lib s) := hs.pre _ fun k hk => (fit.pop k hk).2.1
    have h3 : ((f (s.core lib)).1.apply lib s).stack = S ∧ stackValues lib ((f (s.core lib)).1.apply lib s) = V := by
      cases hp : (f (s.core lib)).1 with
      | keep => exact ⟨h1, h2⟩
      | world w => exact ⟨h1, h2⟩
      | stop => exact ⟨h1, h2⟩
      | push => exact absurd (fit.push hp).1 hA.1
      | pop k => exact absurd (fit.pop k hp).1 hA.2
      | call x w =>
        refine ⟨h1, ?_⟩
        rw [← h2]
        refine List.map_congr_left fun a ha => ?_
        simp only [Pre.apply, List.getD_eq_getElem?_getD]
        rw [List.getElem?_set_ne]
        rintro rfl
        exact hs.apart ha
    refine ⟨hsep.post i _, ?_⟩
    cases hq : (f (s.core lib)).2 with
    | done => exact h3
    | text t => exact h3
    | error e => exact h3
    | alloc x =>
      refine ⟨h3.1, ?_⟩
      rw [← h3.2]
      refine List.map_congr_left fun a ha => ?_
      simp only [Post.apply, List.getD_eq_getElem?_getD]
      rw [List.getElem?_append_left (hsep.stack a ha)]
  · intro s n b p o e ⟨hs, h1, h2⟩
    exact ⟨⟨hs.cur, hs.stack, hs.nodup, hs.apart⟩, h1, h2⟩

/-- **C49** Lines without stack commands do not change the sudokus on the stack, whatever they do to the current one. -/
theorem C49_isolated (lib : Lib σ ν ω) (i : Bool) (s : State σ ν ω) (hs : Separate s)
    (hb : ∀ c ∈ s.body, c.name ≠ .push ∧ c.name ≠ .pop ∧ c.name ≠ .loop) (lines : List (List Char))
    (hl : ∀ line ∈ lines, NoStack lib line) :
    Separate (seq (executeLine lib i) lines s).1 ∧ stackValues lib (seq (executeLine lib i) lines s).1 = stackValues lib s := by
  have := ((kept_stack lib i s.stack (stackValues lib s)).lines (fun line h part hp c hc => .inl (hl line h part hp c hc))
    ⟨⟨hs, rfl, rfl⟩, fun c hc => ⟨⟨(hb c hc).1, (hb c hc).2.1⟩, (hb c hc).2.2⟩⟩).1
  exact ⟨this.1, this.2.2⟩

/-- **C49** `push`, then lines without stack commands, then `pop`: the sudoku pushed is the current one again, the stack is
as before. -/
theorem C49_restore (lib : Lib σ ν ω) (i : Bool) (s t u : State σ ν ω) (hs : Separate s) (hl : s.loopN = none) (hb : s.body = [])
    (lines : List (List Char)) (hn : ∀ line ∈ lines, NoStack lib line)
    (ht : executeLine lib i "push".toList s = (t, none)) (hu : seq (executeLine lib i) lines t = (u, none)) (hul : u.loopN = none) :
    ∃ v, executeLine lib i "pop".toList u = (v, none) ∧ v.sudoku lib = lib.copy (s.sudoku lib) ∧
      stackValues lib v = stackValues lib s := by
  obtain ⟨t', h1, h2, h3, h4, _, _, _, _, _, h5⟩ := C49_push lib i s hs hl
  rw [ht] at h1
  cases h1
  have h6 := C49_isolated lib i t h2 (by rw [h5, hb]; simp) lines hn
  rw [hu] at h6
  obtain ⟨v, h7, h8, h9, h10, _⟩ := C49_pop lib i u h6.1 hul _ _ (h6.2.trans h4)
  exact ⟨v, h7, h9, h10⟩

end Props
