import Verif.Props.ShellRun

set_option autoImplicit false

/-!
# C77: only the contents of the sudokus count

Sudokus are mutable objects, but this cannot be noticed by a user of the shell.
-/

namespace Props

open Shell

variable {σ ν ω : Type}

/-- What matters of a shell: the contents of the current sudoku and of those on the stack, and the other attributes; not which
objects these are, nor what else is in memory. -/
structure Seen (σ ν ω : Type) where
  sudoku : σ
  stack : List σ
  running : Bool
  loopN : Option Nat
  body : List (Command ν)
  prompt : List Char
  out : List Event
  errors : List Err
  world : ω

def seen (lib : Lib σ ν ω) (s : State σ ν ω) : Seen σ ν ω :=
  ⟨s.sudoku lib, stackValues lib s, s.running, s.loopN, s.body, s.prompt, s.out, s.errors, s.world⟩

theorem sudoku_set (lib : Lib σ ν ω) {s : State σ ν ω} (hs : Separate s) (x : σ) (w : ω) :
    ({ s with heap := s.heap.set s.cur x, world := w } : State σ ν ω).sudoku lib = x := by
  simp only [State.sudoku, List.getD_eq_getElem?_getD]
  rw [List.getElem?_set_self hs.cur]; rfl

theorem stackValues_set (lib : Lib σ ν ω) {s : State σ ν ω} (hs : Separate s) (x : σ) (w : ω) :
    stackValues lib ({ s with heap := s.heap.set s.cur x, world := w } : State σ ν ω) = stackValues lib s := by
  simp only [stackValues]
  refine List.map_congr_left fun a ha => ?_
  have : s.cur ≠ a := fun h => hs.apart (h ▸ ha)
  rw [List.getD_eq_getElem?_getD, List.getD_eq_getElem?_getD, List.getElem?_set_ne this]

theorem stackValues_alloc (lib : Lib σ ν ω) {s : State σ ν ω} (hs : Separate s) (x : σ) :
    s.stack.map (fun a => (s.heap ++ [x]).getD a lib.fresh) = stackValues lib s := by
  simp only [stackValues]
  refine List.map_congr_left fun a ha => ?_
  rw [List.getD_eq_getElem?_getD, List.getD_eq_getElem?_getD, List.getElem?_append_left (hs.stack a ha)]

/-- The effects on contents. -/
def preSeen (lib : Lib σ ν ω) : Pre σ ω → Seen σ ν ω → Seen σ ν ω
  | .keep, s => s
  | .world w, s => { s with world := w }
  | .call x w, s => { s with sudoku := x, world := w }
  | .push, s => { s with stack := s.stack ++ [lib.copy s.sudoku] }
  | .pop k, s => { s with sudoku := s.stack.getD k lib.fresh, stack := s.stack.eraseIdx k }
  | .stop, s => { s with running := false }

def postSeen (i : Bool) : Post σ → Seen σ ν ω → Seen σ ν ω × Option Signal
  | .done, s => (s, none)
  | .alloc x, s => ({ s with sudoku := x }, none)
  | .text t, s => ({ s with out := s.out ++ [.text (t ++ ['\n'])] }, none)
  | .error e, s => ({ s with errors := s.errors ++ [e] }, if i then none else some (.exit 1))

theorem pre_seen (lib : Lib σ ν ω) {s : State σ ν ω} (hs : Separate s) (p : Pre σ ω) (hp : ∀ k, p = .pop k → k < s.stack.length) :
    seen lib (p.apply lib s) = preSeen lib p (seen lib s) := by
  cases p with
  | keep => rfl
  | world w => rfl
  | stop => rfl
  | call x w =>
    simp only [Pre.apply, seen, preSeen]
    rw [sudoku_set lib hs, stackValues_set lib hs]
  | push =>
    simp only [Pre.apply, seen, preSeen, State.sudoku, stackValues, List.map_append, List.map_cons, List.map_nil]
    rw [stackValues_alloc lib hs]
    simp only [List.getD_eq_getElem?_getD]
    rw [List.getElem?_append_left hs.cur]
    simp [stackValues]
  | pop k =>
    obtain ⟨h1, h2⟩ := pop_values lib (hp k rfl)
    simp only [seen, preSeen]
    rw [h2, List.getD_eq_getElem?_getD, h1]
    rfl

theorem post_seen (lib : Lib σ ν ω) (i : Bool) {s : State σ ν ω} (hs : Separate s) (q : Post σ) :
    (seen lib (q.apply i s).1, (q.apply i s).2) = postSeen i q (seen lib s) := by
  cases q with
  | done => rfl
  | text t => rfl
  | error e => rfl
  | alloc x =>
    simp only [Post.apply, seen, postSeen, State.sudoku, stackValues]
    rw [stackValues_alloc lib hs]
    simp [stackValues]

/-- Two shells that look the same. -/
structure Same (lib : Lib σ ν ω) (s t : State σ ν ω) : Prop where
  left : Separate s
  right : Separate t
  flat : ∀ c ∈ s.body, c.name ≠ .loop
  seen : seen lib s = seen lib t

/-- An action that cannot tell them apart. -/
def Blind (lib : Lib σ ν ω) (f : State σ ν ω → State σ ν ω × Option Signal) : Prop :=
  ∀ s t, Same lib s t → Same lib (f s).1 (f t).1 ∧ (f s).2 = (f t).2

variable {lib : Lib σ ν ω} {i : Bool}

/-- The same objects. -/
private def Objects (s s' : State σ ν ω) : Prop :=
  s'.heap = s.heap ∧ s'.cur = s.cur ∧ s'.stack = s.stack ∧ s'.running = s.running ∧ s'.world = s.world

private theorem Same.fields {s t s' t' : State σ ν ω} (h : Same lib s t) (hs : Objects s s') (ht : Objects t t')
    (hb : ∀ c ∈ s'.body, c.name ≠ .loop)
    (e : s'.loopN = t'.loopN ∧ s'.body = t'.body ∧ s'.prompt = t'.prompt ∧ s'.out = t'.out ∧ s'.errors = t'.errors) : Same lib s' t' := by
  obtain ⟨h1, h2, -, h4⟩ := h
  obtain ⟨a1, a2, a3, a4, a5⟩ := hs
  obtain ⟨b1, b2, b3, b4, b5⟩ := ht
  obtain ⟨e1, e2, e3, e4, e5⟩ := e
  refine ⟨⟨?_, ?_, ?_, ?_⟩, ⟨?_, ?_, ?_, ?_⟩, hb, ?_⟩
  · rw [a1, a2]; exact h1.cur
  · rw [a1, a3]; exact h1.stack
  · rw [a3]; exact h1.nodup
  · rw [a2, a3]; exact h1.apart
  · rw [b1, b2]; exact h2.cur
  · rw [b1, b3]; exact h2.stack
  · rw [b3]; exact h2.nodup
  · rw [b2, b3]; exact h2.apart
  · simp only [Props.seen, State.sudoku, stackValues, Seen.mk.injEq] at h4 ⊢
    rw [a1, a2, a3, a4, a5, b1, b2, b3, b4, b5]
    exact ⟨h4.1, h4.2.1, h4.2.2.1, e1, e2, e3, e4, e5, h4.2.2.2.2.2.2.2.2⟩

private theorem objects (s : State σ ν ω) (n : Option Nat) (b : List (Command ν)) (p : List Char) (o : List Event) (e : List Err) :
    Objects s { s with loopN := n, body := b, prompt := p, out := o, errors := e } := ⟨rfl, rfl, rfl, rfl, rfl⟩

private theorem Same.eqs {s t : State σ ν ω} (h : Same lib s t) : s.running = t.running ∧ s.loopN = t.loopN ∧ s.body = t.body ∧
    s.prompt = t.prompt ∧ s.out = t.out ∧ s.errors = t.errors := by
  have h4 := h.seen
  simp only [Props.seen, Seen.mk.injEq] at h4
  exact ⟨h4.2.2.1, h4.2.2.2.1, h4.2.2.2.2.1, h4.2.2.2.2.2.1, h4.2.2.2.2.2.2.1, h4.2.2.2.2.2.2.2.1⟩

private theorem Same.error (e : Err) : Blind lib (error i e) := by
  intro s t h
  obtain ⟨-, e2, e3, e4, e5, e6⟩ := h.eqs
  exact ⟨h.fields (objects s _ _ _ _ _) (objects t _ _ _ _ _) h.flat ⟨e2, e3, e4, e5, by simp [Shell.error, e6]⟩, rfl⟩

private theorem blind_body {c : Command ν} (hc : c.name ≠ .loop) : Blind lib (executeBody lib i c) := by
  intro s t h
  obtain ⟨f, hf, he⟩ := executeBody_form lib i c hc
  have h4 := h.seen
  simp only [Props.seen, Seen.mk.injEq] at h4
  have hcore : s.core lib = t.core lib := by
    have hl : s.stack.length = t.stack.length := by simpa [stackValues] using congrArg List.length h4.2.1
    simp only [State.core, h4.1, hl, h4.2.2.2.2.2.2.2.2]
  have one : ∀ u : State σ ν ω, Separate u → Separate (executeBody lib i c u).1 ∧
      (seen lib (executeBody lib i c u).1, (executeBody lib i c u).2) =
        postSeen i (f (u.core lib)).2 (preSeen lib (f (u.core lib)).1 (seen lib u)) := by
    intro u hu
    have hp : ∀ k, (f (u.core lib)).1 = .pop k → k < u.stack.length := fun k hk => ((hf (u.core lib)).pop k hk).2.1
    have hu' := hu.pre (lib := lib) _ hp
    rw [he u, post_seen lib i hu', pre_seen lib hu _ hp]
    exact ⟨hu'.post i _, rfl⟩
  obtain ⟨a1, a2⟩ := one s h.left
  obtain ⟨b1, b2⟩ := one t h.right
  rw [← hcore, ← h.seen, ← a2, Prod.mk.injEq] at b2
  refine ⟨⟨a1, b1, ?_, b2.1.symm⟩, b2.2.symm⟩
  rw [(executeBody_fields lib i c s).1]
  exact h.flat

private theorem blind_seq {α : Type} {f : α → State σ ν ω → State σ ν ω × Option Signal} {l : List α} (hf : ∀ x ∈ l, Blind lib (f x)) :
    Blind lib (seq f l) := by
  induction l with
  | nil => exact fun s t h => ⟨h, rfl⟩
  | cons x l ih =>
    intro s t h
    obtain ⟨h1, h2⟩ := hf x (by simp) s t h
    rw [seq, seq]
    cases hs : f x s with
    | mk s' o =>
      cases ht : f x t with
      | mk t' o' =>
        rw [hs, ht] at h1 h2
        simp only at h1 h2
        subst h2
        cases o with
        | some g => exact ⟨h1, rfl⟩
        | none => exact ih (fun y hy => hf y (List.mem_cons_of_mem _ hy)) s' t' h1

private theorem blind_execute (c : Command ν) : Blind lib (execute lib i c) := by
  by_cases hc : c.name = .loop
  swap
  · intro s t h
    rw [execute_eq_body lib i c hc, execute_eq_body lib i c hc]
    exact blind_body hc s t h
  have bad : ∀ e, (∀ s : State σ ν ω, callWith lib i (loop lib i) c s = (s, .raised e)) → Blind lib (execute lib i c) := by
    intro e he s t h
    have key : ∀ u : State σ ν ω, execute lib i c u = Shell.error i (.exn e.cls e.why) u := by
      intro u
      unfold execute executeWith
      rw [he]
    rw [key, key]
    exact Same.error _ s t h
  cases hb : bindOne ['n'] c.args c.kwargs with
  | error e =>
    refine bad ⟨e, .builtin⟩ fun s => ?_
    unfold callWith
    rw [hc]; simp only; rw [hb]
  | ok o =>
    cases o with
    | none =>
      refine bad ⟨.TypeError, .builtin⟩ fun s => ?_
      unfold callWith
      rw [hc]; simp only; rw [hb]
    | some n =>
      intro s t h
      obtain ⟨-, e2, e3, e4, e5, e6⟩ := h.eqs
      rw [execute_loop_arg lib i c hc n hb s, execute_loop_arg lib i c hc n hb t, ← e2]
      by_cases he : argIsEnd lib n = true
      · rw [if_pos he, if_pos he]
        cases hn : s.loopN with
        | none => exact Same.error _ s t h
        | some k =>
          simp only
          have h1 : Same lib { s with prompt := commandPrompt i } { t with prompt := commandPrompt i } := 
            h.fields (objects s _ _ _ _ _) (objects t _ _ _ _ _) h.flat ⟨e2, e3, rfl, e5, e6⟩
          have h2 := blind_seq (f := executeBody lib i) (l := (List.replicate k s.body).flatten) (lib := lib) (fun c hc => blind_body (by
            obtain ⟨l, hl', hc⟩ := List.mem_flatten.1 hc
            rw [List.eq_of_mem_replicate hl'] at hc
            exact h.flat c hc)) _ _ h1
          have eb : t.body = s.body := e3.symm
          unfold runBody
          rw [show (List.replicate k t.body) = List.replicate k s.body by rw [eb]]
          revert h2
          generalize seq (executeBody lib i) (List.replicate k s.body).flatten { s with prompt := commandPrompt i } = a
          generalize seq (executeBody lib i) (List.replicate k s.body).flatten { t with prompt := commandPrompt i } = b
          obtain ⟨s', o⟩ := a
          obtain ⟨t', o'⟩ := b
          rintro ⟨h1, h2⟩
          simp only at h1 h2
          subst h2
          cases o with
          | some g => exact ⟨h1, rfl⟩
          | none =>
            obtain ⟨-, -, -, f4, f5, f6⟩ := h1.eqs
            exact ⟨h1.fields (objects s' _ _ _ _ _) (objects t' _ _ _ _ _) (by simp [endLoop]) ⟨rfl, rfl, f4, f5, f6⟩, rfl⟩
      · rw [if_neg he, if_neg he]
        cases hk : argInt lib n with
        | error e => cases e <;> exact Same.error _ s t h
        | ok k =>
          simp only
          by_cases h0 : k ≤ 0
          · rw [if_pos h0, if_pos h0]; exact Same.error _ s t h
          · rw [if_neg h0, if_neg h0]
            by_cases h1 : s.loopN.isSome = true
            · rw [if_pos h1, if_pos h1]; exact Same.error _ s t h
            · rw [if_neg h1, if_neg h1]
              exact ⟨h.fields (objects s _ _ _ _ _) (objects t _ _ _ _ _) h.flat ⟨rfl, e3, by rw [e4], e5, e6⟩, rfl⟩

private theorem blind_part (part : List Char) : Blind lib (executePart lib i part) := by
  intro s t h
  obtain ⟨-, e2, e3, e4, e5, e6⟩ := h.eqs
  unfold executePart executePartWith
  cases hc : parse lib (Py.strip part) with
  | error e => rcases e with _ | _ | e <;> first | exact Same.error _ s t h | (cases e <;> first | exact Same.error _ s t h | exact ⟨h, rfl⟩)
  | ok c =>
    simp only
    by_cases h1 : c.name = .exit
    · rw [if_pos h1, if_pos h1]; exact blind_execute c s t h
    · rw [if_neg h1, if_neg h1, ← e2]
      by_cases h2 : s.loopN.isSome = true ∧ c.name ≠ .loop
      · rw [if_pos h2, if_pos h2]
        refine ⟨h.fields (objects s _ _ _ _ _) (objects t _ _ _ _ _) ?_ ⟨rfl, by simp [e3], e4, e5, e6⟩, rfl⟩
        intro d hd
        rcases List.mem_append.1 hd with hd | hd
        · exact h.flat d hd
        · simp at hd; subst hd; exact h2.2
      · rw [if_neg h2, if_neg h2]; exact blind_execute c s t h

private theorem blind_line (line : List Char) : Blind lib (executeLine lib i line) := blind_seq fun part _ => blind_part part

private theorem Same.write {s t : State σ ν ω} (h : Same lib s t) (e : Event) : Same lib (s.write e) (t.write e) := by
  obtain ⟨-, e2, e3, e4, e5, e6⟩ := h.eqs
  exact h.fields (objects s _ _ _ _ _) (objects t _ _ _ _ _) h.flat ⟨e2, e3, e4, by simp [State.write, e5], e6⟩

private theorem blind_run (input : List (List Char)) (lines : List Char) : Blind lib (runLoop lib i input lines) := by
  induction input generalizing lines with
  | nil =>
    intro s t h
    obtain ⟨e1, -, -, e4, -, -⟩ := h.eqs
    rw [runLoop, runLoop, ← e1, ← e4]
    by_cases hr : s.running = false
    · rw [if_pos hr, if_pos hr]; exact ⟨h, rfl⟩
    · rw [if_neg hr, if_neg hr]
      cases i
      · exact ⟨h.write _, rfl⟩
      · exact ⟨(h.write _).write _, rfl⟩
  | cons line input ih =>
    intro s t h
    obtain ⟨e1, -, -, e4, -, -⟩ := h.eqs
    rw [runLoop, runLoop, ← e1, ← e4]
    by_cases hr : s.running = false
    · rw [if_pos hr, if_pos hr]; exact ⟨h, rfl⟩
    · rw [if_neg hr, if_neg hr]
      have hw := h.write (.prompt s.prompt)
      simp only
      by_cases h1 : (clean line).getLast? = some '\\'
      · rw [if_pos h1, if_pos h1]; exact ih _ _ _ hw
      · rw [if_neg h1, if_neg h1]
        by_cases h2 : lines ++ clean line = []
        · rw [if_pos h2, if_pos h2]; exact ih _ _ _ hw
        · rw [if_neg h2, if_neg h2]
          have h3 := blind_line (i := i) (lines ++ clean line) _ _ hw
          revert h3
          generalize executeLine lib i (lines ++ clean line) (s.write (.prompt s.prompt)) = a
          generalize executeLine lib i (lines ++ clean line) (t.write (.prompt s.prompt)) = b
          obtain ⟨s', o⟩ := a
          obtain ⟨t', o'⟩ := b
          rintro ⟨h3, h4⟩
          simp only at h3 h4
          subst h4
          cases o with
          | some g => exact ⟨h3, rfl⟩
          | none => exact ih _ _ _ h3

/-- **C77** Two shells with the same contents of the current sudoku and of the stack, however their objects lie in memory, look the same after
any line of input: same contents, same output, same errors, same end. -/
theorem C77_line (lib : Lib σ ν ω) (i : Bool) (line : List Char) (s t : State σ ν ω) (h : Same lib s t) :
    Same lib (executeLine lib i line s).1 (executeLine lib i line t).1 ∧ (executeLine lib i line s).2 = (executeLine lib i line t).2 :=
  blind_line line s t h

/-- **C77** The same for scripts and sessions. -/
theorem C77_run (lib : Lib σ ν ω) (i : Bool) (greeting : List Char) (input : List (List Char)) (s t : State σ ν ω) (h : Same lib s t) :
    Same lib (run lib i greeting input s).1 (run lib i greeting input t).1 ∧
      (run lib i greeting input s).2 = (run lib i greeting input t).2 := by
  unfold run
  cases i
  · exact blind_run input [] s t h
  · exact blind_run input [] _ _ (h.write _)

/-- **C77** So the heap, the garbage in it and the order of objects could be dropped: after any lines the shell looks like a fresh one in which
only the current sudoku and those on the stack exist, and they will behave in the same way. -/
theorem C77_compact (lib : Lib σ ν ω) (s : State σ ν ω) (hs : Separate s) (hb : ∀ c ∈ s.body, c.name ≠ .loop) :
    Same lib s { s with heap := s.sudoku lib :: stackValues lib s, cur := 0, stack := (List.range s.stack.length).map (· + 1) } := by
  refine ⟨hs, ⟨by simp, ?_, ?_, by simp⟩, hb, ?_⟩
  · intro a ha
    simp only [List.mem_map, List.mem_range] at ha
    obtain ⟨k, hk, rfl⟩ := ha
    simpa [stackValues] using hk
  · exact (List.nodup_range).map fun a b h => by simpa using h
  · simp only [seen, Seen.mk.injEq, and_true]
    refine ⟨by simp [State.sudoku], ?_⟩
    refine List.ext_getElem (by simp [stackValues]) fun k h1 h2 => ?_
    have hk : k < s.stack.length := by simpa [stackValues] using h1
    simp [stackValues, hk]

/-- Two shells with the same sudokus (here plain numbers) at different addresses, one with garbage. -/
example (lib : Lib Nat Unit Unit) : Same lib
    { heap := [7, 9, 5], cur := 2, stack := [0], running := true, loopN := none, body := [], prompt := [], out := [], errors := [], world := () }
    { heap := [5, 7], cur := 0, stack := [1], running := true, loopN := none, body := [], prompt := [], out := [], errors := [], world := () } :=
  ⟨⟨by decide, by decide, by decide, by decide⟩, ⟨by decide, by decide, by decide, by decide⟩, by simp, rfl⟩

end Props
