import Verif.Model.Interrupt
import Verif.Proofs.Shell

set_option autoImplicit false

/-!
# Interrupts: helper lemmas
-/

namespace Shell

variable {σ ν ω : Type}

/-! ## What was written before does not matter -/

/-- More had been written before. -/
def State.shift (p : List Event) (s : State σ ν ω) : State σ ν ω := { s with out := p ++ s.out }

/-- What was written before does not matter. -/
def Shifts {β : Type} (f : State σ ν ω → State σ ν ω × β) : Prop := ∀ p s, f (s.shift p) = ((f s).1.shift p, (f s).2)

theorem shifts_error (i : Bool) (e : Err) : Shifts (error i e : State σ ν ω → _) := fun _ _ => rfl

theorem shifts_returnError (i : Bool) (t : List Char) : Shifts (returnError i t : State σ ν ω → _) := by
  intro p s
  unfold returnError error
  cases i <;> rfl

theorem shifts_pop (lib : Lib σ ν ω) (i : Bool) (x : Option (Arg ν)) : Shifts (pop lib i x) := by
  intro p s
  unfold pop
  simp only [shifts_returnError i _ p s]
  show (if s.stack = [] then _ else _) = _
  by_cases h : s.stack = []
  · rw [if_pos h, if_pos h]
  · rw [if_neg h, if_neg h]
    cases givenArg lib x with
    | none => rfl
    | some y =>
      simp only
      cases argInt lib y with
      | error e => cases e <;> rfl
      | ok k =>
        simp only
        show (if 0 ≤ k ∧ k < s.stack.length then _ else _) = _
        split <;> rfl

theorem shifts_noArgs (c : Command ν) {f : State σ ν ω → State σ ν ω × Outcome σ} (hf : Shifts f) : Shifts (noArgs c f) := by
  intro p s
  unfold noArgs
  split
  · exact hf p s
  · rfl

theorem shifts_callWith (lib : Lib σ ν ω) (i : Bool) {onLoop : Arg ν → State σ ν ω → State σ ν ω × Outcome σ}
    (h : ∀ n, Shifts (onLoop n)) (c : Command ν) : Shifts (callWith lib i onLoop c) := by
  intro p s
  obtain ⟨n, args, kwargs⟩ := c
  have other : ∀ n : Name, (n ≠ .loop ∧ n ≠ .exit ∧ n ≠ .stack ∧ n ≠ .push ∧ n ≠ .pop ∧ n ≠ .help) →
      callWith lib i onLoop ⟨n, args, kwargs⟩ (s.shift p) =
        ((callWith lib i onLoop ⟨n, args, kwargs⟩ s).1.shift p, (callWith lib i onLoop ⟨n, args, kwargs⟩ s).2) := by
    intro n hn
    have key : ∀ t : State σ ν ω, callWith lib i onLoop ⟨n, args, kwargs⟩ t =
        if n.takesSudoku then
          let r := lib.call n args kwargs (t.sudoku lib) t.world
          ({ t with heap := t.heap.set t.cur r.1, world := r.2.1 }, match r.2.2 with | .error e => .raised e | .ok r => .returned r)
        else
          let r := lib.create n args kwargs t.world
          ({ t with world := r.1 }, match r.2 with | .error e => .raised e | .ok r => .returned r) := by
      intro t
      unfold callWith
      cases n <;> simp only [ne_eq, reduceCtorEq, not_true_eq_false, not_false_eq_true, and_false, and_true] at hn ⊢ <;>
        simp only [Name.takesSudoku, if_true, Bool.false_eq_true, if_false] <;>
        (split <;> simp_all)
    rw [key, key]
    by_cases ht : n.takesSudoku = true
    · rw [if_pos ht, if_pos ht]; rfl
    · rw [if_neg ht, if_neg ht]; rfl
  cases n with
  | loop =>
    unfold callWith
    simp only
    cases bindOne ['n'] args kwargs with
    | error e => rfl
    | ok o => cases o with
      | none => rfl
      | some x => exact h x p s
  | exit =>
    unfold callWith
    simp only
    refine shifts_noArgs _ ?_ p s
    intro _ _
    rfl
  | stack =>
    unfold callWith
    simp only
    refine shifts_noArgs _ ?_ p s
    intro _ _
    rfl
  | push =>
    unfold callWith
    simp only
    refine shifts_noArgs _ ?_ p s
    intro _ _
    rfl
  | pop =>
    unfold callWith
    simp only
    cases bindOne "position".toList args kwargs with
    | error e => rfl
    | ok o => exact shifts_pop lib i o p s
  | help =>
    unfold callWith
    simp only
    cases lib.help args kwargs <;> rfl
  | _ => exact other _ (by decide)

theorem shifts_executeWith (lib : Lib σ ν ω) (i : Bool) {onLoop : Arg ν → State σ ν ω → State σ ν ω × Outcome σ}
    (h : ∀ n, Shifts (onLoop n)) (c : Command ν) : Shifts (executeWith lib i onLoop c) := by
  intro p s
  unfold executeWith
  rw [shifts_callWith lib i h c p s]
  obtain ⟨t, o⟩ := callWith lib i onLoop c s
  rcases o with (_ | _ | _ | _ | _) | _ | _ <;> simp [State.shift, error]

theorem shifts_seq {α : Type} {f : α → State σ ν ω → State σ ν ω × Option Signal} (l : List α) (h : ∀ x, Shifts (f x)) :
    Shifts (seq f l) := by
  induction l with
  | nil => exact fun _ _ => rfl
  | cons x l ih =>
    intro p s
    unfold seq
    rw [h x p s]
    obtain ⟨t, o⟩ := f x s
    cases o with
    | some g => rfl
    | none => exact ih p t

theorem shifts_loopWith (lib : Lib σ ν ω) (i : Bool) {exec : Command ν → State σ ν ω → State σ ν ω × Option Signal}
    (h : ∀ c, Shifts (exec c)) (n : Arg ν) : Shifts (loopWith lib i exec n) := by
  intro p s
  unfold loopWith
  simp only [shifts_returnError i _ p s]
  by_cases he : argIsEnd lib n = true
  · rw [if_pos he, if_pos he]
    show (match s.loopN with | none => _ | some k => _) = _
    cases hn : s.loopN with
    | none => rfl
    | some k =>
      let F : State σ ν ω × Option Signal → State σ ν ω × Outcome σ := fun r => match r with
        | (s, some g) => (s, .signal g)
        | (s, none) => ({ s with loopN := none, body := [] }, .returned .none)
      have gen : ∀ r, F (r.1.shift p, r.2) = ((F r).1.shift p, (F r).2) := by
        rintro ⟨t, _ | g⟩ <;> rfl
      have := shifts_seq (f := fun _ => seq exec s.body) (List.range k) (fun _ => shifts_seq s.body h) p
        { s with prompt := commandPrompt i }
      rw [hn] at this
      have := congrArg F this
      rw [gen] at this
      simp only [State.shift, hn] at this ⊢
      exact this
  · rw [if_neg he, if_neg he]
    cases argInt lib n with
    | error e => cases e <;> rfl
    | ok k =>
      simp only
      by_cases h0 : k ≤ 0
      · rw [if_pos h0, if_pos h0]
      · rw [if_neg h0, if_neg h0]
        show (if s.loopN.isSome then _ else _) = _
        split <;> rfl

theorem shifts_interruptible {cut : Cut σ ν ω} (hcut : ∀ c p s, cut c (State.shift p s) = cut c s)
    {exec : Command ν → State σ ν ω → State σ ν ω × Option Signal} (h : ∀ c, Shifts (exec c)) (c : Command ν) :
    Shifts (interruptible cut exec c) := by
  intro p s
  unfold interruptible
  rw [hcut]
  cases cut c s with
  | none => exact h c p s
  | some x => rfl

theorem shifts_executeI (lib : Lib σ ν ω) (i : Bool) {cut : Cut σ ν ω} (hcut : ∀ c p s, cut c (State.shift p s) = cut c s)
    (c : Command ν) : Shifts (executeI lib i cut c) :=
  shifts_interruptible hcut (shifts_executeWith lib i (shifts_loopWith lib i
    (shifts_interruptible hcut (shifts_executeWith lib i fun _ _ _ => rfl)))) c

theorem shifts_partWith (lib : Lib σ ν ω) (i : Bool) {exec : Command ν → State σ ν ω → State σ ν ω × Option Signal}
    (h : ∀ c, Shifts (exec c)) (part : List Char) : Shifts (executePartWith lib i exec part) := by
  intro p s
  unfold executePartWith
  cases parse lib (Py.strip part) with
  | error e => rcases e with _ | _ | e <;> first | rfl | (cases e <;> rfl)
  | ok c =>
    simp only
    rw [h c p s]
    by_cases h1 : c.name = .exit
    · rw [if_pos h1, if_pos h1]
    · rw [if_neg h1, if_neg h1]
      show (if s.loopN.isSome ∧ c.name ≠ .loop then _ else _) = _
      split <;> rfl

theorem shifts_lineI (lib : Lib σ ν ω) (i : Bool) {cut : Cut σ ν ω} (hcut : ∀ c p s, cut c (State.shift p s) = cut c s)
    (line : List Char) : Shifts (executeLineI lib i cut line) :=
  shifts_seq _ (shifts_partWith lib i (shifts_executeI lib i hcut))

/-! ## Interrupts have to come from somewhere -/

/-- Never ends with an interrupt. -/
def Calm (f : State σ ν ω → State σ ν ω × Option Signal) : Prop := ∀ s, (f s).2 ≠ some .interrupt

theorem calm_error (i : Bool) (e : Err) : Calm (error i e : State σ ν ω → _) := by
  intro s
  unfold error
  cases i <;> simp

theorem calm_seq {α : Type} {f : α → State σ ν ω → State σ ν ω × Option Signal} (l : List α) (h : ∀ x ∈ l, Calm (f x)) :
    Calm (seq f l) := by
  induction l with
  | nil => intro s; simp [seq]
  | cons x l ih =>
    intro s
    unfold seq
    have hx := h x (by simp) s
    revert hx
    cases f x s with
    | mk t o =>
      cases o with
      | some g => exact id
      | none => exact fun _ => ih (fun y hy => h y (by simp [hy])) t

theorem executeBody_calm (lib : Lib σ ν ω) (i : Bool) (c : Command ν) : Calm (executeBody lib i c) := by
  intro s
  by_cases hc : c.name = .loop
  · have : ∃ e, executeBody lib i c s = error i (.exn e) s := by
      unfold executeBody executeWith callWith
      rw [hc]
      simp only
      cases bindOne ['n'] c.args c.kwargs with
      | error e => exact ⟨_, rfl⟩
      | ok o => cases o <;> exact ⟨_, rfl⟩
    obtain ⟨e, he⟩ := this
    rw [he]
    exact calm_error i _ s
  · obtain ⟨f, -, hf⟩ := executeBody_form lib i c hc
    rw [hf]
    cases (f (s.core lib)).2 with
    | error e => exact calm_error i e _
    | _ => simp [Post.apply]

theorem execute_calm (lib : Lib σ ν ω) (i : Bool) (c : Command ν) : Calm (execute lib i c) := by
  intro s
  by_cases hc : c.name = .loop
  · rcases execute_loop lib i c hc s with ⟨e, he⟩ | ⟨k, p, -, -, -, he⟩ | ⟨k, -, he⟩
    · rw [he]; exact calm_error i e s
    · rw [he]; simp
    · rw [he]
      unfold endLoop runBody
      have := calm_seq (List.replicate k s.body).flatten (fun x _ => executeBody_calm lib i x) { s with prompt := commandPrompt i }
      revert this
      cases seq (executeBody lib i) (List.replicate k s.body).flatten { s with prompt := commandPrompt i } with
      | mk t o => cases o <;> simp
  · rw [execute_eq_body lib i c hc]
    exact executeBody_calm lib i c s

theorem executeLine_calm (lib : Lib σ ν ω) (i : Bool) (line : List Char) : Calm (executeLine lib i line) := by
  refine calm_seq _ fun x _ s => ?_
  unfold executePart executePartWith
  cases parse lib (Py.strip x) with
  | error e => rcases e with _ | _ | e <;> first | exact calm_error i _ s | (cases e <;> first | exact calm_error i _ s | simp)
  | ok c =>
    simp only
    split
    · exact execute_calm lib i c s
    · split
      · simp
      · exact execute_calm lib i c s

theorem lineI_none (lib : Lib σ ν ω) (i : Bool) (line : List Char) :
    executeLineI lib i (fun _ _ => none) line = executeLine lib i line := rfl

/-! ## No exit with another status -/

/-- Ends with `sys.exit` only in scripts, and only with status 1. -/
def Exits (i : Bool) (f : State σ ν ω → State σ ν ω × Option Signal) : Prop :=
  ∀ s code, (f s).2 = some (.exit code) → i = false ∧ code = 1

theorem exits_error (i : Bool) (e : Err) : Exits i (error i e : State σ ν ω → _) := by
  intro s code h
  unfold error at h
  cases i
  · simp only [Bool.false_eq_true, if_false, Option.some.injEq, Signal.exit.injEq] at h
    exact ⟨rfl, h.symm⟩
  · simp at h

theorem exits_seq {α : Type} {i : Bool} {f : α → State σ ν ω → State σ ν ω × Option Signal} (l : List α)
    (h : ∀ x, Exits i (f x)) : Exits i (seq f l) := by
  induction l with
  | nil => intro s code hs; simp [seq] at hs
  | cons x l ih =>
    intro s code hs
    unfold seq at hs
    have hx := h x s code
    revert hs hx
    cases f x s with
    | mk t o =>
      cases o with
      | some g => exact fun hs hx => hx hs
      | none => exact fun hs _ => ih t code hs

theorem exits_interruptible {i : Bool} (cut : Cut σ ν ω) {exec : Command ν → State σ ν ω → State σ ν ω × Option Signal}
    (h : ∀ c, Exits i (exec c)) (c : Command ν) : Exits i (interruptible cut exec c) := by
  intro s code hs
  unfold interruptible at hs
  revert hs
  cases cut c s with
  | none => exact h c s code
  | some x => simp

private theorem exits_returnError (i : Bool) (t : List Char) (s : State σ ν ω) (code : Nat) (h : (returnError i t s).2 = .signal (.exit code)) :
    i = false ∧ code = 1 := by
  unfold returnError error at h
  cases i
  · simp only [Bool.false_eq_true, if_false, Outcome.signal.injEq, Signal.exit.injEq] at h
    exact ⟨rfl, h.symm⟩
  · simp at h

private theorem exits_pop (lib : Lib σ ν ω) (i : Bool) (x : Option (Arg ν)) (s : State σ ν ω) (code : Nat)
    (h : (pop lib i x s).2 = .signal (.exit code)) : i = false ∧ code = 1 := by
  unfold pop at h
  split at h
  · exact exits_returnError i _ s code h
  · split at h
    · simp at h
    · split at h
      · exact exits_returnError i _ s code h
      · simp at h
      · split at h
        · simp at h
        · exact exits_returnError i _ s code h

theorem exits_executeWith (lib : Lib σ ν ω) (i : Bool) {onLoop : Arg ν → State σ ν ω → State σ ν ω × Outcome σ}
    (h : ∀ n s code, (onLoop n s).2 = .signal (.exit code) → i = false ∧ code = 1) (c : Command ν) :
    Exits i (executeWith lib i onLoop c) := by
  intro s code hs
  have key : ∀ code, (callWith lib i onLoop c s).2 = .signal (.exit code) → i = false ∧ code = 1 := by
    intro code hc
    unfold callWith at hc
    split at hc
    · split at hc
      · simp at hc
      · simp at hc
      · exact h _ _ _ hc
    · unfold noArgs at hc; split at hc <;> simp at hc
    · unfold noArgs at hc; split at hc <;> simp at hc
    · unfold noArgs at hc; split at hc <;> simp at hc
    · split at hc
      · simp at hc
      · exact exits_pop lib i _ s code hc
    · split at hc <;> simp at hc
    · split at hc
      · simp only at hc; split at hc <;> simp at hc
      · simp only at hc; split at hc <;> simp at hc
  unfold executeWith at hs
  revert hs key
  cases callWith lib i onLoop c s with
  | mk t o =>
    intro hs key
    rcases o with (_ | _ | _ | _ | _) | e | g
    · simp at hs
    · simp at hs
    · simp at hs
    · simp at hs
    · exact exits_error i _ t code hs
    · exact exits_error i _ t code hs
    · simp only [Option.some.injEq] at hs
      exact key code (by rw [hs])

theorem exits_loopWith (lib : Lib σ ν ω) (i : Bool) {exec : Command ν → State σ ν ω → State σ ν ω × Option Signal}
    (h : ∀ c, Exits i (exec c)) (n : Arg ν) (s : State σ ν ω) (code : Nat)
    (hs : (loopWith lib i exec n s).2 = .signal (.exit code)) : i = false ∧ code = 1 := by
  unfold loopWith at hs
  split at hs
  · split at hs
    · exact exits_returnError i _ s code hs
    · rename_i k _
      have := exits_seq (f := fun _ => seq exec s.body) (List.range k) (fun _ => exits_seq s.body h)
        { s with prompt := commandPrompt i } code
      revert hs this
      simp only
      cases seq (fun _ => seq exec s.body) (List.range k) { s with prompt := commandPrompt i } with
      | mk t o =>
        cases o with
        | none => intro hs; simp at hs
        | some g =>
          intro hs this
          simp only [Outcome.signal.injEq] at hs
          exact this (by rw [hs])
  · split at hs
    · exact exits_returnError i _ s code hs
    · simp at hs
    · split at hs
      · exact exits_returnError i _ s code hs
      · split at hs
        · exact exits_returnError i _ s code hs
        · simp at hs

theorem exits_lineI (lib : Lib σ ν ω) (i : Bool) (cut : Cut σ ν ω) (line : List Char) : Exits i (executeLineI lib i cut line) := by
  have hexec : ∀ c, Exits i (executeI lib i cut c) :=
    exits_interruptible cut (exits_executeWith lib i (exits_loopWith lib i
      (exits_interruptible cut (exits_executeWith lib i fun _ _ _ h => by simp at h))))
  refine exits_seq _ fun x s code hs => ?_
  unfold executePartWith at hs
  split at hs
  · exact exits_error i _ s code hs
  · exact exits_error i _ s code hs
  · exact exits_error i _ s code hs
  · exact exits_error i _ s code hs
  · simp at hs
  · split at hs
    · exact hexec _ s code hs
    · split at hs
      · simp at hs
      · exact hexec _ s code hs

end Shell
