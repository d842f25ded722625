import Verif.Model.Shell
import Verif.Proofs.Strings

set_option autoImplicit false

/-! # Lemmas about the shell -/

namespace Shell

variable {σ ν ω : Type}

/-- The changes made by the called function. -/
inductive Pre (σ ω : Type)
  | keep
  | world (w : ω)
  | call (x : σ) (w : ω)
  | push
  | pop (k : Nat)
  | stop

def Pre.apply (lib : Lib σ ν ω) : Pre σ ω → State σ ν ω → State σ ν ω
  | .keep, s => s
  | .world w, s => { s with world := w }
  | .call x w, s => { s with heap := s.heap.set s.cur x, world := w }
  | .push, s => { s with heap := s.heap ++ [lib.copy (s.sudoku lib)], stack := s.stack ++ [s.heap.length] }
  | .pop k, s => { s with cur := s.stack.getD k 0, stack := s.stack.eraseIdx k }
  | .stop, s => { s with running := false }

/-- The changes made by `execute` afterwards. -/
inductive Post (σ : Type)
  | done
  | alloc (x : σ)
  | text (t : List Char)
  | error (e : Err)

def Post.apply (interactive : Bool) : Post σ → State σ ν ω → State σ ν ω × Option Signal
  | .done, s => (s, none)
  | .alloc x, s => ({ s with heap := s.heap ++ [x], cur := s.heap.length }, none)
  | .text t, s => ({ s with out := s.out ++ [.text (t ++ ['\n'])] }, none)
  | .error e, s => Shell.error interactive e s

/-- What the effect of a command may depend on: the contents of the current sudoku and the number of sudokus on the stack. -/
structure Core (σ ω : Type) where
  sudoku : σ
  depth : Nat
  world : ω

def State.core (lib : Lib σ ν ω) (s : State σ ν ω) : Core σ ω := ⟨s.sudoku lib, s.stack.length, s.world⟩

/-- What a result of a function leads to. -/
def postOf : Except ErrorText.Exn (Result σ) → Post σ
  | .error e => .error (.exn e.cls e.why)
  | .ok .none => .done
  | .ok .same => .done
  | .ok (.text t) => .text t
  | .ok (.sudoku x) => .alloc x
  | .ok .other => .error (.exn .TypeError)

/-- Which effects a command may have. -/
structure Fits (k : Core σ ω) (n : Name) (p : Pre σ ω) (q : Post σ) : Prop where
  push : p = .push → n = .push ∧ q = .done
  pop : ∀ i, p = .pop i → n = .pop ∧ i < k.depth ∧ q = .done
  stop : p = .stop → n = .exit ∧ q = .done
  alloc : ∀ x, q = .alloc x → n ≠ .push ∧ n ≠ .pop ∧ n ≠ .exit ∧ n ≠ .stack ∧ n ≠ .help
  failed : n = .push ∨ n = .pop ∨ n = .exit ∨ n = .stack ∨ n = .help → ∀ e, q = .error e → p = .keep

/-- The effect of a command of the shell without parameters. -/
private theorem noArgs_cases (c : Command ν) (P : Prop) [Decidable P] (h : P ↔ (c.args.isEmpty && c.kwargs.isEmpty) = true)
    (f : State σ ν ω → State σ ν ω × Outcome σ) (s : State σ ν ω) :
    noArgs c f s = if P then f s else (s, .raised ⟨.TypeError, .builtin⟩) := by
  unfold noArgs
  by_cases hp : P
  · rw [if_pos hp, if_pos (h.1 hp)]
  · rw [if_neg hp, if_neg fun h' => hp (h.2 h')]

theorem library (lib : Lib σ ν ω) (i : Bool) (c : Command ν)
    (hn : c.name ≠ .loop ∧ c.name ≠ .exit ∧ c.name ≠ .stack ∧ c.name ≠ .push ∧ c.name ≠ .pop ∧ c.name ≠ .help) (s : State σ ν ω) :
    executeBody lib i c s =
      (postOf (if c.name.takesSudoku then (lib.call c.name c.args c.kwargs (s.sudoku lib) s.world).2.2
        else (lib.create c.name c.args c.kwargs s.world).2)).apply i
      ((if c.name.takesSudoku then Pre.call (lib.call c.name c.args c.kwargs (s.sudoku lib) s.world).1
          (lib.call c.name c.args c.kwargs (s.sudoku lib) s.world).2.1
        else .world (lib.create c.name c.args c.kwargs s.world).1).apply lib s) := by
  obtain ⟨n, args, kwargs⟩ := c
  simp only at hn ⊢
  have key : callWith lib i (fun _ s => (s, .raised ⟨.RecursionError, .builtin⟩)) ⟨n, args, kwargs⟩ s =
      if n.takesSudoku then
        let r := lib.call n args kwargs (s.sudoku lib) s.world
        ({ s with heap := s.heap.set s.cur r.1, world := r.2.1 }, match r.2.2 with | .error e => .raised e | .ok r => .returned r)
      else
        let r := lib.create n args kwargs s.world
        ({ s with world := r.1 }, match r.2 with | .error e => .raised e | .ok r => .returned r) := by
    unfold callWith
    cases n <;> simp only [ne_eq, reduceCtorEq, not_true_eq_false, not_false_eq_true, and_false, and_true] at hn ⊢ <;>
      simp only [Name.takesSudoku, if_true, Bool.false_eq_true, if_false] <;>
      (split <;> simp_all)
  unfold executeBody executeWith
  rw [key]
  by_cases ht : n.takesSudoku = true
  · rw [if_pos ht, if_pos ht, if_pos ht]
    simp only
    generalize lib.call n args kwargs (s.sudoku lib) s.world = r
    obtain ⟨x, w, r⟩ := r
    rcases r with e | (_ | _ | _ | _ | _) <;> rfl
  · rw [if_neg ht, if_neg ht, if_neg ht]
    simp only
    generalize lib.create n args kwargs s.world = r
    obtain ⟨w, r⟩ := r
    rcases r with e | (_ | _ | _ | _ | _) <;> rfl

private theorem returnError_eq (i : Bool) (t : List Char) (s : State σ ν ω) :
    returnError i t s = ({ s with errors := s.errors ++ [.message t] }, if i then .returned .none else .signal (.exit 1)) := by
  unfold returnError error
  cases i <;> rfl

/-- The effect of a command that is no loop command. -/
theorem executeBody_form (lib : Lib σ ν ω) (i : Bool) (c : Command ν) (hc : c.name ≠ .loop) :
    ∃ f : Core σ ω → Pre σ ω × Post σ, (∀ k, Fits k c.name (f k).1 (f k).2) ∧
      ∀ s, executeBody lib i c s = (f (s.core lib)).2.apply i ((f (s.core lib)).1.apply lib s) := by
  by_cases hn : c.name ≠ .loop ∧ c.name ≠ .exit ∧ c.name ≠ .stack ∧ c.name ≠ .push ∧ c.name ≠ .pop ∧ c.name ≠ .help
  · refine ⟨fun k => (if c.name.takesSudoku then Pre.call (lib.call c.name c.args c.kwargs k.sudoku k.world).1
          (lib.call c.name c.args c.kwargs k.sudoku k.world).2.1
        else .world (lib.create c.name c.args c.kwargs k.world).1,
        postOf (if c.name.takesSudoku then (lib.call c.name c.args c.kwargs k.sudoku k.world).2.2
        else (lib.create c.name c.args c.kwargs k.world).2)), fun k => ?_, fun s => library lib i c hn s⟩
    constructor
    · intro h; simp only at h; split at h <;> cases h
    · intro j h; simp only at h; split at h <;> cases h
    · intro h; simp only at h; split at h <;> cases h
    · intro x _; exact ⟨hn.2.2.2.1, hn.2.2.2.2.1, hn.2.1, hn.2.2.1, hn.2.2.2.2.2⟩
    · rintro (h | h | h | h | h)
      · exact absurd h hn.2.2.2.1
      · exact absurd h hn.2.2.2.2.1
      · exact absurd h hn.2.1
      · exact absurd h hn.2.2.1
      · exact absurd h hn.2.2.2.2.2
  obtain ⟨n, args, kwargs⟩ := c
  simp only at hn hc ⊢
  have hn' : n = .exit ∨ n = .stack ∨ n = .push ∨ n = .pop ∨ n = .help := by
    by_contra hcon
    simp only [not_or] at hcon
    exact hn ⟨hc, hcon.1, hcon.2.1, hcon.2.2.1, hcon.2.2.2.1, hcon.2.2.2.2⟩
  rcases hn' with rfl | rfl | rfl | rfl | rfl
  · by_cases he : (args.isEmpty && kwargs.isEmpty) = true
    · refine ⟨fun _ => (.stop, .done), fun k => ⟨by simp, by simp, by simp, by simp, by simp⟩, fun s => ?_⟩
      unfold executeBody executeWith callWith noArgs
      simp only
      rw [if_pos he]; rfl
    · refine ⟨fun _ => (.keep, .error (.exn .TypeError)), fun k => ⟨by simp, by simp, by simp, by simp, by simp⟩, fun s => ?_⟩
      unfold executeBody executeWith callWith noArgs
      simp only
      rw [if_neg he]; rfl
  · by_cases he : (args.isEmpty && kwargs.isEmpty) = true
    · refine ⟨fun k => (.keep, .text ("stack has ".toList ++ Py.natStr k.depth ++ " sudokus".toList)),
        fun k => ⟨by simp, by simp, by simp, by simp, by simp⟩, fun s => ?_⟩
      unfold executeBody executeWith callWith noArgs
      simp only
      rw [if_pos he]; rfl
    · refine ⟨fun _ => (.keep, .error (.exn .TypeError)), fun k => ⟨by simp, by simp, by simp, by simp, by simp⟩, fun s => ?_⟩
      unfold executeBody executeWith callWith noArgs
      simp only
      rw [if_neg he]; rfl
  · by_cases he : (args.isEmpty && kwargs.isEmpty) = true
    · refine ⟨fun _ => (.push, .done), fun k => ⟨by simp, by simp, by simp, by simp, by simp⟩, fun s => ?_⟩
      unfold executeBody executeWith callWith noArgs
      simp only
      rw [if_pos he]; rfl
    · refine ⟨fun _ => (.keep, .error (.exn .TypeError)), fun k => ⟨by simp, by simp, by simp, by simp, by simp⟩, fun s => ?_⟩
      unfold executeBody executeWith callWith noArgs
      simp only
      rw [if_neg he]; rfl
  · have err : ∀ (t : List Char) (s : State σ ν ω), (match returnError i t s with
        | (s, .returned (.sudoku x)) => ({ s with heap := s.heap ++ [x], cur := s.heap.length }, none)
        | (s, .returned .same) => (s, none)
        | (s, .returned .none) => (s, none)
        | (s, .returned (.text t)) => ({ s with out := s.out ++ [.text (t ++ ['\n'])] }, none)
        | (s, .returned .other) => error i (.exn .TypeError) s
        | (s, .raised e) => error i (.exn e.cls e.why) s
        | (s, .signal g) => (s, some g)) = error i (.message t) s := by
      intro t s
      rw [returnError_eq]
      cases i <;> rfl
    cases hb : bindOne "position".toList args kwargs with
    | error e =>
      refine ⟨fun _ => (.keep, .error (.exn e)), fun k => ⟨by simp, by simp, by simp, by simp, by simp⟩, fun s => ?_⟩
      unfold executeBody executeWith callWith
      simp only
      rw [hb]; rfl
    | ok p =>
      have hp : ∀ s : State σ ν ω, pop lib i p s = if s.stack = [] then returnError i "stack is empty".toList s else match givenArg lib p with
          | none => ({ s with cur := s.stack.getD (s.stack.length - 1) 0, stack := s.stack.eraseIdx (s.stack.length - 1) }, .returned .none)
          | some x => match argInt lib x with
            | .error .ValueError => returnError i (positionMessage s.stack.length) s
            | .error e => (s, .raised ⟨e, .builtin⟩)
            | .ok k =>
              if 0 ≤ k ∧ k < s.stack.length then
                ({ s with cur := s.stack.getD k.toNat 0, stack := s.stack.eraseIdx k.toNat }, .returned .none)
              else returnError i (positionMessage s.stack.length) s := fun s => rfl
      refine ⟨fun k => if k.depth = 0 then (.keep, .error (.message "stack is empty".toList)) else match givenArg lib p with
          | none => (.pop (k.depth - 1), .done)
          | some x => match argInt lib x with
            | .error .ValueError => (.keep, .error (.message (positionMessage k.depth)))
            | .error e => (.keep, .error (.exn e))
            | .ok j => if 0 ≤ j ∧ j < k.depth then (.pop j.toNat, .done) else (.keep, .error (.message (positionMessage k.depth))), fun k => ?_, fun s => ?_⟩
      · simp only
        by_cases h0 : k.depth = 0
        · rw [if_pos h0]; exact ⟨by simp, by simp, by simp, by simp, by simp⟩
        · rw [if_neg h0]
          have hl : 0 < k.depth := Nat.pos_of_ne_zero h0
          cases givenArg lib p with
          | none => exact ⟨by simp, by simp; omega, by simp, by simp, by simp⟩
          | some x =>
            simp only
            cases argInt lib x with
            | error e => cases e <;> exact ⟨by simp, by simp, by simp, by simp, by simp⟩
            | ok j =>
              simp only
              by_cases hj : 0 ≤ j ∧ j < k.depth
              · rw [if_pos hj]; exact ⟨by simp, by simp; omega, by simp, by simp, by simp⟩
              · rw [if_neg hj]; exact ⟨by simp, by simp, by simp, by simp, by simp⟩
      · unfold executeBody executeWith callWith
        simp only
        rw [hb]
        simp only
        rw [hp]
        show _ = Post.apply i (if s.stack.length = 0 then _ else _ : Pre σ ω × Post σ).2 (Pre.apply lib (if s.stack.length = 0 then _ else _ : Pre σ ω × Post σ).1 s)
        by_cases h0 : s.stack = []
        · rw [if_pos h0, if_pos (by simp [h0])]; exact err _ s
        · rw [if_neg h0, if_neg (by simpa using h0)]
          cases givenArg lib p with
          | none => rfl
          | some x =>
            simp only
            cases argInt lib x with
            | error e => cases e <;> first | rfl | exact err _ s
            | ok j =>
              simp only
              show _ = Post.apply i (if 0 ≤ j ∧ j < s.stack.length then _ else _ : Pre σ ω × Post σ).2
                (Pre.apply lib (if 0 ≤ j ∧ j < s.stack.length then _ else _ : Pre σ ω × Post σ).1 s)
              by_cases hj : 0 ≤ j ∧ j < s.stack.length
              · rw [if_pos hj, if_pos hj]; rfl
              · rw [if_neg hj, if_neg hj]; exact err _ s
  · cases hh : lib.help args kwargs with
    | error e =>
      refine ⟨fun _ => (.keep, .error (.exn e)), fun k => ⟨by simp, by simp, by simp, by simp, by simp⟩, fun s => ?_⟩
      unfold executeBody executeWith callWith
      simp only
      rw [hh]; rfl
    | ok t =>
      refine ⟨fun _ => (.keep, .text t), fun k => ⟨by simp, by simp, by simp, by simp, by simp⟩, fun s => ?_⟩
      unfold executeBody executeWith callWith
      simp only
      rw [hh]; rfl

/-- For other commands than loop commands it does not matter whether they are in a loop. -/
theorem execute_eq_body (lib : Lib σ ν ω) (i : Bool) (c : Command ν) (hc : c.name ≠ .loop) (s : State σ ν ω) :
    execute lib i c s = executeBody lib i c s := by
  have : ∀ f g, callWith lib i f c s = callWith lib i g c s := by
    intro f g
    unfold callWith
    obtain ⟨n, args, kwargs⟩ := c
    cases n <;> first | rfl | exact absurd rfl hc
  unfold execute executeBody executeWith
  rw [this]


/-! ## Fields that commands do not touch -/

@[simp] theorem Pre.apply_body (lib : Lib σ ν ω) (p : Pre σ ω) (s : State σ ν ω) : (p.apply lib s).body = s.body := by cases p <;> rfl
@[simp] theorem Pre.apply_loopN (lib : Lib σ ν ω) (p : Pre σ ω) (s : State σ ν ω) : (p.apply lib s).loopN = s.loopN := by cases p <;> rfl
@[simp] theorem Pre.apply_prompt (lib : Lib σ ν ω) (p : Pre σ ω) (s : State σ ν ω) : (p.apply lib s).prompt = s.prompt := by cases p <;> rfl
@[simp] theorem Pre.apply_errors (lib : Lib σ ν ω) (p : Pre σ ω) (s : State σ ν ω) : (p.apply lib s).errors = s.errors := by cases p <;> rfl
@[simp] theorem Post.apply_body (i : Bool) (q : Post σ) (s : State σ ν ω) : (q.apply i s).1.body = s.body := by cases q <;> rfl
@[simp] theorem Post.apply_loopN (i : Bool) (q : Post σ) (s : State σ ν ω) : (q.apply i s).1.loopN = s.loopN := by cases q <;> rfl
@[simp] theorem Post.apply_prompt (i : Bool) (q : Post σ) (s : State σ ν ω) : (q.apply i s).1.prompt = s.prompt := by cases q <;> rfl

theorem executeBody_fields (lib : Lib σ ν ω) (i : Bool) (c : Command ν) (s : State σ ν ω) :
    (executeBody lib i c s).1.body = s.body ∧ (executeBody lib i c s).1.loopN = s.loopN ∧
    (executeBody lib i c s).1.prompt = s.prompt := by
  by_cases hc : c.name = .loop
  · have : ∃ e, executeBody lib i c s = error i (.exn e) s := by
      unfold executeBody executeWith callWith
      rw [hc]
      simp only
      cases bindOne ['n'] c.args c.kwargs with
      | error e => exact ⟨_, rfl⟩
      | ok o => cases o <;> exact ⟨_, rfl⟩
    obtain ⟨e, he⟩ := this
    rw [he]
    exact ⟨rfl, rfl, rfl⟩
  · obtain ⟨f, _, hf⟩ := executeBody_form lib i c hc
    rw [hf]
    simp

/-! ## Sequences -/

theorem seq_inv {α : Type} {f : α → State σ ν ω → State σ ν ω × Option Signal} {P : State σ ν ω → Prop} {l : List α}
    (h : ∀ x ∈ l, ∀ s, P s → P (f x s).1) {s : State σ ν ω} (hs : P s) : P (seq f l s).1 := by
  induction l generalizing s with
  | nil => exact hs
  | cons x l ih =>
    have h1 := h x (by simp) s hs
    rw [seq]
    cases hx : f x s with
    | mk t g =>
      rw [hx] at h1
      cases g with
      | some g => exact h1
      | none => exact ih (fun y hy => h y (List.mem_cons_of_mem _ hy)) h1

theorem seq_append {α : Type} (f : α → State σ ν ω → State σ ν ω × Option Signal) (l m : List α) (s : State σ ν ω) :
    seq f (l ++ m) s = match seq f l s with
      | (s, some g) => (s, some g)
      | (s, none) => seq f m s := by
  induction l generalizing s with
  | nil => rfl
  | cons x l ih =>
    rw [List.cons_append, seq, seq]
    cases hx : f x s with
    | mk t g =>
      cases g with
      | some g => rfl
      | none => exact ih t

theorem seq_map {α β : Type} (f : β → State σ ν ω → State σ ν ω × Option Signal) (g : α → β) (l : List α) (s : State σ ν ω) :
    seq f (l.map g) s = seq (fun x => f (g x)) l s := by
  induction l generalizing s with
  | nil => rfl
  | cons x l ih =>
    rw [List.map_cons, seq, seq]
    cases hx : f (g x) s with
    | mk t o => cases o <;> [exact ih t; rfl]

theorem seq_congr {α : Type} {f g : α → State σ ν ω → State σ ν ω × Option Signal} {P : State σ ν ω → Prop} {l : List α}
    (h : ∀ x ∈ l, ∀ s, P s → f x s = g x s ∧ P (f x s).1) {s : State σ ν ω} (hs : P s) : seq f l s = seq g l s := by
  induction l generalizing s with
  | nil => rfl
  | cons x l ih =>
    obtain ⟨h1, h2⟩ := h x (by simp) s hs
    rw [seq, seq, ← h1]
    cases hx : f x s with
    | mk t o =>
      rw [hx] at h2
      cases o with
      | some g => rfl
      | none => exact ih (fun y hy => h y (List.mem_cons_of_mem _ hy)) h2

/-- Repeating a sequence is the sequence repeated. -/
theorem seq_repeat {α : Type} (f : α → State σ ν ω → State σ ν ω × Option Signal) (l : List α) (n : Nat) (s : State σ ν ω) :
    seq (fun _ => seq f l) (List.range n) s = seq f (List.replicate n l).flatten s := by
  have key : ∀ ks : List Nat, seq (fun _ => seq f l) ks s = seq f (List.replicate ks.length l).flatten s := by
    intro ks
    induction ks generalizing s with
    | nil => rfl
    | cons k ks ih =>
      rw [List.length_cons, List.replicate_succ, List.flatten_cons, seq_append, seq]
      cases hx : seq f l s with
      | mk t o => cases o <;> [exact ih t; rfl]
  rw [key, List.length_range]

/-! ## Loop commands -/

/-- What is done after the commands of a loop. -/
def endLoop (r : State σ ν ω × Option Signal) : State σ ν ω × Option Signal :=
  match r with
  | (s, some g) => (s, some g)
  | (s, none) => ({ s with loopN := none, body := [] }, none)

/-- The commands of a loop. -/
def runBody (lib : Lib σ ν ω) (i : Bool) (k : Nat) (s : State σ ν ω) : State σ ν ω × Option Signal :=
  seq (executeBody lib i) (List.replicate k s.body).flatten { s with prompt := commandPrompt i }

private theorem executeWith_returnError (i : Bool) (t : List Char) (s : State σ ν ω) :
    (match returnError i t s with
        | (s, .returned (.sudoku x)) => ({ s with heap := s.heap ++ [x], cur := s.heap.length }, none)
        | (s, .returned .same) => (s, none)
        | (s, .returned .none) => (s, none)
        | (s, .returned (.text t)) => ({ s with out := s.out ++ [.text (t ++ ['\n'])] }, none)
        | (s, .returned .other) => error i (.exn .TypeError) s
        | (s, .raised e) => error i (.exn e.cls e.why) s
        | (s, .signal g) => (s, some g)) = error i (.message t) s := by
  rw [returnError_eq]
  cases i <;> rfl

/-- What a loop command does with its argument. -/
theorem execute_loop_arg (lib : Lib σ ν ω) (i : Bool) (c : Command ν) (hc : c.name = .loop) (n : Arg ν)
    (hb : bindOne ['n'] c.args c.kwargs = .ok (some n)) (s : State σ ν ω) :
    execute lib i c s =
      if argIsEnd lib n then match s.loopN with
        | none => error i (.message "No loop defined.".toList) s
        | some k => endLoop (runBody lib i k s)
      else match argInt lib n with
        | .error .ValueError => error i (.message (countMessage (argStr lib n))) s
        | .error e => error i (.exn e) s
        | .ok k =>
          if k ≤ 0 then error i (.message (countMessage (Py.intStr k))) s
          else if s.loopN.isSome then error i (.message "Run current loop first ('loop end').".toList) s
          else ({ s with
            prompt := if i then "loop ".toList ++ Py.intStr k ++ "> ".toList else s.prompt
            loopN := some k.toNat }, none) := by
  unfold execute executeWith callWith
  rw [hc]
  simp only
  rw [hb]
  simp only
  unfold loop loopWith
  by_cases he : argIsEnd lib n = true
  · rw [if_pos he, if_pos he]
    cases hn : s.loopN with
    | none => exact executeWith_returnError i _ s
    | some k =>
      simp only
      unfold runBody endLoop
      rw [← seq_repeat]
      cases hx : seq (fun _ => seq (executeBody lib i) s.body) (List.range k)
          { s with prompt := commandPrompt i } with
      | mk t o =>
        rw [hn] at hx
        rw [hx]
        cases o <;> rfl
  · rw [if_neg he, if_neg he]
    cases hk : argInt lib n with
    | error e => cases e <;> first | rfl | exact executeWith_returnError i _ s
    | ok k =>
      simp only
      by_cases h0 : k ≤ 0
      · rw [if_pos h0, if_pos h0]; exact executeWith_returnError i _ s
      · rw [if_neg h0, if_neg h0]
        by_cases h1 : s.loopN.isSome = true
        · rw [if_pos h1, if_pos h1]; exact executeWith_returnError i _ s
        · rw [if_neg h1, if_neg h1]

/-- The three things a loop command can do. -/
theorem execute_loop (lib : Lib σ ν ω) (i : Bool) (c : Command ν) (hc : c.name = .loop) (s : State σ ν ω) :
    (∃ e, execute lib i c s = error i e s) ∨
    (∃ k p, s.loopN = none ∧ 0 < k ∧ (i = false → p = s.prompt) ∧ execute lib i c s = ({ s with prompt := p, loopN := some k }, none)) ∨
    (∃ k, s.loopN = some k ∧ execute lib i c s = endLoop (runBody lib i k s)) := by
  have bad : ∀ e, callWith lib i (loop lib i) c s = (s, .raised e) → ∃ e, execute lib i c s = error i e s := by
    intro e he
    refine ⟨.exn e.cls e.why, ?_⟩
    unfold execute executeWith
    rw [he]
  cases hb : bindOne ['n'] c.args c.kwargs with
  | error e =>
    refine .inl (bad ⟨e, .builtin⟩ ?_)
    unfold callWith
    rw [hc]
    simp only
    rw [hb]
  | ok o =>
    cases o with
    | none =>
      refine .inl (bad ⟨.TypeError, .builtin⟩ ?_)
      unfold callWith
      rw [hc]
      simp only
      rw [hb]
    | some n =>
      rw [execute_loop_arg lib i c hc n hb s]
      by_cases he : argIsEnd lib n = true
      · rw [if_pos he]
        cases hn : s.loopN with
        | none => exact .inl ⟨_, rfl⟩
        | some k => exact .inr (.inr ⟨k, rfl, rfl⟩)
      · rw [if_neg he]
        cases hk : argInt lib n with
        | error e => cases e <;> exact .inl ⟨_, rfl⟩
        | ok k =>
          simp only
          by_cases h0 : k ≤ 0
          · rw [if_pos h0]; exact .inl ⟨_, rfl⟩
          · rw [if_neg h0]
            by_cases h1 : s.loopN.isSome = true
            · rw [if_pos h1]; exact .inl ⟨_, rfl⟩
            · rw [if_neg h1]
              refine .inr (.inl ⟨k.toNat, _, by simpa using h1, by omega, ?_, rfl⟩)
              rintro rfl
              rfl

/-! ## Invariants -/

/-- A property of states kept by the commands of a kind `A`. -/
structure Kept (lib : Lib σ ν ω) (i : Bool) (A : Command ν → Prop) (P : State σ ν ω → Prop) : Prop where
  step : ∀ c s, A c → c.name ≠ .loop → P s → P (executeBody lib i c s).1
  fields : ∀ s n b p o e, P s → P { s with loopN := n, body := b, prompt := p, out := o, errors := e }

/-- The property, and the commands of the loop being defined are of the kind. -/
def Good (A : Command ν → Prop) (P : State σ ν ω → Prop) (s : State σ ν ω) : Prop := P s ∧ ∀ c ∈ s.body, A c ∧ c.name ≠ .loop

variable {lib : Lib σ ν ω} {i : Bool} {A : Command ν → Prop} {P : State σ ν ω → Prop}

theorem Kept.error (h : Kept lib i A P) (e : Err) {s : State σ ν ω} (hs : Good A P s) : Good A P (error i e s).1 :=
  ⟨h.fields s s.loopN s.body s.prompt s.out (s.errors ++ [e]) hs.1, hs.2⟩

theorem Kept.body (h : Kept lib i A P) {c : Command ν} (hc : A c ∧ c.name ≠ .loop) {s : State σ ν ω} (hs : Good A P s) :
    Good A P (executeBody lib i c s).1 := by
  refine ⟨h.step c s hc.1 hc.2 hs.1, ?_⟩
  rw [(executeBody_fields lib i c s).1]
  exact hs.2

theorem Kept.execute (h : Kept lib i A P) {c : Command ν} (hc : A c ∨ c.name = .loop) {s : State σ ν ω} (hs : Good A P s) :
    Good A P (execute lib i c s).1 := by
  by_cases hn : c.name = .loop
  · rcases execute_loop lib i c hn s with ⟨e, he⟩ | ⟨k, p, _, _, _, he⟩ | ⟨k, _, he⟩
    · rw [he]; exact h.error e hs
    · rw [he]; exact ⟨h.fields s (some k) s.body p s.out s.errors hs.1, hs.2⟩
    · rw [he]
      have h1 : Good A P (runBody lib i k s).1 := by
        unfold runBody
        refine seq_inv (fun c hc t ht => h.body ?_ ht) ⟨h.fields s s.loopN s.body (commandPrompt i) s.out s.errors hs.1, hs.2⟩
        obtain ⟨l, hl, hc⟩ := List.mem_flatten.1 hc
        rw [List.eq_of_mem_replicate hl] at hc
        exact hs.2 c hc
      unfold endLoop
      cases hx : runBody lib i k s with
      | mk t o =>
        rw [hx] at h1
        cases o with
        | some g => exact h1
        | none => exact ⟨h.fields t none [] t.prompt t.out t.errors h1.1, by simp⟩
  · rw [execute_eq_body lib i c hn]
    exact h.body ⟨hc.resolve_right hn, hn⟩ hs

/-- The part is a command of the kind, a loop command, or no command. -/
def PartOf (lib : Lib σ ν ω) (A : Command ν → Prop) (part : List Char) : Prop :=
  ∀ c, parse lib (Py.strip part) = .ok c → A c ∨ c.name = .loop

theorem Kept.part (h : Kept lib i A P) {part : List Char} (hp : PartOf lib A part) {s : State σ ν ω} (hs : Good A P s) :
    Good A P (executePart lib i part s).1 := by
  unfold executePart executePartWith
  cases hc : parse lib (Py.strip part) with
  | error e => rcases e with _ | _ | e <;> first | first | exact h.error _ hs | exact hs | (cases e <;> first | exact h.error _ hs | exact hs)
  | ok c =>
    simp only
    by_cases h1 : c.name = .exit
    · rw [if_pos h1]; exact h.execute (hp c hc) hs
    · rw [if_neg h1]
      by_cases h2 : s.loopN.isSome = true ∧ c.name ≠ .loop
      · rw [if_pos h2]
        refine ⟨h.fields s s.loopN (s.body ++ [c]) s.prompt s.out s.errors hs.1, fun d hd => ?_⟩
        rcases List.mem_append.1 hd with hd | hd
        · exact hs.2 d hd
        · simp at hd
          subst hd
          exact ⟨(hp d hc).resolve_right h2.2, h2.2⟩
      · rw [if_neg h2]; exact h.execute (hp c hc) hs

/-- All commands of the line are of the kind. -/
def LineOf (lib : Lib σ ν ω) (A : Command ν → Prop) (line : List Char) : Prop :=
  ∀ part ∈ Py.splitGo [';'] line 0 [], PartOf lib A part

theorem Kept.line (h : Kept lib i A P) {line : List Char} (hl : LineOf lib A line) {s : State σ ν ω} (hs : Good A P s) :
    Good A P (executeLine lib i line s).1 :=
  seq_inv (fun part hp _ ht => h.part (hl part hp) ht) hs

theorem Kept.lines (h : Kept lib i A P) {lines : List (List Char)} (hl : ∀ line ∈ lines, LineOf lib A line) {s : State σ ν ω}
    (hs : Good A P s) : Good A P (seq (executeLine lib i) lines s).1 :=
  seq_inv (fun line hp _ ht => h.line (hl line hp) ht) hs

theorem Kept.run (h : Kept lib i (fun _ => True) P) (input : List (List Char)) (lines : List Char) {s : State σ ν ω}
    (hs : Good (fun _ => True) P s) : Good (fun _ => True) P (runLoop lib i input lines s).1 := by
  have wr : ∀ (t : State σ ν ω) e, Good (fun _ => True) P t → Good (fun _ => True) P (t.write e) := fun t e ht =>
    ⟨h.fields t t.loopN t.body t.prompt (t.out ++ [e]) t.errors ht.1, ht.2⟩
  induction input generalizing lines s with
  | nil =>
    rw [runLoop]
    split
    · exact hs
    · simp only
      split
      · exact wr _ _ (wr _ _ hs)
      · exact wr _ _ hs
  | cons line input ih =>
    rw [runLoop]
    split
    · exact hs
    · simp only
      split
      · exact ih _ (wr _ _ hs)
      · split
        · exact ih _ (wr _ _ hs)
        · have h1 := h.line (line := lines ++ clean line) (fun part _ c _ => .inl trivial) (wr s (.prompt s.prompt) hs)
          cases hx : executeLine lib i (lines ++ clean line) (s.write (.prompt s.prompt)) with
          | mk t o =>
            rw [hx] at h1
            cases o with
            | some g => exact h1
            | none => exact ih _ h1


/-! ## Changes a command does not notice -/

theorem executeBody_put (lib : Lib σ ν ω) (i : Bool) (c : Command ν) (hc : c.name ≠ .loop) (s : State σ ν ω) (n : Option Nat)
    (b : List (Command ν)) : executeBody lib i c { s with loopN := n, body := b } =
      ({ (executeBody lib i c s).1 with loopN := n, body := b }, (executeBody lib i c s).2) := by
  obtain ⟨f, _, hf⟩ := executeBody_form lib i c hc
  rw [hf, hf]
  have : ({ s with loopN := n, body := b } : State σ ν ω).core lib = s.core lib := rfl
  rw [this]
  cases (f (s.core lib)).1 <;> cases (f (s.core lib)).2 <;> rfl

theorem seqBody_put (lib : Lib σ ν ω) (i : Bool) (cs : List (Command ν)) (hc : ∀ c ∈ cs, c.name ≠ .loop) (s : State σ ν ω) (n : Option Nat)
    (b : List (Command ν)) : seq (executeBody lib i) cs { s with loopN := n, body := b } =
      ({ (seq (executeBody lib i) cs s).1 with loopN := n, body := b }, (seq (executeBody lib i) cs s).2) := by
  induction cs generalizing s with
  | nil => rfl
  | cons c cs ih =>
    rw [seq, seq, executeBody_put lib i c (hc c (by simp))]
    cases hx : executeBody lib i c s with
    | mk t o =>
      cases o with
      | some g => rfl
      | none => exact ih (fun d hd => hc d (List.mem_cons_of_mem _ hd)) t

/-- Without the prompts. -/
def State.quiet (s : State σ ν ω) : State σ ν ω :=
  { s with out := s.out.filter fun e => match e with | .text _ => true | .prompt _ => false }

@[simp] theorem State.quiet_write (s : State σ ν ω) (p : List Char) : (s.write (.prompt p)).quiet = s.quiet := by
  simp [State.quiet, State.write]

theorem error_quiet (i : Bool) (e : Err) (s : State σ ν ω) : error i e s.quiet = ((error i e s).1.quiet, (error i e s).2) := rfl

theorem executeBody_quiet (lib : Lib σ ν ω) (i : Bool) (c : Command ν) (hc : c.name ≠ .loop) (s : State σ ν ω) :
    executeBody lib i c s.quiet = ((executeBody lib i c s).1.quiet, (executeBody lib i c s).2) := by
  obtain ⟨f, _, hf⟩ := executeBody_form lib i c hc
  rw [hf, hf]
  have : s.quiet.core lib = s.core lib := rfl
  rw [this]
  cases (f (s.core lib)).1 <;> cases (f (s.core lib)).2 <;> simp [Pre.apply, Post.apply, State.quiet, State.sudoku, error]

theorem seq_quiet {α : Type} {f : α → State σ ν ω → State σ ν ω × Option Signal} {P : State σ ν ω → Prop} {l : List α}
    (h : ∀ x ∈ l, ∀ s, P s → f x s.quiet = ((f x s).1.quiet, (f x s).2) ∧ P (f x s).1) {s : State σ ν ω} (hs : P s) :
    seq f l s.quiet = ((seq f l s).1.quiet, (seq f l s).2) := by
  induction l generalizing s with
  | nil => rfl
  | cons x l ih =>
    obtain ⟨h1, h2⟩ := h x (by simp) s hs
    rw [seq, seq, h1]
    cases hx : f x s with
    | mk t o =>
      rw [hx] at h2
      cases o with
      | some g => rfl
      | none => exact ih (fun y hy => h y (List.mem_cons_of_mem _ hy)) h2

/-- The commands of a loop being defined are no loop commands. -/
def FlatBody (s : State σ ν ω) : Prop := ∀ c ∈ s.body, c.name ≠ .loop

theorem flat_kept (lib : Lib σ ν ω) (i : Bool) : Kept lib i (fun _ => True) (fun _ : State σ ν ω => True) :=
  ⟨fun _ _ _ _ _ => trivial, fun _ _ _ _ _ _ _ => trivial⟩

theorem flat_good {s : State σ ν ω} : FlatBody s ↔ Good (fun _ => True) (fun _ => True) s :=
  ⟨fun h => ⟨trivial, fun c hc => ⟨trivial, h c hc⟩⟩, fun h c hc => (h.2 c hc).2⟩

theorem execute_quiet (lib : Lib σ ν ω) (i : Bool) (c : Command ν) {s : State σ ν ω} (hs : FlatBody s) :
    execute lib i c s.quiet = ((execute lib i c s).1.quiet, (execute lib i c s).2) := by
  by_cases hc : c.name = .loop
  · cases hb : bindOne ['n'] c.args c.kwargs with
    | error e =>
      have : ∀ t : State σ ν ω, execute lib i c t = error i (.exn e) t := by
        intro t
        unfold execute executeWith callWith
        rw [hc]
        simp only
        rw [hb]
      rw [this, this]; rfl
    | ok o =>
      cases o with
      | none =>
        have : ∀ t : State σ ν ω, execute lib i c t = error i (.exn .TypeError) t := by
          intro t
          unfold execute executeWith callWith
          rw [hc]
          simp only
          rw [hb]
        rw [this, this]; rfl
      | some n =>
        rw [execute_loop_arg lib i c hc n hb, execute_loop_arg lib i c hc n hb]
        by_cases he : argIsEnd lib n = true
        · rw [if_pos he, if_pos he]
          show (match s.loopN with | none => _ | some k => _) = _
          cases hn : s.loopN with
          | none => rfl
          | some k =>
            simp only
            have h1 : runBody lib i k s.quiet = ((runBody lib i k s).1.quiet, (runBody lib i k s).2) := by
              unfold runBody
              refine seq_quiet (P := fun _ => True) (s := { s with prompt := commandPrompt i }) (fun c hc t _ => ⟨?_, trivial⟩) trivial
              obtain ⟨l, hl, hc⟩ := List.mem_flatten.1 hc
              rw [List.eq_of_mem_replicate hl] at hc
              exact executeBody_quiet lib i c (hs c hc) t
            rw [h1]
            cases runBody lib i k s with
            | mk t o => cases o <;> rfl
        · rw [if_neg he, if_neg he]
          cases argInt lib n with
          | error e => cases e <;> rfl
          | ok k =>
            simp only
            by_cases h0 : k ≤ 0
            · rw [if_pos h0, if_pos h0]; rfl
            · rw [if_neg h0, if_neg h0]
              have hq : s.quiet.loopN = s.loopN := rfl
              rw [hq]
              by_cases h1 : s.loopN.isSome = true
              · rw [if_pos h1, if_pos h1]; rfl
              · rw [if_neg h1, if_neg h1]; rfl
  · rw [execute_eq_body lib i c hc, execute_eq_body lib i c hc, executeBody_quiet lib i c hc]

theorem executePart_quiet (lib : Lib σ ν ω) (i : Bool) (part : List Char) {s : State σ ν ω} (hs : FlatBody s) :
    executePart lib i part s.quiet = ((executePart lib i part s).1.quiet, (executePart lib i part s).2) := by
  unfold executePart executePartWith
  cases parse lib (Py.strip part) with
  | error e => rcases e with _ | _ | e <;> first | rfl | (cases e <;> rfl)
  | ok c =>
    simp only
    by_cases h1 : c.name = .exit
    · rw [if_pos h1, if_pos h1, execute_quiet lib i c hs]
    · rw [if_neg h1, if_neg h1]
      have hq : s.quiet.loopN = s.loopN := rfl
      rw [hq]
      by_cases h2 : s.loopN.isSome = true ∧ c.name ≠ .loop
      · rw [if_pos h2, if_pos h2]; rfl
      · rw [if_neg h2, if_neg h2, execute_quiet lib i c hs]

theorem executeLine_flat (lib : Lib σ ν ω) (i : Bool) (line : List Char) {s : State σ ν ω} (hs : FlatBody s) :
    FlatBody (executeLine lib i line s).1 :=
  flat_good.2 ((flat_kept lib i).line (fun _ _ _ _ => .inl trivial) (flat_good.1 hs))

theorem executeLine_quiet (lib : Lib σ ν ω) (i : Bool) (line : List Char) {s : State σ ν ω} (hs : FlatBody s) :
    executeLine lib i line s.quiet = ((executeLine lib i line s).1.quiet, (executeLine lib i line s).2) :=
  seq_quiet (P := FlatBody) (fun part _ _ ht => ⟨executePart_quiet lib i part ht,
    flat_good.2 ((flat_kept lib i).part (fun _ _ => .inl trivial) (flat_good.1 ht))⟩) hs

/-! ## Lines -/

theorem splitGo_semicolon (a b acc : List Char) :
    Py.splitGo [';'] (a ++ ';' :: b) 0 acc = Py.splitGo [';'] a 0 acc ++ Py.splitGo [';'] b 0 [] := by
  induction a generalizing acc with
  | nil => rw [List.nil_append, show ';' :: b = [';'] ++ b from rfl, Py.splitGo_sep (by simp)]; rfl
  | cons c a ih =>
    rw [List.cons_append, Py.splitGo, Py.splitGo]
    by_cases hc : c = ';'
    · subst hc
      rw [if_pos (by simp [List.isPrefixOf]), if_pos (by simp [List.isPrefixOf])]
      simp only [List.length_singleton, Nat.sub_self, List.cons_append]
      rw [ih]
    · have : ¬ [';'].isPrefixOf (c :: (a ++ ';' :: b)) = true := by
        simp [List.isPrefixOf]; exact fun h => hc h.symm
      rw [if_neg this, if_neg (by simp [List.isPrefixOf]; exact fun h => hc h.symm), ih]

/-- Lines joined by `;` are executed one after the other. -/
theorem executeLine_join (lib : Lib σ ν ω) (i : Bool) (c : List Char) (cs : List (List Char)) (s : State σ ν ω) :
    executeLine lib i (Py.join [';'] (c :: cs)) s = seq (executeLine lib i) (c :: cs) s := by
  induction cs generalizing c s with
  | nil =>
    rw [Py.join, seq]
    cases executeLine lib i c s with
    | mk t o => cases o <;> rfl
  | cons d cs ih =>
    rw [Py.join, seq]
    have : executeLine lib i (c ++ [';'] ++ Py.join [';'] (d :: cs)) s = match executeLine lib i c s with
        | (s, some g) => (s, some g)
        | (s, none) => executeLine lib i (Py.join [';'] (d :: cs)) s := by
      unfold executeLine
      rw [List.append_assoc, List.singleton_append, splitGo_semicolon, seq_append]
    rw [this]
    cases executeLine lib i c s with
    | mk t o => cases o <;> [exact ih d t; rfl]

/-- Once `exit` has been executed the shell is not running any more. -/
theorem executeLine_stopped (lib : Lib σ ν ω) (i : Bool) (line : List Char) {s : State σ ν ω} (hs : FlatBody s) (h : s.running = false) :
    (executeLine lib i line s).1.running = false := by
  have kept : Kept lib i (fun _ => True) (fun s : State σ ν ω => s.running = false) := by
    constructor
    · intro c s _ hc hs
      obtain ⟨f, _, hf⟩ := executeBody_form lib i c hc
      rw [hf]
      cases (f (s.core lib)).1 <;> cases (f (s.core lib)).2 <;> first | exact hs | rfl
    · intro s n b p o e hs; exact hs
  exact (kept.line (fun _ _ _ _ => .inl trivial) ⟨h, fun c hc => ⟨trivial, hs c hc⟩⟩).1

end Shell
