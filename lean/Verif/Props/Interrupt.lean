import Verif.Proofs.Interrupt
import Verif.Props.Scripts
import Verif.Props.ShellLib

set_option autoImplicit false

/-!
# Interrupts (C97)

`cut` says which commands are interrupted while they are executed (see Model/Interrupt.lean).
-/

open Shell

namespace Props

variable {σ ν ω : Type}

/-! ## Without interrupts -/

private theorem loop_uninterrupted (lib : Lib σ ν ω) (i : Bool) (input : List (List Char)) (lines : List Char) (s : State σ ν ω) :
    runLoopI lib i (fun _ _ => none) (input.map .line) lines s = runLoop lib i input lines s := by
  induction input generalizing lines s with
  | nil => rw [List.map_nil, runLoopI, runLoop]
  | cons l input ih =>
    rw [List.map_cons, runLoopI, runLoop]
    split
    · rfl
    · simp only [ih, lineI_none]
      split
      · rfl
      · split
        · rfl
        · have := executeLine_calm lib i (lines ++ clean l) (s.write (.prompt s.prompt))
          revert this
          cases executeLine lib i (lines ++ clean l) (s.write (.prompt s.prompt)) with
          | mk t o => rcases o with _ | _ | _ | _ <;> simp

/-- **C97** Without interrupts the shell is the one that the other properties speak of. -/
theorem C97_uninterrupted (lib : Lib σ ν ω) (i : Bool) (greeting : List Char) (input : List (List Char)) (s : State σ ν ω) :
    runI lib i (fun _ _ => none) greeting (input.map .line) s = run lib i greeting input s :=
  loop_uninterrupted lib i input [] _

/-! ## Interrupts at the prompt -/

/-- Instead of interrupting the shell, an empty line is entered. -/
def emptyLine : Input → Input
  | .interrupt => .line ['\n']
  | x => x

/-- The results that have been printed, without prompts and the like. -/
def results (out : List Event) : List (List Char) := out.filterMap fun
  | .text t => some t
  | .prompt _ => none

private theorem results_append (a b : List Event) : results (a ++ b) = results a ++ results b := by
  unfold results; rw [List.filterMap_append]

/-- The same but for prompts and messages. -/
private def Alike (s t : State σ ν ω) : Prop :=
  ∃ (u : State σ ν ω) (p q : List Event), s = u.shift p ∧ t = u.shift q ∧ results p = results q

private theorem Alike.write {s t : State σ ν ω} (h : Alike s t) (l m : List Event) (hl : results l = results m) :
    Alike { s with out := s.out ++ l } { t with out := t.out ++ m } := by
  obtain ⟨u, p, q, rfl, rfl, e⟩ := h
  refine ⟨{ u with out := [] }, p ++ u.out ++ l, q ++ u.out ++ m, ?_, ?_, ?_⟩
  · simp [State.shift]
  · simp [State.shift]
  · rw [results_append, results_append, results_append, results_append, e, hl]

private theorem Alike.prompts {s t : State σ ν ω} (h : Alike s t) (l m : List (List Char)) :
    Alike { s with out := s.out ++ l.map .prompt } { t with out := t.out ++ m.map .prompt } := by
  have : ∀ l : List (List Char), results (l.map Event.prompt) = [] := by
    intro l; unfold results; simp
  exact h.write _ _ (by rw [this, this])

private theorem Alike.exec {f : State σ ν ω → State σ ν ω × Option Signal} (hf : Shifts f) {s t : State σ ν ω} (h : Alike s t) :
    Alike (f s).1 (f t).1 ∧ (f s).2 = (f t).2 := by
  obtain ⟨u, p, q, rfl, rfl, e⟩ := h
  rw [hf p u, hf q u]
  exact ⟨⟨(f u).1, p, q, rfl, rfl, e⟩, rfl⟩

/-- What happens after a line. -/
private def resume (next : List Char → State σ ν ω → State σ ν ω × Option Signal) (again : State σ ν ω → State σ ν ω × Option Signal) :
    State σ ν ω × Option Signal → State σ ν ω × Option Signal
  | (s, some .interrupt) => again (s.write (.prompt ['\n']))
  | (s, some g) => (s, some g)
  | (s, none) => next [] s

private theorem step_line (lib : Lib σ ν ω) (cut : Cut σ ν ω) (input : List Input) (lines l : List Char) (s : State σ ν ω)
    (hr : s.running ≠ false) : runLoopI lib true cut (.line l :: input) lines s =
      if (clean l).getLast? = some '\\' then runLoopI lib true cut input (lines ++ (clean l).dropLast) (s.write (.prompt s.prompt))
      else if lines ++ clean l = [] then runLoopI lib true cut input [] (s.write (.prompt s.prompt))
      else resume (runLoopI lib true cut input) (runLoopI lib true cut input (lines ++ clean l))
        (executeLineI lib true cut (lines ++ clean l) (s.write (.prompt s.prompt))) := by
  rw [runLoopI, if_neg hr]
  rfl

private theorem step_interrupt (lib : Lib σ ν ω) (cut : Cut σ ν ω) (input : List Input) (lines : List Char) (s : State σ ν ω)
    (hr : s.running ≠ false) : runLoopI lib true cut (.interrupt :: input) lines s =
      if lines = [] then runLoopI lib true cut input [] ((s.write (.prompt s.prompt)).write (.prompt useExit))
      else resume (runLoopI lib true cut input) (runLoopI lib true cut input lines)
        (executeLineI lib true cut lines ((s.write (.prompt s.prompt)).write (.prompt useExit))) := by
  rw [runLoopI, if_neg hr]
  rfl

private theorem clean_empty : clean ['\n'] = [] := by decide

private theorem loop_emptyLine (lib : Lib σ ν ω) {cut : Cut σ ν ω} (hcut : ∀ c p s, cut c (State.shift p s) = cut c s)
    (input : List Input) (lines : List Char) (s t : State σ ν ω) (h : Alike s t) :
    let r := runLoopI lib true cut input lines s
    let r' := runLoopI lib true cut (input.map emptyLine) lines t
    Alike r.1 r'.1 ∧ r.2 = r'.2 := by
  induction input generalizing lines s t with
  | nil =>
    rw [List.map_nil]
    intro r r'
    have hr : r = runLoopI lib true cut [] lines s := rfl
    have hr' : r' = runLoopI lib true cut [] lines t := rfl
    rw [hr, hr', runLoopI, runLoopI]
    have e : s.running = t.running ∧ s.prompt = t.prompt := by
      obtain ⟨u, p, q, rfl, rfl, -⟩ := h; exact ⟨rfl, rfl⟩
    rw [e.1]
    split
    · exact ⟨h, rfl⟩
    · have := h.prompts [s.prompt, ['\n']] [t.prompt, ['\n']]
      refine ⟨?_, rfl⟩
      simpa [State.write] using this
  | cons x input ih =>
    intro r r'
    have hr : r = runLoopI lib true cut (x :: input) lines s := rfl
    have hr' : r' = runLoopI lib true cut (emptyLine x :: input.map emptyLine) lines t := rfl
    rw [hr, hr']
    clear hr hr' r r'
    have e : s.running = t.running ∧ s.prompt = t.prompt := by
      obtain ⟨u, p, q, rfl, rfl, -⟩ := h; exact ⟨rfl, rfl⟩
    by_cases hr : t.running = false
    · rw [runLoopI, runLoopI, e.1, if_pos hr, if_pos hr]
      exact ⟨h, rfl⟩
    · have hp : ∀ m : List (List Char), Alike { s with out := s.out ++ (s.prompt :: m).map .prompt } (t.write (.prompt t.prompt)) :=
        fun m => by simpa [State.write] using h.prompts (s.prompt :: m) [t.prompt]
      have hp' : Alike (s.write (.prompt s.prompt)) (t.write (.prompt t.prompt)) := by simpa [State.write] using hp []
      have hp'' : Alike ((s.write (.prompt s.prompt)).write (.prompt useExit)) (t.write (.prompt t.prompt)) := by
        simpa [State.write] using hp [useExit]
      -- the execution of a line
      have run : ∀ (text : List Char) (s t : State σ ν ω), Alike s t →
          let r := resume (runLoopI lib true cut input) (runLoopI lib true cut input text) (executeLineI lib true cut text s)
          let r' := resume (runLoopI lib true cut (input.map emptyLine)) (runLoopI lib true cut (input.map emptyLine) text)
              (executeLineI lib true cut text t)
          Alike r.1 r'.1 ∧ r.2 = r'.2 := by
        intro text s t h
        have := h.exec (shifts_lineI lib true hcut text)
        revert this
        cases executeLineI lib true cut text s with
        | mk s' o =>
          cases executeLineI lib true cut text t with
          | mk t' o' =>
            rintro ⟨h1, h2⟩
            simp only at h1 h2
            subst h2
            rcases o with _ | _ | _ | _
            · exact ih [] s' t' h1
            · exact ⟨h1, rfl⟩
            · exact ⟨h1, rfl⟩
            · refine ih text _ _ ?_
              simpa [State.write] using h1.prompts [['\n']] [['\n']]
      cases x with
      | line l =>
        rw [step_line lib cut input lines l s (by rw [e.1]; exact hr), show emptyLine (.line l) = .line l from rfl,
          step_line lib cut _ lines l t hr]
        by_cases h1 : (clean l).getLast? = some '\\'
        · rw [if_pos h1, if_pos h1]; exact ih _ _ _ hp'
        · rw [if_neg h1, if_neg h1]
          by_cases h2 : lines ++ clean l = []
          · rw [if_pos h2, if_pos h2]; exact ih _ _ _ hp'
          · rw [if_neg h2, if_neg h2]; exact run _ _ _ hp'
      | interrupt =>
        rw [step_interrupt lib cut input lines s (by rw [e.1]; exact hr), emptyLine, step_line lib cut _ lines _ t hr, clean_empty,
          List.append_nil, if_neg (c := ([] : List Char).getLast? = some '\\') (by simp)]
        by_cases hl : lines = []
        · rw [if_pos hl, if_pos hl]; exact ih _ _ _ hp''
        · rw [if_neg hl, if_neg hl]; exact run _ _ _ hp''

/-- **C97** For an interactive shell that waits for a line, an interrupt is as good as an empty line: the same commands are executed,
with the same results, and the shell ends in the same way; only a message is printed in addition.  (The premise says that the
times of other interrupts do not depend on what has been printed.) -/
theorem C97_empty_line (lib : Lib σ ν ω) (cut : Cut σ ν ω) (hcut : ∀ c s out, cut c { s with out := out } = cut c s)
    (greeting : List Char) (input : List Input) (s : State σ ν ω) :
    let r := runI lib true cut greeting input s
    let r' := runI lib true cut greeting (input.map emptyLine) s
    r.2 = r'.2 ∧ r.1 = { r'.1 with out := r.1.out } ∧ results r.1.out = results r'.1.out := by
  intro r r'
  obtain ⟨⟨u, p, q, h1, h2, h3⟩, h4⟩ := loop_emptyLine lib (cut := cut) (fun c p s => hcut c s _) input []
    (s.write (.prompt greeting)) (s.write (.prompt greeting)) ⟨s.write (.prompt greeting), [], [], rfl, rfl, rfl⟩
  have e1 : r.1 = u.shift p := h1
  have e2 : r'.1 = u.shift q := h2
  refine ⟨h4, ?_, ?_⟩
  · rw [e1, e2]; rfl
  · rw [e1, e2]
    show results (p ++ u.out) = results (q ++ u.out)
    rw [results_append, results_append, h3]

/-- **C97** So it does not discard a command that has been begun (as an interrupt does elsewhere): the command is executed. -/
theorem C97_continued (lib : Lib σ ν ω) (cut : Cut σ ν ω) (input : List Input) (lines : List Char) (hl : lines ≠ [])
    (s t : State σ ν ω) (hr : s.running = true)
    (h : executeLineI lib true cut lines ((s.write (.prompt s.prompt)).write (.prompt useExit)) = (t, none)) :
    runLoopI lib true cut (.interrupt :: input) lines s = runLoopI lib true cut input [] t := by
  rw [runLoopI, if_neg (by rw [hr]; simp)]
  simp only [if_true]
  rw [if_neg hl, h]

/-! ## Scripts -/

/-- **C97** A script ends with status 2 when it is interrupted while the next line is read ... -/
theorem C97_script_reading (lib : Lib σ ν ω) (cut : Cut σ ν ω) (input : List Input) (lines : List Char) (s : State σ ν ω)
    (hr : s.running = true) :
    runLoopI lib false cut (.interrupt :: input) lines s = (s.write (.prompt s.prompt), some (.exit 2)) := by
  rw [runLoopI, if_neg (by rw [hr]; simp)]
  rfl

/-- **C97** ... and when one of its commands is interrupted, which remains the last one. -/
theorem C97_script_executing (lib : Lib σ ν ω) (cut : Cut σ ν ω) (line : List Char) (input : List Input) (lines : List Char)
    (s t : State σ ν ω) (hr : s.running = true) (hb : (clean line).getLast? ≠ some '\\') (hl : lines ++ clean line ≠ [])
    (h : executeLineI lib false cut (lines ++ clean line) (s.write (.prompt s.prompt)) = (t, some .interrupt)) :
    runLoopI lib false cut (.line line :: input) lines s = (t.write (.prompt ['\n']), some (.exit 2)) := by
  rw [runLoopI, if_neg (by rw [hr]; simp)]
  simp only
  rw [if_neg hb, if_neg hl, h]
  rfl

/-- **C97** Interrupts always are caught.  An interactive shell is never left by `sys.exit`, a script only with the statuses 1 and 2,
and with 2 only if there was an interrupt. -/
theorem C97_status (lib : Lib σ ν ω) (i : Bool) (cut : Cut σ ν ω) (greeting : List Char) (input : List Input) (s : State σ ν ω) :
    let r := runI lib i cut greeting input s
    r.2 ≠ some .interrupt ∧ ∀ code, r.2 = some (.exit code) → i = false ∧ (code = 1 ∨ code = 2) := by
  have key : ∀ (input : List Input) (lines : List Char) (s : State σ ν ω), (runLoopI lib i cut input lines s).2 ≠ some .interrupt ∧
      ∀ code, (runLoopI lib i cut input lines s).2 = some (.exit code) → i = false ∧ (code = 1 ∨ code = 2) := by
    intro input
    induction input with
    | nil =>
      intro lines s
      rw [runLoopI]
      split <;> simp
    | cons x input ih =>
      intro lines s
      have run : ∀ (text : List Char) (s : State σ ν ω),
          let r := match executeLineI lib i cut text s with
            | (s, some .interrupt) =>
              let s := s.write (.prompt ['\n'])
              if i then runLoopI lib i cut input text s else (s, some (.exit 2))
            | (s, some g) => (s, some g)
            | (s, none) => runLoopI lib i cut input [] s
          r.2 ≠ some .interrupt ∧ ∀ code, r.2 = some (.exit code) → i = false ∧ (code = 1 ∨ code = 2) := by
        intro text s
        have := exits_lineI lib i cut text s
        revert this
        cases executeLineI lib i cut text s with
        | mk t o =>
          intro this
          rcases o with _ | code | e | _
          · exact ih [] t
          · simp only
            refine ⟨by simp, fun code' h => ?_⟩
            have := this code rfl
            simp only [Option.some.injEq, Signal.exit.injEq] at h
            exact ⟨this.1, Or.inl (h ▸ this.2)⟩
          · simp
          · simp only
            split
            · exact ih text _
            · rename_i hi
              simp only [ne_eq, Option.some.injEq, reduceCtorEq, not_false_eq_true, true_and]
              intro code h
              exact ⟨by simpa using hi, Or.inr (by simpa using h.symm)⟩
      rw [runLoopI]
      split
      · simp
      · cases x with
        | line l =>
          simp only
          split
          · exact ih _ _
          · split
            · exact ih _ _
            · exact run _ _
        | interrupt =>
          simp only
          split
          · rename_i hi
            split
            · exact ih _ _
            · have := run lines ((s.write (.prompt s.prompt)).write (.prompt useExit))
              simp only [hi, if_true] at this ⊢
              exact this
          · rename_i hi
            simp only [ne_eq, Option.some.injEq, reduceCtorEq, not_false_eq_true, true_and]
            intro code h
            exact ⟨by simpa using hi, Or.inr (by simpa using h.symm)⟩
  exact key input [] _

/-! ## Interrupted commands of an interactive shell -/

/-- **C97** When a command is interrupted in an interactive shell, the shell goes on; but the text of the line is kept as if it
was to be continued, and is put in front of the next line. -/
theorem C97_kept (lib : Lib σ ν ω) (cut : Cut σ ν ω) (line : List Char) (input : List Input) (lines : List Char)
    (s t : State σ ν ω) (hr : s.running = true) (hb : (clean line).getLast? ≠ some '\\') (hl : lines ++ clean line ≠ [])
    (h : executeLineI lib true cut (lines ++ clean line) (s.write (.prompt s.prompt)) = (t, some .interrupt)) :
    runLoopI lib true cut (.line line :: input) lines s = runLoopI lib true cut input (lines ++ clean line) (t.write (.prompt ['\n'])) := by
  rw [runLoopI, if_neg (by rw [hr]; simp)]
  simp only
  rw [if_neg hb, if_neg hl, h]
  rfl

/-- **C97** So the interrupted line is executed once more when an empty line is entered next. -/
theorem C97_again (lib : Lib σ ν ω) (cut : Cut σ ν ω) (line : List Char) (input : List Input)
    (s t u : State σ ν ω) (hr : s.running = true) (hb : (clean line).getLast? ≠ some '\\') (hl : clean line ≠ [])
    (h : executeLineI lib true cut (clean line) (s.write (.prompt s.prompt)) = (t, some .interrupt)) (ht : t.running = true)
    (h' : executeLineI lib true cut (clean line) ((t.write (.prompt ['\n'])).write (.prompt t.prompt)) = (u, none)) :
    runLoopI lib true cut (.line line :: .line ['\n'] :: input) [] s = runLoopI lib true cut input [] u := by
  rw [C97_kept lib cut line _ [] s t hr hb (by simpa using hl) (by simpa using h), runLoopI, if_neg (by simp [State.write, ht])]
  simp only [clean_empty, List.append_nil, List.nil_append]
  rw [if_neg (by simp), if_neg hl, show (t.write (.prompt ['\n'])).prompt = t.prompt from rfl, h']

/-- **C97** An interrupted command that is no loop leaves everything as it was, but the contents of the current sudoku (if the function
works on it) and the rest of the world. -/
theorem C97_untouched (lib : Lib σ ν ω) (i : Bool) (cut : Cut σ ν ω) (c : Command ν) (hc : c.name ≠ .loop) (s t : State σ ν ω)
    (h : executeI lib i cut c s = (t, some .interrupt)) :
    (∃ x w, t = { s with heap := s.heap.set s.cur x, world := w }) ∨ ∃ w, t = { s with world := w } := by
  unfold executeI interruptible at h
  split at h
  · exfalso
    have : ∀ f g : Arg ν → State σ ν ω → State σ ν ω × Outcome σ, executeWith lib i f c s = executeWith lib i g c s := by
      intro f g
      have : callWith lib i f c s = callWith lib i g c s := by
        unfold callWith
        obtain ⟨n, args, kwargs⟩ := c
        cases n <;> first | rfl | exact absurd rfl hc
      unfold executeWith
      rw [this]
    rw [this _ fun _ s => (s, .raised ⟨.RecursionError, .builtin⟩)] at h
    exact executeBody_calm lib i c s (congrArg Prod.snd h)
  · rename_i x w _
    simp only [Prod.mk.injEq, and_true] at h
    split at h
    · exact Or.inl ⟨x, w, h.symm⟩
    · exact Or.inr ⟨w, h.symm⟩

/-- **C97** A loop that is interrupted while it runs stays defined, with its number of rounds and its body, although the prompt
is the usual one. -/
theorem C97_loop (lib : Lib σ ν ω) (i : Bool) (cut : Cut σ ν ω) (c : Command ν) (hc : c.name = .loop) (s t : State σ ν ω)
    (hn : cut c s = none) (h : executeI lib i cut c s = (t, some .interrupt)) :
    t.loopN = s.loopN ∧ t.body = s.body ∧ s.loopN ≠ none ∧ t.prompt = commandPrompt i := by
  unfold executeI at h
  rw [interruptible, hn] at h
  simp only at h
  have calm : ∀ e, executeWith lib i (loopWith lib i (interruptible cut (executeBody lib i))) c s ≠ (error i e s : State σ ν ω × _) := by
    intro e he
    rw [he] at h
    exact calm_error i e s (congrArg Prod.snd h)
  have retErr : ∀ (t : List Char) (s : State σ ν ω), ∀ g, (returnError i t s).2 = .signal g → g = .exit 1 := by
    intro t s g hg
    unfold returnError error at hg
    cases i <;> simp at hg
    exact hg.symm
  have key : ∃ n, loopWith lib i (interruptible cut (executeBody lib i)) n s = (t, .signal .interrupt) := by
    unfold executeWith callWith at h calm
    rw [hc] at h calm
    simp only at h calm
    cases hb : bindOne ['n'] c.args c.kwargs with
    | error e => rw [hb] at calm; exact absurd rfl (calm _)
    | ok o =>
      cases o with
      | none => rw [hb] at calm; exact absurd rfl (calm _)
      | some n =>
        rw [hb] at h
        simp only at h
        refine ⟨n, ?_⟩
        revert h
        cases loopWith lib i (interruptible cut (executeBody lib i)) n s with
        | mk u o =>
          rcases o with (_ | _ | _ | _ | _) | e | g <;> simp only <;> intro h
          · cases h
          · cases h
          · cases h
          · cases h
          · exact absurd (congrArg Prod.snd h) (calm_error i _ u)
          · exact absurd (congrArg Prod.snd h) (calm_error i _ u)
          · simp only [Prod.mk.injEq, Option.some.injEq] at h
            rw [h.1, h.2]
  obtain ⟨n, hk⟩ := key
  unfold loopWith at hk
  split at hk
  · split at hk
    · have := retErr _ s _ (by rw [hk]); cases this
    · rename_i k hs
      have hinv : ∀ l : List Nat, ∀ u : State σ ν ω, (u.loopN = s.loopN ∧ u.body = s.body ∧ u.prompt = commandPrompt i) →
          (fun u : State σ ν ω => u.loopN = s.loopN ∧ u.body = s.body ∧ u.prompt = commandPrompt i)
            (seq (fun _ => seq (interruptible cut (executeBody lib i)) s.body) l u).1 := by
        intro l u hu
        refine seq_inv (P := fun u : State σ ν ω => u.loopN = s.loopN ∧ u.body = s.body ∧ u.prompt = commandPrompt i)
          (fun _ _ v hv => seq_inv (P := fun u : State σ ν ω => u.loopN = s.loopN ∧ u.body = s.body ∧ u.prompt = commandPrompt i)
            (fun x _ v hv => ?_) hv) hu
        unfold interruptible
        split
        · obtain ⟨h1, h2, h3⟩ := executeBody_fields lib i x v
          exact ⟨h2.trans hv.1, h1.trans hv.2.1, h3.trans hv.2.2⟩
        · exact hv
      have := hinv (List.range k) { s with prompt := commandPrompt i } ⟨rfl, rfl, rfl⟩
      revert hk this
      simp only
      cases seq (fun _ => seq (interruptible cut (executeBody lib i)) s.body) (List.range k) { s with prompt := commandPrompt i } with
      | mk u o =>
        cases o with
        | none => intro hk; simp at hk
        | some g =>
          intro hk this
          simp only [Prod.mk.injEq] at hk
          rw [← hk.1]
          exact ⟨this.1, this.2.1, by rw [hs]; simp, this.2.2⟩
  · split at hk
    · have := retErr _ s _ (by rw [hk]); cases this
    · simp at hk
    · split at hk
      · have := retErr _ s _ (by rw [hk]); cases this
      · split at hk
        · have := retErr _ s _ (by rw [hk]); cases this
        · simp at hk

/-! ## Samples

Whoever sits in front of the terminal always interrupts `solve`. -/

private def demo' : Lib Sudoku Val Unit := demo (fun _ S => Solvers.sortSet S) 100
private def impatient : Cut Sudoku Val Unit := fun c s => if c.name = .solve then some (s.sudoku demo', ()) else none
private def start (i : Bool) : State Sudoku Val Unit := init demo' i ()
private def enter (i : Bool) (input : List Input) := runI demo' i impatient [] input (start i)
private def type (l : String) : Input := .line l.toList

-- the text `solve` is kept: the second line has no effect, the third one has
example : printed (enter true [type "solve\n", type "stack\n", type "stack\n"]).1.out =
    "> \n> > stack has 0 sudokus\n> \n".toList := by decide +kernel
example : (enter true [type "solve\n", type "stack\n", type "stack\n"]).1.errors.length = 1 := by decide +kernel
-- the same as the single line `solvestack`
example : (enter true [type "solvestack\n"]).1.errors = (enter true [type "solve\n", type "stack\n"]).1.errors := by decide +kernel
-- a line that was begun is executed when the next one is interrupted
example : printed (enter true [type "stack \\\n", .interrupt]).1.out =
    "> > \nUse 'exit' to leave the shell.\nstack has 0 sudokus\n> \n".toList := by decide +kernel
-- a script
example : (enter false [type "stack\n", type "solve\n", type "stack\n"]).2 = some (.exit 2) ∧
    printed (enter false [type "stack\n", type "solve\n", type "stack\n"]).1.out = "stack has 0 sudokus\n\n".toList := by decide +kernel
example : (enter false [type "stack\n", .interrupt]).2 = some (.exit 2) := by decide +kernel
-- a loop: afterwards the commands still are collected
example :
    let r := enter true [type "loop 2\n", type "push\n", type "solve\n", type "loop end\n", type "x\n", type "pop\n"]
    r.1.loopN = some 2 ∧ r.1.body.length = 3 ∧ r.1.prompt = "> ".toList ∧ r.1.stack.length = 1 := by decide +kernel

end Props
