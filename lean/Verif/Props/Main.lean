import Verif.Model.Main
import Verif.Props.Scripts

set_option autoImplicit false

/-!
# C80: the program
-/

open Spec

namespace Props

open Shell Main

variable {σ ν ω : Type}

/-- **C80** If a file name is given, neither the command nor the standard input matters. -/
theorem C80_filename (lib : Lib σ ν ω) (sys : System ω) (f : List Char) (hf : f ≠ []) (c c' : Option (List Char)) (stdin : List (List Char))
    (tty : Bool) : main lib sys ⟨some f, c⟩ = main lib { sys with stdin := stdin, stdinTty := tty } ⟨some f, c'⟩ := by
  have h : given (some f) = some f := if_neg (by simpa using hf)
  unfold main
  simp only [h, runShell]

/-- **C80** A file that cannot be opened: status 1, and nothing is executed, printed or read. -/
theorem C80_unreadable (lib : Lib σ ν ω) (sys : System ω) (a : Arguments) :
    main lib sys a = .unreadable ↔ ∃ f, a.filename = some f ∧ f ≠ [] ∧ sys.openFile f = none := by
  obtain ⟨n, c⟩ := a
  unfold main given runShell
  rcases n with _ | n
  · rcases c with _ | c
    · simp
    · by_cases hc : c = [] <;> simp [hc]
  · by_cases hn : n = []
    · subst hn
      rcases c with _ | c
      · simp
      · by_cases hc : c = [] <;> simp [hc]
    · rw [if_neg (by simpa using hn)]
      simp only
      cases ho : sys.openFile n with
      | none => simp [hn, ho]
      | some p => simp [ho]

theorem C80_unreadable_status (σ ν ω : Type) : (Ending.unreadable : Ending σ ν ω).status = 1 ∧ (Ending.unreadable : Ending σ ν ω).out = [] :=
  ⟨rfl, rfl⟩

/-- **C80** With `-c` (and no file name) the standard input is not read; without both, or with empty ones, it is. -/
theorem C80_stdin (lib : Lib σ ν ω) (sys : System ω) (f c : Option (List Char)) (hf : f = none ∨ f = some []) :
    (∀ stdin tty, c ≠ none → c ≠ some [] → main lib { sys with stdin := stdin, stdinTty := tty } ⟨f, c⟩ = main lib sys ⟨f, c⟩) ∧
    (c = none ∨ c = some [] → ∀ f' : List Char, f' ≠ [] → sys.openFile f' = some (sys.stdin, sys.stdinTty) →
      main lib sys ⟨f, c⟩ = main lib sys ⟨some f', c⟩) := by
  have h : given f = none := by rcases hf with rfl | rfl <;> simp [given]
  constructor
  · intro stdin tty h1 h2
    unfold main
    simp only [h]
    have : given c = c := if_neg h2
    rw [this]
    cases c with
    | none => exact absurd rfl h1
    | some c => rfl
  · intro hc f' hf' ho
    have h2 : given c = none := by rcases hc with rfl | rfl <;> simp [given]
    have h3 : given (some f') = some f' := if_neg (by simpa using hf')
    unfold main
    simp only [h, h2, h3, ho]

/-- **C80** `-c` with several commands does what a file with these commands does (unless `exit` is among them). -/
theorem C80_command (lib : Lib σ ν ω) (sys : System ω) (f : List Char) (hf : f ≠ []) (ls : List (List Char)) (c : List Char)
    (cs : List (List Char)) (hc : c ≠ []) (hls : Script.File ls (c :: cs)) (ho : sys.openFile f = some (ls, false))
    (hr : (executeLine lib false (Py.join [';'] (c :: cs)) (init lib false sys.world)).1.running = true) :
    let x := main lib sys ⟨none, some (Py.join [';'] (c :: cs))⟩
    let y := main lib sys ⟨some f, none⟩
    printed x.out = printed y.out ∧ x.errors = y.errors ∧ x.status = y.status := by
  intro x y
  obtain ⟨k1, k2⟩ := C51_joined lib false sys.greeting ls c cs hls (init lib false sys.world) (by simp [init]) hr
  have hx : x = .ran (executeLine lib false (Py.join [';'] (c :: cs)) (init lib false sys.world)).1
      (executeLine lib false (Py.join [';'] (c :: cs)) (init lib false sys.world)).2 := by
    have h0 : Py.join [';'] (c :: cs) ≠ [] := by cases cs <;> simp [Py.join, hc]
    have : given (some (Py.join [';'] (c :: cs))) = some (Py.join [';'] (c :: cs)) := if_neg (by simpa using h0)
    show main _ _ _ = _
    unfold main
    rw [show given (Arguments.filename ⟨none, some (Py.join [';'] (c :: cs))⟩) = none by simp [given]]
    simp only [this]
  have hy : y = .ran (run lib false sys.greeting ls (init lib false sys.world)).1 (run lib false sys.greeting ls (init lib false sys.world)).2 := by
    have : given (some f) = some f := if_neg (by simpa using hf)
    show main _ _ _ = _
    unfold main
    simp only [this, ho, runShell]
  rw [hx, hy]
  refine ⟨?_, (congrArg State.errors k1).symm, ?_⟩
  · have h1 := C51_silent lib sys.world sys.greeting ls
    simp only at h1
    have h2 : Silent (executeLine lib false (Py.join [';'] (c :: cs)) (init lib false sys.world)).1 :=
      seq_inv (P := Silent) (fun p _ _ ht => silent_part p ht) ⟨rfl, by simp [init]⟩
    show printed (executeLine lib false _ _).1.out = printed (run lib false _ _ _).1.out
    rw [h1, k1]
    exact (printed_quiet _ h2.2).symm
  · rw [k2]
    cases (executeLine lib false (Py.join [';'] (c :: cs)) (init lib false sys.world)).2 with
    | none => rfl
    | some g => cases g <;> rfl

/-- **C80** With `exit` it need not: a script stops there, but the rest of a line is still executed. -/
theorem C80_exit (lib : Lib σ ν ω) (sys : System ω) (f : List Char) (hf : f ≠ [])
    (ho : sys.openFile f = some (["exit\n".toList, "stack\n".toList], false)) :
    printed (main lib sys ⟨none, some "exit;stack".toList⟩).out = "stack has 0 sudokus\n".toList ∧
    printed (main lib sys ⟨some f, none⟩).out = [] := by
  have : given (some f) = some f := if_neg (by simpa using hf)
  constructor
  · have h0 : Py.natStr 0 = ['0'] := by decide +kernel
    show ("stack has ".toList ++ Py.natStr 0 ++ " sudokus".toList ++ ['\n']) ++ [] = _
    rw [h0]
    rfl
  · unfold main
    simp only [this, ho]
    rfl

/-- **C80** Without a terminal, the status is 0 exactly if everything went well: the file could be opened, no error was reported, no exception
was left uncaught. -/
theorem C80_status (lib : Lib σ ν ω) (sys : System ω) (a : Arguments)
    (hb : ∀ f input tty, a.filename = some f → sys.openFile f = some (input, tty) → tty = false)
    (hs : sys.stdinTty = false) :
    let x := main lib sys a
    (x.status = 0 ∨ x.status = 1) ∧
    (x.status = 0 ↔ ∃ s g, x = .ran s g ∧ s.errors = [] ∧ ∀ e, g ≠ some (.crash e)) := by
  have key : ∀ r : State σ ν ω × Option Signal, Reported false (init lib false sys.world) r →
      let x : Ending σ ν ω := .ran r.1 r.2
      (x.status = 0 ∨ x.status = 1) ∧ (x.status = 0 ↔ ∃ s g, x = .ran s g ∧ s.errors = [] ∧ ∀ e, g ≠ some (.crash e)) := by
    rintro ⟨s, g⟩ h
    rcases g with _ | code | e | _
    · refine ⟨.inl rfl, fun _ => ⟨s, none, rfl, h, by simp⟩, fun _ => rfl⟩
    · obtain ⟨-, h1, e, h2⟩ := h
      subst h1
      refine ⟨.inr rfl, ⟨fun h => absurd h (by simp [Ending.status]), ?_⟩⟩
      rintro ⟨s', g', h3, h4, -⟩
      cases h3
      simp only at h2
      rw [h2] at h4
      simp at h4
    · refine ⟨.inr rfl, ⟨fun h => absurd h (by simp [Ending.status]), ?_⟩⟩
      rintro ⟨s', g', h3, -, h4⟩
      cases h3
      exact absurd rfl (h4 e)
    · exact h.elim
  have hrun : ∀ input, Reported false (init lib false sys.world) (run lib false sys.greeting input (init lib false sys.world)) :=
    fun input => reported_run lib false input [] (s := init lib false sys.world) (by simp [FlatBody, init])
  have hstd : runShell lib sys sys.stdin sys.stdinTty = .ran (run lib false sys.greeting sys.stdin (init lib false sys.world)).1
      (run lib false sys.greeting sys.stdin (init lib false sys.world)).2 := by
    rw [hs]; rfl
  intro x
  have hx : x = main lib sys a := rfl
  rw [hx]
  unfold main
  cases hf : given a.filename with
  | some f =>
    have hf' : a.filename = some f := by
      unfold given at hf
      split at hf
      · cases hf
      · exact hf
    simp only
    cases ho : sys.openFile f with
    | none =>
      refine ⟨.inr rfl, ⟨fun h => absurd h (by simp [Ending.status]), ?_⟩⟩
      rintro ⟨s, g, h, -⟩
      cases h
    | some p =>
      obtain ⟨input, tty⟩ := p
      have := hb f input tty hf' ho
      subst this
      exact key _ (hrun input)
  | none =>
    simp only
    cases given a.command with
    | none =>
      simp only
      rw [hstd]
      exact key _ (hrun sys.stdin)
    | some line => exact key _ (reported_line lib false line (by simp [FlatBody, init]))

/-- **C80** At a terminal, errors do not matter: the status is 0, unless an exception was left uncaught. -/
theorem C80_terminal (lib : Lib σ ν ω) (sys : System ω) (hs : sys.stdinTty = true) :
    let x := main lib sys ⟨none, none⟩
    ∃ s g, x = .ran s g ∧ (x.status = 0 ↔ g = none) ∧ ∀ code, g ≠ some (.exit code) := by
  intro x
  have h := C52_interactive lib sys.world sys.greeting sys.stdin
  refine ⟨(run lib true sys.greeting sys.stdin (init lib true sys.world)).1, (run lib true sys.greeting sys.stdin (init lib true sys.world)).2,
    ?_, ?_, h⟩
  · show main _ _ _ = _
    simp [main, given, runShell, hs]
  · have hx : x = .ran (run lib true sys.greeting sys.stdin (init lib true sys.world)).1
        (run lib true sys.greeting sys.stdin (init lib true sys.world)).2 := by
      show main _ _ _ = _
      simp [main, given, runShell, hs]
    rw [hx]
    cases hg : (run lib true sys.greeting sys.stdin (init lib true sys.world)).2 with
    | none => simp [Ending.status]
    | some g =>
      cases g with
      | exit code => exact absurd hg (h code)
      | crash e => simp [Ending.status]
      | interrupt => simp [Ending.status]

/-! ## Samples -/

private def computer : System Unit where
  openFile f := if f = "script".toList then some (["new 2,2\n".toList, "push # keep it\n".toList, "stack\n".toList], false) else none
  stdin := ["stack\n".toList, "foo\n".toList, "stack\n".toList]
  stdinTty := false
  greeting := "hello\n".toList
  world := ()

private def demo' : Lib Sudoku Val Unit := demo (fun _ S => Solvers.sortSet S) 100

example : printed (main demo' computer ⟨some "script".toList, some "print".toList⟩).out = "stack has 1 sudokus\n".toList := by decide +kernel
example : printed (main demo' computer ⟨none, some "new 2,2;push;stack".toList⟩).out = "stack has 1 sudokus\n".toList := by decide +kernel
example : (main demo' computer ⟨some "script".toList, none⟩).status = 0 ∧ (main demo' computer ⟨some "other".toList, none⟩).status = 1 := by
  decide +kernel
example : printed (main demo' computer ⟨none, none⟩).out = "stack has 0 sudokus\n".toList ∧ (main demo' computer ⟨none, none⟩).status = 1 := by
  decide +kernel
example : printed (main demo' { computer with stdinTty := true } ⟨none, none⟩).out =
    "hello\n> stack has 0 sudokus\n> > stack has 0 sudokus\n> \n".toList ∧
    (main demo' { computer with stdinTty := true } ⟨none, none⟩).status = 0 := by decide +kernel

end Props
