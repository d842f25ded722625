import Verif.Props.ShellValues
import Verif.Props.ShellLib
import Verif.Props.Generate
import Verif.Props.Solve
import Verif.Proofs.Solvers
import Verif.Proofs.ErrorText

set_option autoImplicit false

/-!
# C78, C79: the scripts of the README
-/

open Spec

namespace Props

open Shell

section
variable {σ ν ω : Type}

/-- **C51** Blanks around the commands of a line do not matter. -/
theorem C51_blanks (lib : Lib σ ν ω) (i : Bool) (a b : List Char) (as bs : List (List Char)) (ha : ∀ x ∈ a :: as, ';' ∉ x)
    (hb : ∀ x ∈ b :: bs, ';' ∉ x) (h : (a :: as).map Py.strip = (b :: bs).map Py.strip) (s : State σ ν ω) :
    executeLine lib i (Py.join [';'] (a :: as)) s = executeLine lib i (Py.join [';'] (b :: bs)) s := by
  rw [executeLine_join, executeLine_join, line_seq lib i ha, line_seq lib i hb]
  have key : ∃ F : List Char → State σ ν ω → State σ ν ω × Option Signal, ∀ l : List (List Char),
      seq (executePart lib i) l s = seq F (l.map Py.strip) s :=
    ⟨fun x s => match parse lib x with
      | .error (.unknown name) => error i (.message (unknownMessage name)) s
      | .error (.invalid value) => error i (.message (invalidMessage value)) s
      | .error (.other .KeyError) => error i (.exn .KeyError) s
      | .error (.other .ValueError) => error i (.exn .ValueError) s
      | .error (.other e) => (s, some (.crash e))
      | .ok c =>
        if c.name = .exit then execute lib i c s
        else if s.loopN.isSome ∧ c.name ≠ .loop then ({ s with body := s.body ++ [c] }, none)
        else execute lib i c s, fun l => by rw [seq_map]; rfl⟩
  obtain ⟨F, key⟩ := key
  rw [key, h, ← key]

/-- Lines that, in a shell of the kind `P`, do something with what is seen, without errors. -/
def Does (lib : Lib σ ν ω) (i : Bool) (lines : List (List Char)) (P : Seen σ ν ω → Prop) (R : Seen σ ν ω → Seen σ ν ω → Prop) : Prop :=
  ∀ s : State σ ν ω, Separate s → s.loopN = none → P (seen lib s) → ∃ t, seq (executeLine lib i) lines s = (t, none) ∧ Separate t ∧
    t.loopN = none ∧ R (seen lib s) (seen lib t)

variable {lib : Lib σ ν ω} {i : Bool}

theorem Does.append {l m : List (List Char)} {P Q : Seen σ ν ω → Prop} {R S T : Seen σ ν ω → Seen σ ν ω → Prop} (h1 : Does lib i l P R)
    (h2 : Does lib i m Q S) (hQ : ∀ a b, P a → R a b → Q b) (h : ∀ a b c, R a b → S b c → T a c) : Does lib i (l ++ m) P T := by
  intro s hs hl hP
  obtain ⟨t, e1, e2, e3, e4⟩ := h1 s hs hl hP
  obtain ⟨u, f1, f2, f3, f4⟩ := h2 t e2 e3 (hQ _ _ hP e4)
  refine ⟨u, ?_, f2, f3, h _ _ _ e4 f4⟩
  rw [seq_append, e1]
  exact f1

theorem Does.imp {l : List (List Char)} {P : Seen σ ν ω → Prop} {R S : Seen σ ν ω → Seen σ ν ω → Prop} (h1 : Does lib i l P R)
    (h : ∀ a b, P a → R a b → S a b) : Does lib i l P S := by
  intro s hs hl hP
  obtain ⟨t, e1, e2, e3, e4⟩ := h1 s hs hl hP
  exact ⟨t, e1, e2, e3, h _ _ hP e4⟩

theorem does_nil {P : Seen σ ν ω → Prop} : Does lib i [] P fun a b => b = a := fun s hs hl _ => ⟨s, rfl, hs, hl, rfl⟩

/-- A command that does not fail. -/
theorem does_body {part : List Char} {c : Command ν} (hp : parse lib (Py.strip part) = .ok c) (hn : c.name ≠ .loop)
    (h0 : ';' ∉ part) {P : Seen σ ν ω → Prop} {R : Seen σ ν ω → Seen σ ν ω → Prop}
    (h : ∀ s, Separate s → P (seen lib s) → ∃ t, executeBody lib i c s = (t, none) ∧ Separate t ∧ R (seen lib s) (seen lib t)) :
    Does lib i [part] P R := by
  intro s hs hl hP
  obtain ⟨t, h1, h2, h3⟩ := h s hs hP
  refine ⟨t, ?_, h2, ?_, h3⟩
  · rw [seq, line_part lib i h0, part_plain hl hp, execute_eq_body lib i c hn, h1]
    rfl
  · have := (executeBody_fields lib i c s).2.1
    rw [h1] at this
    exact this.trans hl

/-- A command that calls the library. -/
theorem does_library {part : List Char} {c : Command ν} (hp : parse lib (Py.strip part) = .ok c)
    (hn : c.name ≠ .loop ∧ c.name ≠ .exit ∧ c.name ≠ .stack ∧ c.name ≠ .push ∧ c.name ≠ .pop ∧ c.name ≠ .help)
    (h0 : ';' ∉ part) {P : Seen σ ν ω → Prop} {R : Seen σ ν ω → Seen σ ν ω → Prop}
    (h : ∀ a : Seen σ ν ω, P a → ∃ b,
      postSeen i (postOf (if c.name.takesSudoku then (lib.call c.name c.args c.kwargs a.sudoku a.world).2.2
        else (lib.create c.name c.args c.kwargs a.world).2))
      (preSeen lib (if c.name.takesSudoku then Pre.call (lib.call c.name c.args c.kwargs a.sudoku a.world).1
          (lib.call c.name c.args c.kwargs a.sudoku a.world).2.1
        else .world (lib.create c.name c.args c.kwargs a.world).1) a) = (b, none) ∧ R a b) : Does lib i [part] P R := by
  refine does_body hp hn.1 h0 fun s hs hP => ?_
  obtain ⟨b, h1, h2⟩ := h (seen lib s) hP
  rw [library lib i c hn s]
  have hne : ∀ k, (if c.name.takesSudoku then Pre.call (lib.call c.name c.args c.kwargs (s.sudoku lib) s.world).1
          (lib.call c.name c.args c.kwargs (s.sudoku lib) s.world).2.1
        else .world (lib.create c.name c.args c.kwargs s.world).1) = (.pop k : Pre σ ω) → k < s.stack.length := by
    intro k hk
    split at hk <;> cases hk
  have hs' := hs.pre (lib := lib) _ hne
  have k1 := post_seen lib i hs' (postOf (if c.name.takesSudoku then (lib.call c.name c.args c.kwargs (s.sudoku lib) s.world).2.2
        else (lib.create c.name c.args c.kwargs s.world).2))
  rw [pre_seen lib hs _ hne] at k1
  have k2 := k1.trans h1
  rw [Prod.mk.injEq] at k2
  exact ⟨_, Prod.ext rfl k2.2, hs'.post i _, k2.1 ▸ h2⟩

/-- `loop n; ...; loop end`. -/
theorem Does.loop {bs : List (List Char)} (n : Nat) (hn : 0 < n) (v : ν) (hv : Reads lib n v)
    (hbs : ∀ b ∈ bs, ';' ∉ b ∧ ∃ c, parse lib (Py.strip b) = .ok c ∧ c.name ≠ .loop ∧ c.name ≠ .exit) {P : Seen σ ν ω → Prop}
    {R : Seen σ ν ω → Seen σ ν ω → Prop} (h : Does lib i (List.replicate n bs).flatten P R) (s : State σ ν ω) (hs : Separate s)
    (hl : s.loopN = none) (hb : s.body = []) (hp : s.prompt = commandPrompt i) (hP : P (seen lib s)) :
    ∃ t, executeLine lib i (Py.join [';'] (("loop".toList ++ ' ' :: Py.natStr n) :: (bs ++ ["loop end".toList]))) s = (t, none) ∧
      Separate t ∧ t.loopN = none ∧ R (seen lib s) (seen lib t) := by
  obtain ⟨t, h1, h2, h3, h4⟩ := h s hs hl hP
  obtain ⟨k1, k2, -⟩ := C50_loop lib i s hl hb hp n hn v hv bs hbs
  rw [h1] at k1 k2
  exact ⟨t, Prod.ext (k2 k1) k1, h2, h3, h4⟩

end

variable {ν ω : Type} {lib : Lib Sudoku ν ω} {val : Val → ν} {π : Solve.SetOrder} {fuel : Nat} {i : Bool}

/-- What `encode` prints. -/
def encoded (x : Sudoku) : Event := .text (Codec.encode x [] [] false ++ ['\n'])

/-- A puzzle as `generate` makes them: 9 rows, one solution, no clue can be left out. -/
structure Puzzle (p : Sudoku) : Prop where
  plain : Plain 3 3 p
  unique : UniqueSolution 3 3 p.get
  irreducible : Irreducible none 3 3 p.get

theorem does_generate (hg : RealGenerate lib val) : Does lib i ["generate".toList] (fun _ => True)
    fun a b => ∃ p u, Puzzle p ∧ b = { a with sudoku := p, world := u } := by
  refine does_library (c := ⟨.generate, [], []⟩) rfl (by simp) (by decide) fun a _ => ?_
  obtain ⟨e, u, he⟩ := hg.generate none a.world
  obtain ⟨p, hp⟩ := (C39_value_error e 0 none).2 (by decide)
  simp only [Option.getD_none, ErrorText.envGenerate_ok hp, Option.toList_none, intArgs, List.map_nil] at he
  simp only [Name.takesSudoku, Bool.false_eq_true, if_false, he]
  refine ⟨_, rfl, p, u, ?_, rfl⟩
  obtain ⟨h1, sol, -, h2, h3⟩ := C35_unique e 0 none p hp
  exact ⟨h1, ⟨sol.get, h2, h3⟩, C38_irreducible e 0 (le_refl _) none p hp⟩

theorem does_encode (hr : Real lib val π fuel) : Does lib i ["encode".toList] (fun _ => True)
    fun a b => b = { a with out := a.out ++ [encoded a.sudoku] } := by
  refine does_library (c := ⟨.encode, [], []⟩) rfl (by simp) (by decide) fun a _ => ?_
  simp only [Name.takesSudoku, if_true, hr.encode]
  exact ⟨_, rfl, rfl⟩

theorem does_solve (hr : Real lib val π fuel) (hπ : π.Ok) (hf : 81 < fuel) : Does lib i ["solve".toList] (fun a => Puzzle a.sudoku)
    fun a b => ∃ q, Plain 3 3 q ∧ IsSolution 3 3 a.sudoku.get q.get ∧ b = { a with sudoku := q } := by
  refine does_library (c := ⟨.solve, [], []⟩) rfl (by simp) (by decide) fun a ha => ?_
  obtain ⟨⟨hw, hh, -, -⟩, ⟨g, hg, -⟩, -⟩ := ha
  have hlen : a.sudoku.empty.length < fuel := by
    have h3 : a.sudoku.empty.length ≤ a.sudoku.cells.length := List.length_filter_le _ _
    have h4 := Generate.length_cells a.sudoku
    simp only [Sudoku.len, hw, hh] at h4
    omega
  obtain ⟨sols, h1, -, h3, h4, -⟩ := C20_bruteforce π hπ fuel a.sudoku hlen
  rw [hw, hh] at h3 h4
  obtain ⟨t0, ht0, -⟩ := h4 g ⟨hg.keeps, fun a ha _ => hg.full a ha, hg.valid⟩
  cases sols with
  | nil => cases ht0
  | cons q rest =>
    simp only [Name.takesSudoku, if_true, hr.solve, h1]
    obtain ⟨k1, k2⟩ := h3 q (by simp)
    refine ⟨_, rfl, q, k1, ⟨k2.keeps, fun b hb => ?_, k2.valid⟩, rfl⟩
    by_cases h0 : a.sudoku.get b = 0
    · exact k2.full b hb h0
    · rw [k2.keeps b hb h0, ← hg.keeps b hb h0]; exact hg.full b hb

theorem does_push (hr : Real lib val π fuel) : Does lib i ["push".toList] (fun a => Puzzle a.sudoku)
    fun a b => b = { a with stack := a.stack ++ [a.sudoku] } := by
  refine does_body (c := ⟨.push, [], []⟩) rfl (by simp) (by decide) fun s hs hP => ?_
  refine ⟨_, rfl, hs.pre (lib := lib) .push (by simp), ?_⟩
  have h1 := pre_seen lib hs .push (by simp)
  have h2 : lib.copy (seen lib s).sudoku = (seen lib s).sudoku := by
    obtain ⟨⟨hw, hh, ho, hc⟩, -⟩ := hP
    rw [hr.copy, Sudoku.copy_eq]
    generalize (seen lib s).sudoku = x at *
    obtain ⟨w, h, num, cand⟩ := x
    simp only at hw hh ho hc
    subst hw hh
    congr 1
    · funext a; by_cases ha : InGrid 3 3 a <;> simp [ha, ho]
    · funext a; simp [hc]
  refine h1.trans ?_
  simp only [preSeen, h2]

theorem does_pop (hr : Real lib val π fuel) (x : Sudoku) (l : List Sudoku) : Does lib i ["pop 0".toList] (fun a => a.stack = x :: l)
    fun a b => b = { a with sudoku := x, stack := l } := by
  rw [show "pop 0".toList = "pop".toList ++ ' ' :: Py.natStr 0 by decide +kernel]
  have hv : Reads lib 0 (val (.int 0)) := ⟨hr.literal 0, hr.toInt 0, hr.isNone 0, hr.isEnd 0⟩
  refine does_body (c := ⟨.pop, [.value (val (.int 0))], []⟩) (parse_number lib "pop".toList (by decide) (by decide) .pop rfl 0 _ hv.literal) (by simp)
    (semicolon_number _ (by decide) 0) fun s hs hP => ?_
  have hk : 0 < s.stack.length := by
    have := congrArg List.length hP
    simp only [seen, stackValues, List.length_map, List.length_cons] at this
    omega
  have h0 : s.stack ≠ [] := by
    intro h; rw [h] at hk; simp at hk
  have he : executeBody lib i ⟨.pop, [.value (val (.int 0))], []⟩ s = ((Pre.pop 0 : Pre Sudoku ω).apply lib s, none) := by
    unfold executeBody executeWith callWith
    simp only [bindOne]
    unfold pop
    rw [if_neg h0]
    simp only [givenArg, hv.isNone, Bool.false_eq_true, if_false, argInt, hv.toInt]
    rw [if_pos (by omega)]
    rfl
  have hpop : ∀ k, (Pre.pop 0 : Pre Sudoku ω) = .pop k → k < s.stack.length := by rintro k h; cases h; exact hk
  refine ⟨_, he, hs.pre _ hpop, ?_⟩
  rw [pre_seen lib hs _ hpop]
  simp only [preSeen, hP]
  rfl

/-- A puzzle and its solution. -/
structure Pair (p q : Sudoku) : Prop where
  puzzle : Puzzle p
  plain : Plain 3 3 q
  solution : IsSolution 3 3 p.get q.get

private theorem does_round (hr : Real lib val π fuel) (hg : RealGenerate lib val) (hπ : π.Ok) (hf : 81 < fuel) :
    Does lib i ["generate".toList, "encode".toList, "solve".toList, "encode".toList] (fun _ => True) fun a b => ∃ p q u, Pair p q ∧
      b = { a with sudoku := q, world := u, out := a.out ++ [encoded p, encoded q] } := by
  have h34 := (does_solve (i := i) hr hπ hf).append (does_encode hr) (T := fun a c => ∃ q, Plain 3 3 q ∧ IsSolution 3 3 a.sudoku.get q.get ∧
    c = { a with sudoku := q, out := a.out ++ [encoded q] }) (fun _ _ _ _ => trivial) (by
      rintro a b c ⟨q, h1, h2, rfl⟩ rfl
      exact ⟨q, h1, h2, rfl⟩)
  have h12 := (does_generate (i := i) hg).append (does_encode hr) (T := fun a c => ∃ p u, Puzzle p ∧
    c = { a with sudoku := p, world := u, out := a.out ++ [encoded p] }) (fun _ _ _ _ => trivial) (by
      rintro a b c ⟨p, u, h1, rfl⟩ rfl
      exact ⟨p, u, h1, rfl⟩)
  refine h12.append h34 ?_ ?_
  · rintro a b - ⟨p, u, h1, rfl⟩; exact h1
  · rintro a b c ⟨p, u, h1, rfl⟩ ⟨q, h2, h3, rfl⟩
    exact ⟨p, q, u, ⟨h1, h2, h3⟩, by simp⟩

private theorem does_rounds (hr : Real lib val π fuel) (hg : RealGenerate lib val) (hπ : π.Ok) (hf : 81 < fuel) (n : Nat) :
    Does lib i (List.replicate n ["generate".toList, "encode".toList, "solve".toList, "encode".toList]).flatten (fun _ => True)
      fun a b => ∃ (l : List (Sudoku × Sudoku)) (x : Sudoku) (u : ω), l.length = n ∧ (∀ pq ∈ l, Pair pq.1 pq.2) ∧
        b = { a with sudoku := x, world := u, out := a.out ++ l.flatMap fun pq => [encoded pq.1, encoded pq.2] } := by
  induction n with
  | zero =>
    refine does_nil.imp ?_
    rintro a b - rfl
    exact ⟨[], b.sudoku, b.world, rfl, by simp, by simp⟩
  | succ n ih =>
    rw [List.replicate_succ, List.flatten_cons]
    refine (does_round hr hg hπ hf).append ih (fun _ _ _ _ => trivial) ?_
    rintro a b c ⟨p, q, u, h1, rfl⟩ ⟨l, x, u', h2, h3, rfl⟩
    refine ⟨(p, q) :: l, x, u', by simp [h2], ?_, by simp⟩
    intro pq hpq
    rcases List.mem_cons.1 hpq with rfl | hpq
    · exact h1
    · exact h3 pq hpq

theorem reads_int (hr : Real lib val π fuel) (n : Nat) : Reads lib n (val (.int n)) := ⟨hr.literal n, hr.toInt n, hr.isNone n, hr.isEnd n⟩

/-- **C78** `loop n; generate; encode; solve; encode; loop end`, as in the README: `n` times a puzzle with exactly one solution, no clue
superfluous, and in the next line its solution; no errors, and the stack is as before. -/
theorem C78_command (hr : Real lib val π fuel) (hg : RealGenerate lib val) (hπ : π.Ok) (hf : 81 < fuel) (i : Bool) (n : Nat) (hn : 0 < n)
    (s : State Sudoku ν ω) (hs : Separate s) (hl : s.loopN = none) (hb : s.body = []) (hp : s.prompt = commandPrompt i) :
    ∃ (t : State Sudoku ν ω) (l : List (Sudoku × Sudoku)),
      executeLine lib i ("loop ".toList ++ Py.natStr n ++ "; generate; encode; solve; encode; loop end".toList) s = (t, none) ∧
      l.length = n ∧ (∀ pq ∈ l, Pair pq.1 pq.2) ∧
      t.out = s.out ++ l.flatMap (fun pq => [encoded pq.1, encoded pq.2]) ∧
      t.errors = s.errors ∧ stackValues lib t = stackValues lib s ∧ t.running = s.running ∧ t.loopN = none ∧ t.body = [] := by
  obtain ⟨t, h1, h2, h3, l, x, u, h4, h5, h6⟩ := Does.loop n hn (val (.int n)) (reads_int hr n) (by
    intro b hb
    simp only [List.mem_cons, List.not_mem_nil, or_false] at hb
    rcases hb with rfl | rfl | rfl | rfl
    · exact ⟨by decide, ⟨.generate, [], []⟩, rfl, by simp, by simp⟩
    · exact ⟨by decide, ⟨.encode, [], []⟩, rfl, by simp, by simp⟩
    · exact ⟨by decide, ⟨.solve, [], []⟩, rfl, by simp, by simp⟩
    · exact ⟨by decide, ⟨.encode, [], []⟩, rfl, by simp, by simp⟩) (does_rounds hr hg hπ hf n) s hs hl hb hp trivial
  rw [C51_blanks lib i _ ("loop ".toList ++ Py.natStr n) _ [" generate".toList, " encode".toList, " solve".toList, " encode".toList,
    " loop end".toList]] at h1
  · simp only [seen, Seen.mk.injEq] at h6
    refine ⟨t, l, ?_, h4, h5, h6.2.2.2.2.2.2.1, h6.2.2.2.2.2.2.2.1, h6.2.1, h6.2.2.1, h3, h6.2.2.2.2.1.trans hb⟩
    rw [← h1]
    congr 1
    simp [Py.join]
  · intro x hx
    rcases List.mem_cons.1 hx with rfl | hx'
    · exact semicolon_number _ (by decide) n
    · clear hx; revert x; decide
  · intro x hx
    rcases List.mem_cons.1 hx with rfl | hx'
    · exact semicolon_number "loop".toList (by decide) n
    · clear hx; revert x; decide
  · rfl

/-! ## The stack -/

private theorem does_store (hr : Real lib val π fuel) (hg : RealGenerate lib val) (n : Nat) :
    Does lib i (List.replicate n ["generate".toList, "encode".toList, "push".toList]).flatten (fun _ => True)
      fun a b => ∃ (l : List Sudoku) (x : Sudoku) (u : ω), l.length = n ∧ (∀ p ∈ l, Puzzle p) ∧
        b = { a with sudoku := x, world := u, stack := a.stack ++ l, out := a.out ++ l.map encoded } := by
  induction n with
  | zero =>
    refine does_nil.imp ?_
    rintro a b - rfl
    exact ⟨[], b.sudoku, b.world, rfl, by simp, by simp⟩
  | succ n ih =>
    rw [List.replicate_succ, List.flatten_cons]
    have h12 := (does_generate (i := i) hg).append (does_encode hr) (T := fun a c => ∃ p u, Puzzle p ∧
      c = { a with sudoku := p, world := u, out := a.out ++ [encoded p] }) (fun _ _ _ _ => trivial) (by
        rintro a b c ⟨p, u, h1, rfl⟩ rfl
        exact ⟨p, u, h1, rfl⟩)
    have h123 := h12.append (does_push hr) (T := fun a c => ∃ p u, Puzzle p ∧
      c = { a with sudoku := p, world := u, stack := a.stack ++ [p], out := a.out ++ [encoded p] }) (by
        rintro a b - ⟨p, u, h1, rfl⟩; exact h1) (by
        rintro a b c ⟨p, u, h1, rfl⟩ rfl
        exact ⟨p, u, h1, rfl⟩)
    refine h123.append ih (fun _ _ _ _ => trivial) ?_
    rintro a b c ⟨p, u, h1, rfl⟩ ⟨l, x, u', h2, h3, rfl⟩
    refine ⟨p :: l, x, u', by simp [h2], ?_, by simp⟩
    intro p' hp'
    rcases List.mem_cons.1 hp' with rfl | hp'
    · exact h1
    · exact h3 p' hp'

private theorem does_recall (hr : Real lib val π fuel) (hπ : π.Ok) (hf : 81 < fuel) (l : List Sudoku) (hp : ∀ p ∈ l, Puzzle p) :
    Does lib i (List.replicate l.length ["pop 0".toList, "solve".toList, "encode".toList]).flatten (fun a => a.stack = l)
      fun a b => ∃ (qs : List Sudoku) (x : Sudoku), List.Forall₂ Pair l qs ∧
        b = { a with sudoku := x, stack := [], out := a.out ++ qs.map encoded } := by
  induction l with
  | nil =>
    refine does_nil.imp ?_
    rintro a b ha rfl
    exact ⟨[], b.sudoku, .nil, by cases b; simp_all⟩
  | cons p l ih =>
    rw [List.length_cons, List.replicate_succ, List.flatten_cons]
    have hp0 := hp p (by simp)
    have h12 := (does_pop (i := i) hr p l).append (does_solve hr hπ hf) (T := fun a c => ∃ q, Plain 3 3 q ∧ IsSolution 3 3 p.get q.get ∧
      c = { a with sudoku := q, stack := l }) (by rintro a b - rfl; exact hp0) (by
        rintro a b c rfl ⟨q, h1, h2, rfl⟩
        exact ⟨q, h1, h2, rfl⟩)
    have h123 := h12.append (does_encode hr) (T := fun a c => ∃ q, Plain 3 3 q ∧ IsSolution 3 3 p.get q.get ∧
      c = { a with sudoku := q, stack := l, out := a.out ++ [encoded q] }) (fun _ _ _ _ => trivial) (by
        rintro a b c ⟨q, h1, h2, rfl⟩ rfl
        exact ⟨q, h1, h2, rfl⟩)
    refine h123.append (ih fun p' hp' => hp p' (List.mem_cons_of_mem _ hp')) ?_ ?_
    · rintro a b - ⟨q, h1, h2, rfl⟩; rfl
    · rintro a b c ⟨q, h1, h2, rfl⟩ ⟨qs, x, h3, rfl⟩
      exact ⟨q :: qs, x, .cons ⟨hp0, h1, h2⟩ h3, by simp⟩

/-- The commands of the first script of the README. -/
def script1 (n : Nat) : List (List Char) :=
  ["loop ".toList ++ Py.natStr n, "generate".toList, "encode".toList, "solve".toList, "encode".toList, "loop end".toList]

/-- The commands of the second script of the README. -/
def script2 (n : Nat) : List (List Char) :=
  ["loop ".toList ++ Py.natStr n, "generate".toList, "encode".toList, "push".toList, "loop end".toList,
   "loop ".toList ++ Py.natStr n, "pop 0".toList, "solve".toList, "encode".toList, "loop end".toList]

/-- **C79** The second script of the README: if the stack is empty, first `n` puzzles, then their solutions in the same order; afterwards the
stack is empty again. -/
theorem C79_command (hr : Real lib val π fuel) (hg : RealGenerate lib val) (hπ : π.Ok) (hf : 81 < fuel) (i : Bool) (n : Nat) (hn : 0 < n)
    (s : State Sudoku ν ω) (hs : Separate s) (hl : s.loopN = none) (hb : s.body = []) (hp : s.prompt = commandPrompt i)
    (hst : s.stack = []) :
    ∃ (t : State Sudoku ν ω) (ps qs : List Sudoku), executeLine lib i (Py.join [';'] (script2 n)) s = (t, none) ∧
      ps.length = n ∧ List.Forall₂ Pair ps qs ∧ t.out = s.out ++ ps.map encoded ++ qs.map encoded ∧
      t.errors = s.errors ∧ t.stack = [] ∧ t.running = s.running ∧ t.loopN = none ∧ t.body = [] := by
  obtain ⟨t, h1, h2, h3, ps, x, u, h4, h5, h6⟩ := Does.loop n hn (val (.int n)) (reads_int hr n) (by
    intro b hb
    simp only [List.mem_cons, List.not_mem_nil, or_false] at hb
    rcases hb with rfl | rfl | rfl
    · exact ⟨by decide, ⟨.generate, [], []⟩, rfl, by simp, by simp⟩
    · exact ⟨by decide, ⟨.encode, [], []⟩, rfl, by simp, by simp⟩
    · exact ⟨by decide, ⟨.push, [], []⟩, rfl, by simp, by simp⟩) (does_store hr hg n) s hs hl hb hp trivial
  simp only [seen, Seen.mk.injEq] at h6
  have hstack : stackValues lib t = ps := by rw [h6.2.1]; simp [stackValues, hst]
  subst h4
  obtain ⟨t', k1, k2, k3, qs, x', k4, k5⟩ := Does.loop ps.length hn (val (.int ps.length)) (reads_int hr ps.length) (by
    intro b hb
    simp only [List.mem_cons, List.not_mem_nil, or_false] at hb
    rcases hb with rfl | rfl | rfl
    · refine ⟨by decide, ⟨.pop, [.value (val (.int 0))], []⟩, ?_, by simp, by simp⟩
      rw [show "pop 0".toList = "pop".toList ++ ' ' :: Py.natStr 0 by decide +kernel]
      exact parse_number lib _ (by decide) (by decide) .pop rfl 0 _ (hr.literal 0)
    · exact ⟨by decide, ⟨.solve, [], []⟩, rfl, by simp, by simp⟩
    · exact ⟨by decide, ⟨.encode, [], []⟩, rfl, by simp, by simp⟩) (does_recall hr hπ hf ps h5) t h2 h3 (h6.2.2.2.2.1.trans hb)
      (h6.2.2.2.2.2.1.trans hp) hstack
  simp only [seen, Seen.mk.injEq] at k5
  refine ⟨t', ps, qs, ?_, rfl, k4, ?_, k5.2.2.2.2.2.2.2.1.trans h6.2.2.2.2.2.2.2.1, ?_, k5.2.2.1.trans h6.2.2.1, k3,
    k5.2.2.2.2.1.trans (h6.2.2.2.2.1.trans hb)⟩
  · rw [executeLine_join] at h1 k1
    have e : script2 ps.length = (("loop".toList ++ ' ' :: Py.natStr ps.length) :: (["generate".toList, "encode".toList, "push".toList] ++
      ["loop end".toList])) ++ (("loop".toList ++ ' ' :: Py.natStr ps.length) :: (["pop 0".toList, "solve".toList, "encode".toList] ++
      ["loop end".toList])) := rfl
    have e' : script2 ps.length = ("loop".toList ++ ' ' :: Py.natStr ps.length) :: (script2 ps.length).tail := rfl
    rw [e', executeLine_join, ← e', e, seq_append, h1]
    exact k1
  · rw [k5.2.2.2.2.2.2.1, h6.2.2.2.2.2.2.1]
  · have := k5.2.1
    simpa [stackValues] using this

/-! ## Scripts in files -/

/-- What has been written, as one text. -/
def printed (out : List Event) : List Char := out.flatMap fun
  | .text s => s
  | .prompt s => s

/-- All the prompts so far were empty texts, and the next one will be. -/
def Silent {σ ν ω : Type} (s : State σ ν ω) : Prop := s.prompt = [] ∧ ∀ p, .prompt p ∈ s.out → p = []

section
variable {σ ν ω : Type} {lib : Lib σ ν ω}

private theorem silent_error (e : Err) {s : State σ ν ω} (hs : Silent s) : Silent (error false e s).1 := hs

private theorem silent_body (c : Command ν) {s : State σ ν ω} (hs : Silent s) : Silent (executeBody lib false c s).1 := by
  refine ⟨(executeBody_fields lib false c s).2.2.trans hs.1, ?_⟩
  by_cases hc : c.name = .loop
  · have : ∃ e, executeBody lib false c s = error false (.exn e) s := by
      unfold executeBody executeWith callWith
      rw [hc]
      simp only
      cases bindOne ['n'] c.args c.kwargs with
      | error e => exact ⟨_, rfl⟩
      | ok o => cases o <;> exact ⟨_, rfl⟩
    obtain ⟨e, he⟩ := this
    rw [he]
    exact hs.2
  · obtain ⟨f, _, hf⟩ := executeBody_form lib false c hc
    rw [hf]
    have h0 : ((f (s.core lib)).1.apply lib s).out = s.out := by cases (f (s.core lib)).1 <;> rfl
    intro p hp
    cases hg : (f (s.core lib)).2 <;> rw [hg] at hp <;> simp [Post.apply, error, h0] at hp <;> exact hs.2 p hp

private theorem silent_execute (c : Command ν) {s : State σ ν ω} (hs : Silent s) : Silent (execute lib false c s).1 := by
  by_cases hc : c.name = .loop
  · rcases execute_loop lib false c hc s with ⟨e, he⟩ | ⟨k, p, _, _, hp, he⟩ | ⟨k, _, he⟩
    · rw [he]; exact silent_error e hs
    · rw [he]; exact ⟨(hp rfl).trans hs.1, hs.2⟩
    · rw [he]
      have h1 : Silent (runBody lib false k s).1 :=
        seq_inv (P := Silent) (fun c _ t ht => silent_body c ht) (s := { s with prompt := commandPrompt false }) ⟨rfl, hs.2⟩
      cases hx : runBody lib false k s with
      | mk t g =>
        rw [hx] at h1
        cases g <;> exact h1
  · rw [execute_eq_body lib false c hc]
    exact silent_body c hs

theorem silent_part (part : List Char) {s : State σ ν ω} (hs : Silent s) : Silent (executePart lib false part s).1 := by
  unfold executePart executePartWith
  cases parse lib (Py.strip part) with
  | error e => rcases e with _ | _ | e <;> first | exact hs | (cases e <;> exact hs)
  | ok c =>
    simp only
    split
    · exact silent_execute c hs
    · split
      · exact hs
      · exact silent_execute c hs

theorem silent_runLoop (input : List (List Char)) (pend : List Char) {s : State σ ν ω} (hs : Silent s) :
    Silent (runLoop lib false input pend s).1 := by
  have hw : Silent (s.write (.prompt s.prompt)) := by
    refine ⟨hs.1, fun p hp => ?_⟩
    rcases List.mem_append.1 hp with hp | hp
    · exact hs.2 p hp
    · simp at hp; exact hp.trans hs.1
  induction input generalizing pend s with
  | nil =>
    rw [runLoop]
    split
    · exact hs
    · exact hw
  | cons line input ih =>
    have key : ∀ (pend : List Char) {s : State σ ν ω}, Silent s → Silent (runLoop lib false input pend s).1 := by
      intro pend s hs
      refine ih pend hs ⟨hs.1, fun p hp => ?_⟩
      rcases List.mem_append.1 hp with hp | hp
      · exact hs.2 p hp
      · simp at hp; exact hp.trans hs.1
    rw [runLoop]
    split
    · exact hs
    · simp only
      split
      · exact key _ hw
      · split
        · exact key _ hw
        · have h1 : Silent (executeLine lib false (pend ++ clean line) (s.write (.prompt s.prompt))).1 :=
            seq_inv (P := Silent) (fun p _ _ ht => silent_part p ht) hw
          cases hx : executeLine lib false (pend ++ clean line) (s.write (.prompt s.prompt)) with
          | mk u g =>
            rw [hx] at h1
            cases g with
            | some g => exact h1
            | none => exact key _ h1

theorem printed_quiet (l : List Event) (h : ∀ p, .prompt p ∈ l → p = []) :
    printed (l.filter fun e => match e with | .text _ => true | .prompt _ => false) = printed l := by
  induction l with
  | nil => rfl
  | cons e l ih =>
    have ih := ih fun p hp => h p (List.mem_cons_of_mem _ hp)
    cases e with
    | text s =>
      rw [List.filter_cons_of_pos (by rfl)]
      simp only [printed, List.flatMap_cons] at ih ⊢
      rw [ih]
    | prompt s =>
      have : s = [] := h s (by simp)
      subst this
      rw [List.filter_cons_of_neg (by simp)]
      simp only [printed, List.flatMap_cons, List.nil_append] at ih ⊢
      rw [ih]

/-- **C51** A script writes nothing but the results of its commands: neither prompts nor greetings. -/
theorem C51_silent (lib : Lib σ ν ω) (w : ω) (greeting : List Char) (input : List (List Char)) :
    let s := (run lib false greeting input (init lib false w)).1
    printed s.out = printed s.quiet.out := by
  have h : Silent (run lib false greeting input (init lib false w)).1 := silent_runLoop input [] ⟨rfl, by simp [init]⟩
  exact (printed_quiet _ h.2).symm

end
/-- The line that `encode` prints. -/
def codeLine (x : Sudoku) : List Char := Codec.encode x [] [] false ++ ['\n']

private theorem separate_start (i : Bool) (w : ω) : Separate (init lib i w) := by
  constructor <;> simp [init]

private theorem script1_line (n : Nat) (i : Bool) (s : State Sudoku ν ω) :
    executeLine lib i ("loop ".toList ++ Py.natStr n ++ "; generate; encode; solve; encode; loop end".toList) s =
      executeLine lib i (Py.join [';'] (script1 n)) s := by
  rw [show script1 n = ("loop ".toList ++ Py.natStr n) :: (script1 n).tail from rfl,
    C51_blanks lib i ("loop ".toList ++ Py.natStr n) ("loop ".toList ++ Py.natStr n) (script1 n).tail [" generate".toList, " encode".toList,
      " solve".toList, " encode".toList, " loop end".toList]]
  · congr 1
    simp [Py.join]
  · intro x hx
    rcases List.mem_cons.1 hx with rfl | hx'
    · exact semicolon_number "loop".toList (by decide) n
    · clear hx; revert x; exact (by decide : ∀ x ∈ ["generate".toList, "encode".toList, "solve".toList, "encode".toList, "loop end".toList],
        ';' ∉ x)
  · intro x hx
    rcases List.mem_cons.1 hx with rfl | hx'
    · exact semicolon_number "loop".toList (by decide) n
    · clear hx; revert x; decide
  · rfl

/-- **C78** The same as a script in a file, with comments, blank lines and indentation as one likes: what is printed, and nothing else is. -/
theorem C78_script (hr : Real lib val π fuel) (hg : RealGenerate lib val) (hπ : π.Ok) (hf : 81 < fuel) (n : Nat) (hn : 0 < n)
    (ls : List (List Char)) (hls : Spec.Script.File ls (script1 n)) (greeting : List Char) (w : ω) :
    ∃ l : List (Sudoku × Sudoku), l.length = n ∧ (∀ pq ∈ l, Pair pq.1 pq.2) ∧
      printed (run lib false greeting ls (init lib false w)).1.out = l.flatMap (fun pq => codeLine pq.1 ++ codeLine pq.2) ∧
      (run lib false greeting ls (init lib false w)).1.errors = [] ∧ (run lib false greeting ls (init lib false w)).2 = none := by
  obtain ⟨t, l, h1, h2, h3, h4, h5, -, h6, -, -⟩ := C78_command hr hg hπ hf false n hn (init lib false w) (separate_start false w) rfl rfl rfl
  rw [script1_line] at h1
  have e : script1 n = ("loop ".toList ++ Py.natStr n) :: (script1 n).tail := rfl
  rw [e] at hls h1
  obtain ⟨k1, k2⟩ := C51_joined lib false greeting ls _ _ hls (init lib false w) (by simp [init]) (by rw [h1]; exact h6)
  rw [h1] at k1 k2
  refine ⟨l, h2, h3, ?_, (congrArg State.errors k1).trans h5, k2⟩
  rw [C51_silent, k1]
  simp only [State.quiet, h4]
  clear h4 h2 h3 k1
  simp only [init, List.nil_append]
  induction l with
  | nil => rfl
  | cons pq l ih =>
    simp only [List.flatMap_cons, encoded, codeLine, printed, List.filter_append] at ih ⊢
    rw [List.flatMap_append, ih]
    simp

/-- **C79** The same as a script in a file. -/
theorem C79_script (hr : Real lib val π fuel) (hg : RealGenerate lib val) (hπ : π.Ok) (hf : 81 < fuel) (n : Nat) (hn : 0 < n)
    (ls : List (List Char)) (hls : Spec.Script.File ls (script2 n)) (greeting : List Char) (w : ω) :
    ∃ ps qs : List Sudoku, ps.length = n ∧ List.Forall₂ Pair ps qs ∧
      printed (run lib false greeting ls (init lib false w)).1.out = ps.flatMap codeLine ++ qs.flatMap codeLine ∧
      (run lib false greeting ls (init lib false w)).1.errors = [] ∧ (run lib false greeting ls (init lib false w)).2 = none := by
  obtain ⟨t, ps, qs, h1, h2, h3, h4, h5, -, h6, -, -⟩ :=
    C79_command hr hg hπ hf false n hn (init lib false w) (separate_start false w) rfl rfl rfl rfl
  have e : script2 n = ("loop ".toList ++ Py.natStr n) :: (script2 n).tail := rfl
  rw [e] at hls h1
  obtain ⟨k1, k2⟩ := C51_joined lib false greeting ls _ _ hls (init lib false w) (by simp [init]) (by rw [h1]; exact h6)
  rw [h1] at k1 k2
  refine ⟨ps, qs, h2, h3, ?_, (congrArg State.errors k1).trans h5, k2⟩
  have key : ∀ l : List Sudoku, printed ((l.map encoded).filter fun e => match e with | .text _ => true | .prompt _ => false) =
      l.flatMap codeLine := by
    intro l
    induction l with
    | nil => rfl
    | cons x l ih => rw [List.flatMap_cons, ← ih]; rfl
  rw [C51_silent, k1]
  simp only [State.quiet, h4, init, List.nil_append, List.filter_append]
  rw [← key ps, ← key qs]
  unfold printed
  exact List.flatMap_append

/-! ## The README's files -/

/-- A library with `generate`, too; its random outcomes are always the same. -/
def demoGenerate (π : Solve.SetOrder) (fuel : Nat) : Lib Sudoku Val Unit where
  toInt := (demo π fuel).toInt
  literal := (demo π fuel).literal
  isEnd := (demo π fuel).isEnd
  isNone := (demo π fuel).isNone
  str := (demo π fuel).str
  fresh := (demo π fuel).fresh
  copy := (demo π fuel).copy
  call name args kwargs x u := match name, bindCommand .generateFromTemplate args kwargs with
    | .generateFromTemplate, .ok [.value (.int tries)] =>
      if h : 0 < x.bw ∧ 0 < x.bh then
        (x, u, ofGenerated (ErrorText.generateFromTemplate (plainTries x h.1 h.2).fuel (tries.toNat + 1) (plainTries x h.1 h.2).f x tries))
      else (demo π fuel).call name args kwargs x u
    | _, _ => (demo π fuel).call name args kwargs x u
  help := (demo π fuel).help
  create name args kwargs u := match name, bindCommand .generate args kwargs with
    | .generate, .ok vs => match generateArgs vs with
      | some (m, sym, w, h) => if hp : 0 < w ∧ 0 < h then (u, ofGenerated (ErrorText.envGenerate (plainEnv w h hp.1 hp.2) m sym))
        else (demo π fuel).create name args kwargs u
      | none => (demo π fuel).create name args kwargs u
    | _, _ => (demo π fuel).create name args kwargs u

theorem demoGenerate_real (π : Solve.SetOrder) (fuel : Nat) : Real (demoGenerate π fuel) id π fuel where
  literal' := (demo_real π fuel).literal'
  toInt' := (demo_real π fuel).toInt'
  isNone' := (demo_real π fuel).isNone'
  isEnd' := (demo_real π fuel).isEnd'
  str' := (demo_real π fuel).str'
  fresh := rfl
  copy := (demo_real π fuel).copy
  createError n args kwargs u e hn h := by
    rw [← (demo_real π fuel).createError n args kwargs u e hn h, (map_id args kwargs).1, (map_id args kwargs).2]
    cases n <;> first | rfl | skip
    simp only [demoGenerate, h]
  create n args kwargs u vs r hn h h' := by
    rw [← (demo_real π fuel).create n args kwargs u vs r hn h h', (map_id args kwargs).1, (map_id args kwargs).2]
    cases n <;> first | rfl | skip
    cases h'
  callError n args kwargs x u e hn h := by
    rw [← (demo_real π fuel).callError n args kwargs x u e hn h, (map_id args kwargs).1, (map_id args kwargs).2]
    cases n <;> first | rfl | skip
    simp only [demoGenerate, h]
  call n args kwargs x u vs y r hn h h' := by
    rw [← (demo_real π fuel).call n args kwargs x u vs y r hn h h', (map_id args kwargs).1, (map_id args kwargs).2]
    cases n <;> first | rfl | skip
    cases h'

theorem demoGenerate_generate (π : Solve.SetOrder) (fuel : Nat) : RealGenerate (demoGenerate π fuel) id where
  generate' args kwargs u vs m sym w h hb ha := by
    have hp : 0 < w ∧ 0 < h := by
      unfold generateArgs at ha
      split at ha
      · split at ha
        · cases ha
        · rename_i hk
          push Not at hk
          split at ha <;> simp only [Option.some.injEq, Prod.mk.injEq, reduceCtorEq] at ha
          · omega
          · omega
      · cases ha
    refine ⟨plainEnv w h hp.1 hp.2, u, ?_⟩
    rw [(map_id args kwargs).1, (map_id args kwargs).2]
    simp only [demoGenerate, hb, ha]
    rw [dif_pos hp]
  template args kwargs x u tries hb ht hw hh := by
    refine ⟨plainTries x hw hh, tries.toNat + 1, u, by omega, ?_⟩
    rw [(map_id args kwargs).1, (map_id args kwargs).2]
    simp only [demoGenerate, hb]
    rw [dif_pos ⟨hw, hh⟩]

open Spec.Script in
private theorem one_line {b c t : List Char} {ls cs : List (List Char)} (hb : Blank b) (hc : Piece c) (he : Ends c) (ht : Tail t)
    (h0 : c ≠ []) (h : File ls cs) : File ((b ++ c ++ t) :: ls) (c :: cs) := .command (ls := [b ++ c ++ t]) (.last hb hc he ht) h0 h

open Spec.Script in
private theorem no_line {t : List Char} {ls cs : List (List Char)} (ht : Tail t) (h : File ls cs) : File (t :: ls) cs :=
  .blank (ls := [t]) (.last (b := []) (c := []) (by simp [Blank]) ⟨by simp, by simp, by simp⟩ (by simp [Ends]) ht) h

open Spec.Script in
/-- The first script of the README. -/
theorem readme1 : File ["#!/usr/bin/env sudokutools\n".toList, "# Generate 3 sudokus and their solutions and print them.\n".toList,
    "loop 3\n".toList, "  generate\n".toList, "  encode\n".toList, "  solve\n".toList, "  encode\n".toList, "loop end\n".toList]
    (script1 3) := by
  rw [show script1 3 = ["loop 3".toList, "generate".toList, "encode".toList, "solve".toList, "encode".toList, "loop end".toList] by
    decide +kernel]
  have nl : Tail ['\n'] := ⟨['\n'], [], by simp [Blank]; decide, .inl rfl, rfl⟩
  have b0 : Blank [] := by simp [Blank]
  have b2 : Blank "  ".toList := by simp [Blank]; decide
  refine no_line ⟨[], _, b0, .inr ⟨_, rfl⟩, rfl⟩ ?_
  refine no_line ⟨[], _, b0, .inr ⟨_, rfl⟩, rfl⟩ ?_
  refine one_line (c := "loop 3".toList) b0 ⟨by decide, by decide, by simp; decide⟩ (by simp [Ends]; decide) nl (by decide) ?_
  refine one_line (c := "generate".toList) b2 ⟨by decide, by decide, by simp; decide⟩ (by simp [Ends]; decide) nl (by decide) ?_
  refine one_line (c := "encode".toList) b2 ⟨by decide, by decide, by simp; decide⟩ (by simp [Ends]; decide) nl (by decide) ?_
  refine one_line (c := "solve".toList) b2 ⟨by decide, by decide, by simp; decide⟩ (by simp [Ends]; decide) nl (by decide) ?_
  refine one_line (c := "encode".toList) b2 ⟨by decide, by decide, by simp; decide⟩ (by simp [Ends]; decide) nl (by decide) ?_
  refine one_line (c := "loop end".toList) b0 ⟨by decide, by decide, by simp; decide⟩ (by simp [Ends]; decide) nl (by decide) ?_
  exact .unfinished .nil

open Spec.Script in
/-- The second script of the README. -/
theorem readme2 : File ["#!/usr/bin/env sudokutools\n".toList, "# Generate 3 sudokus and their solutions and print them sorted.\n".toList,
    "loop 3\n".toList, "  generate\n".toList, "  encode\n".toList, "  push\n".toList, "loop end\n".toList, "\n".toList,
    "loop 3\n".toList, "  pop 0\n".toList, "  solve\n".toList, "  encode\n".toList, "loop end\n".toList] (script2 3) := by
  rw [show script2 3 = ["loop 3".toList, "generate".toList, "encode".toList, "push".toList, "loop end".toList, "loop 3".toList,
    "pop 0".toList, "solve".toList, "encode".toList, "loop end".toList] by decide +kernel]
  have nl : Tail ['\n'] := ⟨['\n'], [], by simp [Blank]; decide, .inl rfl, rfl⟩
  have b0 : Blank [] := by simp [Blank]
  have b2 : Blank "  ".toList := by simp [Blank]; decide
  refine no_line ⟨[], _, b0, .inr ⟨_, rfl⟩, rfl⟩ ?_
  refine no_line ⟨[], _, b0, .inr ⟨_, rfl⟩, rfl⟩ ?_
  refine one_line (c := "loop 3".toList) b0 ⟨by decide, by decide, by simp; decide⟩ (by simp [Ends]; decide) nl (by decide) ?_
  refine one_line (c := "generate".toList) b2 ⟨by decide, by decide, by simp; decide⟩ (by simp [Ends]; decide) nl (by decide) ?_
  refine one_line (c := "encode".toList) b2 ⟨by decide, by decide, by simp; decide⟩ (by simp [Ends]; decide) nl (by decide) ?_
  refine one_line (c := "push".toList) b2 ⟨by decide, by decide, by simp; decide⟩ (by simp [Ends]; decide) nl (by decide) ?_
  refine one_line (c := "loop end".toList) b0 ⟨by decide, by decide, by simp; decide⟩ (by simp [Ends]; decide) nl (by decide) ?_
  refine no_line nl ?_
  refine one_line (c := "loop 3".toList) b0 ⟨by decide, by decide, by simp; decide⟩ (by simp [Ends]; decide) nl (by decide) ?_
  refine one_line (c := "pop 0".toList) b2 ⟨by decide, by decide, by simp; decide⟩ (by simp [Ends]; decide) nl (by decide) ?_
  refine one_line (c := "solve".toList) b2 ⟨by decide, by decide, by simp; decide⟩ (by simp [Ends]; decide) nl (by decide) ?_
  refine one_line (c := "encode".toList) b2 ⟨by decide, by decide, by simp; decide⟩ (by simp [Ends]; decide) nl (by decide) ?_
  refine one_line (c := "loop end".toList) b0 ⟨by decide, by decide, by simp; decide⟩ (by simp [Ends]; decide) nl (by decide) ?_
  exact .unfinished .nil

private def sorted : Solve.SetOrder := fun _ S => Solvers.sortSet S

private theorem sorted_ok : sorted.Ok := fun _ S => by
  obtain ⟨l, h, rfl⟩ := Solvers.exists_list S
  exact ⟨(List.perm_insertionSort _ l).nodup_iff.2 h, fun x => Solvers.mem_sortSet⟩

-- the two scripts of the README, in a world where the dice always fall in the same way
example := C78_script (demoGenerate_real sorted 100) (demoGenerate_generate sorted 100) sorted_ok (by decide) 3 (by decide) _ readme1 [] ()
example := C79_script (demoGenerate_real sorted 100) (demoGenerate_generate sorted 100) sorted_ok (by decide) 3 (by decide) _ readme2 [] ()

end Props
