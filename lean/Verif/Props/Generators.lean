import Verif.Proofs.GeneratorsHeap
import Verif.Props.Solve

set_option autoImplicit false

/-!
# `bruteforce` and `dlx` while the program goes on using the sudokus (C99)

`Generators.bruteforce w h π fuel user k W` is the loop `for x in bruteforce(sudoku): ...` for the `k`-th `Sudoku` object; `user` is the body of the
loop: any calls on any objects - the argument, the sudokus yielded so far, copies of them, others - or leaving the loop.
The generator itself makes a copy of its argument, which gets the next free name; the program has no reference to it, so it never writes to it
(`Unwritten`).
-/

open Spec Store Generators

namespace Props

/-- The contents of object `j`. -/
def value (σ : State) (j : Nat) : Option Sudoku := σ.objs[j]?.map (contents σ.heap)

/-- The states a program can reach. -/
inductive Reachable : State → Prop
  | start : Reachable .start
  | call {σ : State} (c : Cmd) : Reachable σ → Reachable (exec σ c).1
  | bruteforce {σ : State} {k : Nat} {o : Obj} (π : Solve.SetOrder) (fuel : Nat) (user : Consumer) : Reachable σ → σ.objs[k]? = some o →
      Unwritten user σ.objs.length → Reachable (Generators.bruteforce o.bw o.bh π fuel user k ⟨σ, []⟩).1.state
  | dlx {σ : State} {k : Nat} {o : Obj} (π : Dlx.Orders) (fuel : Nat) (user : Consumer) : Reachable σ → σ.objs[k]? = some o →
      Unwritten user σ.objs.length → Reachable (Generators.dlx o.bw o.bh π fuel user k ⟨σ, []⟩).1.state

/-- The loop was done for all of `sols`, or was left early, having got the first ones of them. -/
def Iterated (r : World × Except Stop Unit) (sols : List Sudoku) : Prop :=
  (r.2 = .ok () ∧ r.1.yielded.map Prod.snd = sols) ∨ (r.2 = .error .abandoned ∧ r.1.yielded ≠ [] ∧ r.1.yielded.map Prod.snd <+: sols)

/-- The loop changes no object that the program does not change itself. -/
structure Safe (user : Consumer) (σ : State) (r : World × Except Stop Unit) : Prop where
  /-- The objects there were before (the argument is one of them). -/
  old : ∀ j, j < σ.objs.length → Unwritten user j → value r.1.state j = value σ j
  /-- The sudokus that were yielded. -/
  results : ∀ q ∈ r.1.yielded, Unwritten user q.1 → value r.1.state q.1 = some q.2
  /-- These are new objects, different from each other. -/
  fresh : (r.1.yielded.map Prod.fst).Nodup ∧ ∀ q ∈ r.1.yielded, σ.objs.length < q.1
  /-- Nor do later calls. -/
  later : ∀ (Q : List Cmd) (j : Nat), j < r.1.state.objs.length → (∀ c ∈ Q, ¬ Writes j c) → value (run r.1.state Q).1 j = value r.1.state j

theorem value_sim {σ : State} {ss : List Sudoku} (h : Sim σ ss) (j : Nat) : value σ j = ss[j]? := by
  unfold value
  cases ho : σ.objs[j]? with
  | none => rw [h.getNone ho]; rfl
  | some o =>
    obtain ⟨s, hs, r⟩ := h.get ho
    rw [hs, Option.map_some, contents_eq r]

theorem safe_result {α : Type} {user : Consumer} {σ : State} {ss ss' : List Sudoku} {s : Sudoku} (hsim : Sim σ ss)
    {v : List Sudoku × Except PyErr (α × Sudoku)} {r : World × Except Stop Unit} {r' : World × Except Stop α} (e : r.1 = r'.1)
    {W : World} (hW : W.yielded = []) {ys : List (Nat × Sudoku)} (h : Result user ss.length v W (ss ++ [s]) r' ss' ys) : Safe user σ r := by
  have hy : r.1.yielded = ys := by rw [e, h.yielded, hW]; rfl
  refine ⟨?_, ?_, ?_, ?_⟩
  · intro j hj hu
    rw [hsim.len] at hj
    rw [e, value_sim h.sim, value_sim hsim, List.getElem?_eq_getElem hj]
    refine h.keeps j _ (by omega) hu ?_
    rw [List.getElem?_append_left hj, List.getElem?_eq_getElem hj]
  · intro q hq hu
    rw [hy] at hq
    rw [e, value_sim h.sim]
    exact h.kept q hq hu
  · rw [hy]
    refine ⟨h.sorted.imp fun {a b} hab => by omega, fun q hq => ?_⟩
    have := (h.fresh q hq).1
    rw [List.length_append, List.length_singleton] at this
    rw [hsim.len]; omega
  · intro Q j hj hQ
    rw [e] at hj ⊢
    rw [value_sim h.sim, value_sim (h.sim.run (cs := Q)).1]
    rw [h.sim.len] at hj
    rw [List.getElem?_eq_getElem hj]
    exact vrun_keeps Q (List.getElem?_eq_getElem hj) hQ

theorem safe_nothing {user : Consumer} {σ : State} {ss : List Sudoku} (hsim : Sim σ ss) {W : World} (hW : W.yielded = []) (hsim' : Sim W.state ss)
    (x : Except Stop Unit) : Safe user σ (W, x) := by
  refine ⟨fun j _ _ => ?_, ?_, ?_, ?_⟩
  · rw [value_sim hsim, value_sim hsim']
  · rw [hW]; simp
  · rw [hW]; simp
  · intro Q j hj hQ
    simp only at hj ⊢
    rw [value_sim hsim', value_sim (hsim'.run (cs := Q)).1]
    rw [hsim'.len] at hj
    rw [List.getElem?_eq_getElem hj]
    exact vrun_keeps Q (List.getElem?_eq_getElem hj) hQ

theorem iterated_ok {s : Sudoku} {i : Nat} {user : Consumer} {W : World} (hW : W.yielded = []) {p : Prog Unit} {ss' ss0 : List Sudoku} {ys : List (Nat × Sudoku)}
    {r : World × Except Stop Unit} {sols : List Sudoku} {t : Sudoku} (h : Result user i (runV p s) W ss0 r ss' ys) (hg : Gives p s sols () t) :
    Iterated r sols := by
  have hy : r.1.yielded = ys := by rw [h.yielded, hW]; rfl
  have he := h.ended
  rw [hg] at he
  unfold Iterated
  rw [hy]
  cases hr : r.2 with
  | ok x =>
    rw [hr] at he
    obtain ⟨s', e, -⟩ := he
    rw [Prod.mk.injEq] at e
    exact Or.inl ⟨rfl, e.1.symm⟩
  | error e =>
    rw [hr] at he
    cases e with
    | abandoned => exact Or.inr ⟨rfl, he.1, he.2⟩
    | raised e =>
      have he : (sols, Except.ok ((), t)) = (ys.map Prod.snd, Except.error e) := he
      rw [Prod.mk.injEq] at he
      cases he.2

theorem iterated_fail {s : Sudoku} {i : Nat} {user : Consumer} {W : World} {p : Prog Unit} {ss' ss0 : List Sudoku} {ys : List (Nat × Sudoku)}
    {r : World × Except Stop Unit} {e : PyErr} (h : Result user i (runV p s) W ss0 r ss' ys) (hg : Fails p s e) :
    r.2 = .error (.raised e) ∨ r.2 = .error .abandoned := by
  have he := h.ended
  unfold Fails at hg
  cases hr : r.2 with
  | ok x =>
    rw [hr] at he
    obtain ⟨s', e', -⟩ := he
    rw [e'] at hg
    cases hg
  | error e' =>
    rw [hr] at he
    cases e' with
    | abandoned => exact Or.inr rfl
    | raised e' =>
      have he : runV p s = (ys.map Prod.snd, Except.error e') := he
      rw [he] at hg
      injection hg with hg
      rw [hg]
      exact Or.inl rfl

/-- Everything about `bruteforce`, for a state that represents sudokus. -/
theorem bruteforce_sim {σ : State} {ss : List Sudoku} (hsim : Sim σ ss) {k : Nat} {s : Sudoku} (hs : ss[k]? = some s) (π : Solve.SetOrder)
    (fuel : Nat) (user : Consumer) (hu : Unwritten user σ.objs.length) :
    (∃ ss', Sim (Generators.bruteforce s.bw s.bh π fuel user k ⟨σ, []⟩).1.state ss') ∧
    Safe user σ (Generators.bruteforce s.bw s.bh π fuel user k ⟨σ, []⟩) ∧
    match Solve.bruteforce π fuel s with
    | some sols => Iterated (Generators.bruteforce s.bw s.bh π fuel user k ⟨σ, []⟩) sols
    | none => (Generators.bruteforce s.bw s.bh π fuel user k ⟨σ, []⟩).2 = .error (.raised .RecursionError) ∨
        (Generators.bruteforce s.bw s.bh π fuel user k ⟨σ, []⟩).2 = .error .abandoned := by
  have hz : Sized s.bw s.bh s := ⟨rfl, rfl⟩
  have hc := gives_hasConflict hz s.cells fun b hb => (s.mem_cells).1 hb
  have hc : Gives (hasConflict s.bw s.bh s.cells) s [] (Solve.hasConflict s) s := hc
  -- the check leaves everything as it is
  obtain ⟨W1, hW1, hsim1, hy1⟩ : ∃ W1, runOn user k (hasConflict s.bw s.bh s.cells) ⟨σ, []⟩ = (W1, .ok (Solve.hasConflict s)) ∧
      Sim W1.state ss ∧ W1.yielded = [] := by
    obtain ⟨ss', ys, h⟩ := runOn_spec (user := user) (i := k) (hasConflict s.bw s.bh s.cells) ⟨σ, []⟩ ss s hsim hs
      (fun hne => absurd (by rw [hc]) hne)
    have he := h.ended
    rw [hc] at he
    have hsame := h.silent (by rw [hc])
    cases hr : runOn user k (hasConflict s.bw s.bh s.cells) ⟨σ, []⟩ with
    | mk W1 x =>
      rw [hr] at he
      have hsim' := h.sim
      have hy := h.yielded
      rw [hr] at hsim' hy
      cases x with
      | ok b =>
        obtain ⟨s', e, hs'⟩ := he
        rw [Prod.mk.injEq, Except.ok.injEq, Prod.mk.injEq] at e
        obtain ⟨e1, rfl, rfl⟩ := e
        have hss : ss' = ss := by
          refine List.ext_getElem? fun j => ?_
          by_cases hj : j = k
          · rw [hj, hs, hs']
          · exact hsame j hj
        have : ys = [] := List.map_eq_nil_iff.1 e1.symm
        rw [hss] at hsim'
        exact ⟨W1, rfl, hsim', by rw [hy, this]; rfl⟩
      | error e => cases e with
        | abandoned => exact absurd (List.map_eq_nil_iff.1 (List.prefix_nil.1 he.2)) he.1
        | raised e =>
          have he : (([] : List Sudoku), Except.ok (Solve.hasConflict s, s)) = (ys.map Prod.snd, Except.error e) := he
          rw [Prod.mk.injEq] at he
          cases he.2
  have hcells : (Sudoku.new s.bw s.bh).cells = s.cells := rfl
  unfold Generators.bruteforce Solve.bruteforce
  rw [hcells, hW1]
  cases hcf : Solve.hasConflict s with
  | true =>
    simp only [if_true]
    refine ⟨⟨ss, hsim1⟩, safe_nothing hsim hy1 hsim1 _, Or.inl ⟨rfl, ?_⟩⟩
    simp only
    rw [hy1]; rfl
  | false =>
    simp only [Bool.false_eq_true, if_false]
    rw [hsim.len] at hu
    obtain ⟨ss', ys, h⟩ := onCopy_spec (user := user) (do initCandidates s.bw s.bh s.cells; doBruteforce s.bw s.bh π fuel []) W1 ss s hsim1 hs hu
    refine ⟨⟨ss', h.sim⟩, safe_result hsim rfl hy1 h, ?_⟩
    have hz' : Sized s.bw s.bh s.copy := by rw [Sudoku.copy_eq]; exact ⟨rfl, rfl⟩
    have hm := runV_bruteforce π fuel hz'
    rw [hcells] at hm
    revert hm
    cases Solve.doBruteforce π fuel [] (Solve.initCandidates s.copy) with
    | none => intro hm; exact iterated_fail h hm
    | some q => intro hm; exact iterated_ok hy1 h hm.1

theorem copy_twice (s : Sudoku) : s.copy.copy = s.copy := by
  rw [Sudoku.copy_eq, Sudoku.copy_eq]
  ext1
  · rfl
  · rfl
  · funext a; simp only; split <;> rfl
  · funext a; simp

theorem dlx_copy (π : Dlx.Orders) (fuel : Nat) (s : Sudoku) : Dlx.dlx π fuel s.copy = Dlx.dlx π fuel s := by
  unfold Dlx.dlx; rw [copy_twice]

theorem runV_dlx_copy (π : Dlx.Orders) (fuel : Nat) (s : Sudoku) :
    match Dlx.dlx π fuel s with
    | .error e => Fails (doDlx s.bw s.bh π fuel) s.copy e
    | .ok sols => ∃ s', Gives (doDlx s.bw s.bh π fuel) s.copy sols () s' := by
  have hb : s.copy.bw = s.bw ∧ s.copy.bh = s.bh := by rw [Sudoku.copy_eq]; exact ⟨rfl, rfl⟩
  rw [← dlx_copy]
  have hc := copy_twice s
  generalize s.copy = t at hc hb ⊢
  have hm := runV_dlx π fuel hc
  rw [hb.1, hb.2] at hm
  exact hm

/-- Everything about `dlx`, for a state that represents sudokus. -/
theorem dlx_sim {σ : State} {ss : List Sudoku} (hsim : Sim σ ss) {k : Nat} {s : Sudoku} (hs : ss[k]? = some s) (π : Dlx.Orders)
    (fuel : Nat) (user : Consumer) (hu : Unwritten user σ.objs.length) :
    (∃ ss', Sim (Generators.dlx s.bw s.bh π fuel user k ⟨σ, []⟩).1.state ss') ∧
    Safe user σ (Generators.dlx s.bw s.bh π fuel user k ⟨σ, []⟩) ∧
    match Dlx.dlx π fuel s with
    | .ok sols => Iterated (Generators.dlx s.bw s.bh π fuel user k ⟨σ, []⟩) sols
    | .error e => (Generators.dlx s.bw s.bh π fuel user k ⟨σ, []⟩).2 = .error (.raised e) ∨
        (Generators.dlx s.bw s.bh π fuel user k ⟨σ, []⟩).2 = .error .abandoned := by
  rw [hsim.len] at hu
  have hm := runV_dlx_copy π fuel s
  have e : Generators.dlx s.bw s.bh π fuel user k ⟨σ, []⟩ = onCopy user k (doDlx s.bw s.bh π fuel) ⟨σ, []⟩ := by rw [Generators.dlx]
  rw [e]
  generalize doDlx s.bw s.bh π fuel = p at *
  obtain ⟨ss', ys, h⟩ := onCopy_spec (user := user) p ⟨σ, []⟩ ss s hsim hs hu
  refine ⟨⟨ss', h.sim⟩, safe_result hsim rfl rfl h, ?_⟩
  generalize Dlx.dlx π fuel s = d at *
  cases d with
  | error e => exact iterated_fail h hm
  | ok sols => obtain ⟨t, hm⟩ := hm; exact iterated_ok rfl h hm

theorem Reachable.sim {σ : State} (h : Reachable σ) : ∃ ss, Sim σ ss := by
  induction h with
  | start => exact ⟨_, Sim.start⟩
  | call c _ ih => obtain ⟨ss, hs⟩ := ih; exact ⟨_, (hs.exec c).1⟩
  | bruteforce π fuel user _ ho hu ih =>
    obtain ⟨ss, hsim⟩ := ih
    obtain ⟨s, hs, r⟩ := hsim.get ho
    rw [r.bw, r.bh]
    exact (bruteforce_sim hsim hs π fuel user hu).1
  | dlx π fuel user _ ho hu ih =>
    obtain ⟨ss, hsim⟩ := ih
    obtain ⟨s, hs, r⟩ := hsim.get ho
    rw [r.bw, r.bh]
    exact (dlx_sim hsim hs π fuel user hu).1

/-! ## Properties -/

section
variable {σ : State} (hσ : Reachable σ) {k : Nat} {o : Obj} (ho : σ.objs[k]? = some o) (fuel : Nat) (user : Consumer)
  (hu : Unwritten user σ.objs.length)
include hσ ho hu

/-- **C99** Whatever the program does with the argument, the yielded sudokus and others between two calls of `next`: `bruteforce` yields the same
sudokus in the same order as if it were run to the end at once (`C20`), as far as the loop is not left. -/
theorem C99_bruteforce (π : Solve.SetOrder) :
    match Solve.bruteforce π fuel (contents σ.heap o) with
    | some sols => Iterated (Generators.bruteforce o.bw o.bh π fuel user k ⟨σ, []⟩) sols
    | none => (Generators.bruteforce o.bw o.bh π fuel user k ⟨σ, []⟩).2 = .error (.raised .RecursionError) ∨
        (Generators.bruteforce o.bw o.bh π fuel user k ⟨σ, []⟩).2 = .error .abandoned := by
  obtain ⟨ss, hsim⟩ := hσ.sim
  obtain ⟨s, hs, r⟩ := hsim.get ho
  rw [r.bw, r.bh, contents_eq r]
  exact (bruteforce_sim hsim hs π fuel user hu).2.2

/-- **C99** The same for `dlx`. -/
theorem C99_dlx (π : Dlx.Orders) :
    match Dlx.dlx π fuel (contents σ.heap o) with
    | .ok sols => Iterated (Generators.dlx o.bw o.bh π fuel user k ⟨σ, []⟩) sols
    | .error e => (Generators.dlx o.bw o.bh π fuel user k ⟨σ, []⟩).2 = .error (.raised e) ∨
        (Generators.dlx o.bw o.bh π fuel user k ⟨σ, []⟩).2 = .error .abandoned := by
  obtain ⟨ss, hsim⟩ := hσ.sim
  obtain ⟨s, hs, r⟩ := hsim.get ho
  rw [r.bw, r.bh, contents_eq r]
  exact (dlx_sim hsim hs π fuel user hu).2.2

/-- **C99** The generators change no object of the program: neither the argument nor sudokus yielded before; and what they yield are new
objects that share nothing with each other or with the argument. -/
theorem C99_safe (π : Solve.SetOrder) (π' : Dlx.Orders) :
    Safe user σ (Generators.bruteforce o.bw o.bh π fuel user k ⟨σ, []⟩) ∧ Safe user σ (Generators.dlx o.bw o.bh π' fuel user k ⟨σ, []⟩) := by
  obtain ⟨ss, hsim⟩ := hσ.sim
  obtain ⟨s, hs, r⟩ := hsim.get ho
  rw [r.bw, r.bh]
  exact ⟨(bruteforce_sim hsim hs π fuel user hu).2.1, (dlx_sim hsim hs π' fuel user hu).2.1⟩

/-- **C99** A loop over `bruteforce` that is not left gets every completion exactly once, and completions only, whatever its body does. -/
theorem C99_completions (π : Solve.SetOrder) (hπ : π.Ok) (hf : (contents σ.heap o).empty.length < fuel) (hstay : ∀ W, user W ≠ none) :
    let s := contents σ.heap o
    let r := Generators.bruteforce o.bw o.bh π fuel user k ⟨σ, []⟩
    r.2 = .ok () ∧ (∀ q ∈ r.1.yielded, IsCompletion o.bw o.bh s.get q.2.get) ∧
      (∀ g, IsCompletion o.bw o.bh s.get g → ∃ q ∈ r.1.yielded, SameGrid o.bw o.bh q.2.get g) ∧
      r.1.yielded.Pairwise fun q q' => ¬ SameGrid o.bw o.bh q.2.get q'.2.get := by
  intro s r
  have hd := C99_bruteforce hσ ho fuel user hu π
  obtain ⟨sols, h1, h4, h3, h2, -⟩ := C20_bruteforce π hπ fuel s hf
  rw [h1] at hd
  have hd : Iterated r sols := hd
  have hb : s.bw = o.bw ∧ s.bh = o.bh := ⟨rfl, rfl⟩
  rw [hb.1, hb.2] at h2 h3 h4
  rcases hd with ⟨e1, e2⟩ | ⟨e1, -⟩
  · rw [← e2] at h2 h3 h4
    refine ⟨e1, fun q hq => (h3 q.2 (List.mem_map_of_mem hq)).2, fun g hg => ?_, List.pairwise_map.1 h4⟩
    obtain ⟨t, ht, hs⟩ := h2 g hg
    obtain ⟨q, hq, rfl⟩ := List.mem_map.1 ht
    exact ⟨q, hq, hs⟩
  · exact absurd e1 (bruteforce_stays hstay _ _ _ _ _ _)

/-- **C99** A loop over `dlx` that is not left gets every solution exactly once, and solutions only, whatever its body does. -/
theorem C99_solutions (π : Dlx.Orders) (hπ : π.Ok) (hf : (contents σ.heap o).empty.length < fuel) (hstay : ∀ W, user W ≠ none) :
    let s := contents σ.heap o
    let r := Generators.dlx o.bw o.bh π fuel user k ⟨σ, []⟩
    r.2 = .ok () ∧ (∀ q ∈ r.1.yielded, IsSolution o.bw o.bh s.get q.2.get) ∧
      (∀ g, IsSolution o.bw o.bh s.get g → ∃ q ∈ r.1.yielded, SameGrid o.bw o.bh q.2.get g) ∧
      r.1.yielded.Pairwise fun q q' => ¬ SameGrid o.bw o.bh q.2.get q'.2.get := by
  intro s r
  have hd := C99_dlx hσ ho fuel user hu π
  obtain ⟨sols, h1, h2, -⟩ := C18_dlx_complete π hπ fuel s hf
  have h3 := C17_dlx_sound π hπ fuel s sols h1
  have h4 := C19_dlx_nodup π hπ fuel s sols h1
  rw [h1] at hd
  have hd : Iterated r sols := hd
  have hb : s.bw = o.bw ∧ s.bh = o.bh := ⟨rfl, rfl⟩
  rw [hb.1, hb.2] at h2 h3 h4
  rcases hd with ⟨e1, e2⟩ | ⟨e1, -⟩
  · rw [← e2] at h2 h3 h4
    refine ⟨e1, fun q hq => (h3 q.2 (List.mem_map_of_mem hq)).2, fun g hg => ?_, List.pairwise_map.1 h4⟩
    obtain ⟨t, ht, hs⟩ := h2 g hg
    obtain ⟨q, hq, rfl⟩ := List.mem_map.1 ht
    exact ⟨q, hq, hs⟩
  · exact absurd e1 (onCopy_stays hstay _ _ _)

end

/-! ### Samples -/

/-- Two objects of box size 1×2 (a 2×2 grid). -/
def twoObjects : State := (run .start [.new 1 2, .new 1 2]).1

theorem reachable_two : Reachable twoObjects :=
  .call (.new 1 2) (.call (.new 1 2) .start)

/-- A loop body that overwrites the argument (object 0) and the sudokus it gets (objects 3 and 5), and makes copies. -/
def vandal : Consumer := fun _ =>
  some [.setNumber 0 0 0 7, .setCandidates 0 1 1 [5], .setNumber 3 0 1 9, .setNumber 5 0 1 9, .copy 0 false]

theorem vandal_unwritten : Unwritten vandal twoObjects.objs.length := by
  intro W cmds h c hc
  have e : twoObjects.objs.length = 2 := by decide
  rw [e]
  obtain rfl := Option.some.inj h
  simp only [List.mem_cons, List.not_mem_nil, or_false] at hc
  rcases hc with rfl | rfl | rfl | rfl | rfl <;> simp [Writes]

/-- A loop body that overwrites the argument, and leaves at the second sudoku. -/
def leaver : Consumer := fun W => if W.yielded.length = 2 then none else some [.setNumber 0 0 0 7]

theorem leaver_unwritten : Unwritten leaver twoObjects.objs.length := by
  intro W cmds h c hc
  have e : twoObjects.objs.length = 2 := by decide
  rw [e]
  unfold leaver at h
  split at h
  · cases h
  · obtain rfl := Option.some.inj h
    simp only [List.mem_cons, List.not_mem_nil, or_false] at hc
    rcases hc with rfl
    simp [Writes]

/-- The numbers of a sudoku with two rows. -/
def numbers2 (s : Sudoku) : List Int := [s.get (0,0), s.get (0,1), s.get (1,0), s.get (1,1)]

-- `C99_dlx`, `C99_bruteforce` and `C99_safe` for these loops: all hypotheses hold, and both solutions come although the argument is overwritten
example : let r := Generators.dlx 1 2 plainOrders 20 vandal 0 ⟨twoObjects, []⟩
    r.1.yielded.map (fun q => (q.1, numbers2 q.2)) = [(3, [1,2,2,1]), (5, [2,1,1,2])] ∧
      (List.range 7).map (fun j => (value r.1.state j).map numbers2) =
        [some [7,0,0,0], some [0,0,0,0], some [2,1,1,2], some [1,9,2,1], some [7,0,0,0], some [2,9,1,2], some [7,0,0,0]] := by decide +kernel
example : let r := Generators.bruteforce 1 2 (fun _ S => [1, 2].filter (· ∈ S)) 20 vandal 0 ⟨twoObjects, []⟩
    r.1.yielded.map (fun q => (q.1, numbers2 q.2)) = [(3, [1,2,2,1]), (5, [2,1,1,2])] ∧
      (List.range 7).map (fun j => (value r.1.state j).map numbers2) =
        [some [7,0,0,0], some [0,0,0,0], some [0,0,0,0], some [1,9,2,1], some [7,0,0,0], some [2,9,1,2], some [7,0,0,0]] := by decide +kernel
example : let r := Generators.dlx 1 2 plainOrders 20 leaver 0 ⟨twoObjects, []⟩
    r.1.yielded.map (fun q => (q.1, numbers2 q.2)) = [(3, [1,2,2,1]), (4, [2,1,1,2])] ∧ r.1.state.objs.length = 5 := by decide +kernel
example : Safe vandal twoObjects (Generators.dlx 1 2 plainOrders 20 vandal 0 ⟨twoObjects, []⟩) :=
  (C99_safe reachable_two (k := 0) (o := twoObjects.objs[0]) rfl 20 vandal vandal_unwritten (fun _ _ => []) plainOrders).2
example : Safe leaver twoObjects (Generators.dlx 1 2 plainOrders 20 leaver 0 ⟨twoObjects, []⟩) :=
  (C99_safe reachable_two (k := 0) (o := twoObjects.objs[0]) rfl 20 leaver leaver_unwritten (fun _ _ => []) plainOrders).2
example : (Generators.dlx 1 2 plainOrders 20 vandal 0 ⟨twoObjects, []⟩).1.yielded.Pairwise fun q q' => ¬ SameGrid 1 2 q.2.get q'.2.get :=
  (C99_solutions reachable_two (k := 0) (o := twoObjects.objs[0]) rfl 20 vandal vandal_unwritten plainOrders ⟨fun _ _ => List.Perm.refl _, fun _ _ => List.Perm.refl _⟩ (by decide +kernel)
    fun _ => by simp [vandal]).2.2.2

end Props
