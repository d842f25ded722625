import Verif.Props.ScoreBound
import Verif.Proofs.Deterministic

set_option autoImplicit false

/-! # C92: the order in which sets are visited does not matter

`Orders` says in which order the iterations over sets and dicts visit their elements.  Dicts keep the order of insertion since
Python 3.7 (`Insertion`); nothing is assumed about sets. -/

open Spec Solvers

namespace Props

/-- Dicts are visited in the order of insertion. -/
def Insertion {W : Type} (π : Orders W) : Prop := ∀ w v b l, π.fish w v b l = l

/-- **C92** Every class but `Bruteforce` yields the same steps in the same order, whatever is done with a step before the search
goes on (as long as the solution `g` is kept). -/
theorem C92_find (π π' : Orders Watch) (hπ : π.Ok) (hπ' : π'.Ok) (hi : Insertion π) (hi' : Insertion π') (s : Sudoku) (g : Grid)
    (hg : Contains s g) (next : Watch → Step → Sudoku) (hn : KeepsSolution g next) (fuel fuel' : Nat) (k : Kind) (hk : k ≠ .bruteforce) :
    find Prod.fst (watch next) π fuel k (s, []) = find Prod.fst (watch next) π' fuel' k (s, []) :=
  find_same hπ hπ' hi hi' fuel fuel' hk (seen_ctx hn s.bw s.bh k (fun _ => True) fun _ _ _ => trivial) ⟨g, rfl⟩ (s, [])
    ⟨rfl, rfl, hg, fun _ _ => trivial⟩

/-- **C92** `apply_all` gives the same sudoku. -/
theorem C92_apply_all (π π' : Orders Sudoku) (hπ : π.Ok) (hπ' : π'.Ok) (hi : Insertion π) (hi' : Insertion π') (s : Sudoku) (g : Grid)
    (hg : Contains s g) (fuel fuel' : Nat) (k : Kind) (hk : k ≠ .bruteforce) :
    Solvers.applyAll π fuel k s = Solvers.applyAll π' fuel' k s :=
  find_same hπ hπ' hi hi' fuel fuel' hk (contains_ctx (view := id) (κ := Step.apply) (fun _ _ => rfl) g s.bw s.bh k) ⟨g, rfl⟩ s
    ⟨rfl, rfl, hg⟩

/-- **C92** `hints` yields the same steps in the same order. -/
theorem C92_hints (π π' : Orders Watch) (hπ : π.Ok) (hπ' : π'.Ok) (hi : Insertion π) (hi' : Insertion π') (s : Sudoku) (g : Grid)
    (hg : Contains s g) (next : Watch → Step → Sudoku) (hn : KeepsSolution g next) :
    hints Prod.fst (watch next) π (s, []) = hints Prod.fst (watch next) π' (s, []) := by
  unfold hints
  refine foldl_same (fun x : Watch => x.1.bw = s.bw ∧ x.1.bh = s.bh ∧ Contains x.1 g ∧ ∀ p ∈ x.2, True) _ _ _ ?_ (s, [])
    ⟨rfl, rfl, hg, fun _ _ => trivial⟩
  intro x k _ hx
  by_cases hk : k = .bruteforce
  · simp only [hk, if_true, true_and]; exact hx
  · have c := seen_ctx hn s.bw s.bh k (fun _ => True) fun _ _ _ => trivial
    obtain ⟨y, h1, h2⟩ := find_inv hπ 0 hk c x hx
    have h3 := find_same hπ hπ' hi hi' 0 0 hk c ⟨g, rfl⟩ x hx
    simp only [if_neg hk, ← h3, h1, true_and]
    exact h2

/-- **C92** Two runs of `solve` on a solvable sudoku report the same steps, up to the numbers in the steps of `Bruteforce`, which
come last and concern the same fields in the same order. -/
theorem C92_steps (π π' : Orders Run) (hπ : π.Ok) (hπ' : π'.Ok) (hi : Insertion π) (hi' : Insertion π') (s : Sudoku)
    (hs : Solvable s.bw s.bh s.get) (fuel fuel' rounds rounds' : Nat) (hf : s.empty.length < fuel) (hf' : s.empty.length < fuel')
    (w w' : Run) (h : solve π fuel rounds s = .ok (some w)) (h' : solve π' fuel' rounds' s = .ok (some w')) :
    ∃ (l : List Step) (c : List Cell) (g g' : Grid), (∀ st ∈ l, st.kind ≠ .bruteforce) ∧
      w.2 = l ++ c.map (fun a => Step.single .bruteforce a (g a)) ∧ w'.2 = l ++ c.map (fun a => Step.single .bruteforce a (g' a)) ∧
      IsSolution s.bw s.bh s.get g ∧ IsSolution s.bw s.bh s.get g' ∧ ∀ a ∈ c, InGrid s.bw s.bh a :=
  solve_steps hπ hπ' hi hi' hs hf hf' h h'

/-- **C92** If there is only one solution, two runs of `solve` are the same in everything. -/
theorem C92_solve (π π' : Orders Run) (hπ : π.Ok) (hπ' : π'.Ok) (hi : Insertion π) (hi' : Insertion π') (s : Sudoku)
    (hs : UniqueSolution s.bw s.bh s.get) (fuel fuel' rounds rounds' : Nat) (hf : s.empty.length < fuel) (hf' : s.empty.length < fuel')
    (w w' : Run) (h : solve π fuel rounds s = .ok (some w)) (h' : solve π' fuel' rounds' s = .ok (some w')) : w = w' := by
  obtain ⟨g0, hg0, huniq⟩ := hs
  obtain ⟨l, c, g, g', -, h1, h2, h3, h4, h5⟩ := C92_steps π π' hπ hπ' hi hi' s ⟨g0, hg0⟩ fuel fuel' rounds rounds' hf hf' w w' h h'
  have e : w.2 = w'.2 := by
    rw [h1, h2]
    congr 1
    refine List.map_congr_left fun a ha => ?_
    rw [← huniq g h3 a (h5 a ha), ← huniq g' h4 a (h5 a ha)]
  refine Prod.ext ?_ e
  rw [solve_replay hπ ⟨g0, hg0⟩ hf h, solve_replay hπ' ⟨g0, hg0⟩ hf' h', e]

/-- **C92** `score` does not depend on the order, also if there are several solutions. -/
theorem C92_score (π π' : Orders Run) (hπ : π.Ok) (hπ' : π'.Ok) (hi : Insertion π) (hi' : Insertion π') (s : Sudoku)
    (hs : Solvable s.bw s.bh s.get) (fuel fuel' rounds rounds' : Nat) (hf : s.empty.length < fuel) (hf' : s.empty.length < fuel')
    (r r' : Nat) (h : score π fuel rounds s = .ok (some r)) (h' : score π' fuel' rounds' s = .ok (some r')) : r = r' := by
  obtain ⟨w, h1, h2⟩ := score_run hπ hs hf h
  obtain ⟨w', h1', h2'⟩ := score_run hπ' hs hf' h'
  obtain ⟨l, c, g, g', -, h3, h4, -⟩ := C92_steps π π' hπ hπ' hi hi' s hs fuel fuel' rounds rounds' hf hf' w w' h1 h1'
  rw [h2, h2', h3, h4]
  simp [Function.comp_def, Step.single, Step.mk']

/-! ## Cases -/

/-- Sets in decreasing order, and the search for solutions starting from the other end. -/
def otherWatch (W : Type) : Orders W := ⟨fun _ _ _ S => (sortSet S).reverse, fun _ _ _ l => l, fun _ => ⟨fun _ l => l, fun _ l => l.reverse⟩⟩

theorem otherWatch_ok (W : Type) : (otherWatch W).Ok := by
  have h := plainWatch_ok W
  refine ⟨fun w a k S => ⟨?_, fun x => ?_⟩, fun _ _ _ _ => List.Perm.refl _,
    fun _ => ⟨fun _ _ => List.Perm.refl _, fun _ _ => List.reverse_perm _⟩⟩
  · exact List.nodup_reverse.2 (h.hidden w a k S).1
  · exact List.mem_reverse.trans ((h.hidden w a k S).2 x)

example (W : Type) : Insertion (plainWatch W) ∧ Insertion (otherWatch W) := ⟨fun _ _ _ _ => rfl, fun _ _ _ _ => rfl⟩

/-- A solved sudoku with two fields cleared: one solution; candidates for these fields, then two singles. -/
def twoOpen : Sudoku := (solved4.setNumber (0, 0) 0).setNumber (0, 1) 0

example : UniqueSolution twoOpen.bw twoOpen.bh twoOpen.get := by
  obtain ⟨b, h1, h2⟩ := C22_is_unique plainOrders ⟨fun _ _ => List.Perm.refl _, fun _ _ => List.Perm.refl _⟩ 30 twoOpen (by decide +kernel)
  rw [show Dlx.isUnique plainOrders 30 twoOpen = .ok true by decide +kernel] at h1
  cases h1
  exact h2.1 rfl

example : (solve (plainWatch Run) 30 9 twoOpen).toOption.map (fun o => o.map fun w => w.2.map Step.kind) =
    some (some [.calculateCandidates, .calculateCandidates, .nakedSingle, .nakedSingle]) := by decide +kernel

/-- **C92** With several solutions, `solve` does depend on the order: the empty 2x2 sudoku with boxes of 2x1 fields. -/
theorem C92_several : (solve (plainWatch Run) 9 9 (Sudoku.new 2 1)).toOption.map (fun o => o.map fun w => w.1.get (0, 0)) = some (some 1) ∧
    (solve (otherWatch Run) 9 9 (Sudoku.new 2 1)).toOption.map (fun o => o.map fun w => w.1.get (0, 0)) = some (some 2) ∧
    (score (plainWatch Run) 9 9 (Sudoku.new 2 1)).toOption = (score (otherWatch Run) 9 9 (Sudoku.new 2 1)).toOption := by
  decide +kernel

/-- Candidates without any solution: the numbers 1 and 2 both have the field (0, 0) as their only place in the row. -/
def torn : Sudoku := withCands [((0, 1), {3, 4}), ((0, 2), {3, 4}), ((0, 3), {3, 4})]

/-- **C92** Without a solution the steps do depend on the order. -/
theorem C92_torn : (find Prod.fst (watch leave) (plainWatch Watch) 9 .hiddenSingle (torn, [])).toOption.map (fun y => y.2.map Prod.snd) =
      some [Step.single .hiddenSingle (0, 0) 1] ∧
    (find Prod.fst (watch leave) (otherWatch Watch) 9 .hiddenSingle (torn, [])).toOption.map (fun y => y.2.map Prod.snd) =
      some [Step.single .hiddenSingle (0, 0) 2] := by decide +kernel

/-- The hypotheses of `C92_find` are met by the sudokus of the other examples. -/
example : Contains exHiddenSingle solved4.get := by decide +kernel

end Props
