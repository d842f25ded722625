import Verif.Proofs.StepObjects
import Verif.Props.Solvers

set_option autoImplicit false

/-!
# Step objects used more than once (C96)

`SolveStep.apply` builds the actions of a step only if there are none yet (solvers.py:107-113), so a step object that is
applied again executes the actions made for the sudoku it was first applied to.
-/

open Spec Solvers

namespace Props

/-- A program that has step objects (numbered) and sudokus (numbered), and applies the object `i` to the sudoku `j` for each
pair of the list, in order. -/
def useObjs : List (Nat × Nat) → (Nat → StepObj) → (Nat → Sudoku) → Except PyErr ((Nat → StepObj) × (Nat → Sudoku))
  | [], os, ss => .ok (os, ss)
  | (i, j) :: l, os, ss => match (os i).apply (ss j) with
    | .error e => .error e
    | .ok (o, s) => useObjs l (Function.update os i o) (Function.update ss j s)

/-- The step fits to sudokus of this size: it could have been found in one of them. -/
def Fits (w h : Nat) (st : Step) : Prop := ∃ s : Sudoku, s.bw = w ∧ s.bh = h ∧ Useful s st

private theorem Fits.shape {w h : Nat} {st : Step} (hf : Fits w h st) : Shape w h st := by
  obtain ⟨s, rfl, rfl, hu⟩ := hf
  exact Useful.shape hu

/-! ## The first application -/

/-- **C96** The first application of an object does what the step says: it raises an exception exactly if no actions can be
built, and gives the same as a fresh step. -/
theorem C96_first (st : Step) (s : Sudoku) :
    StepObj.apply { step := st } s =
      match st.build s with
      | .error e => .error e
      | .ok acts => .ok ({ step := st, actions := acts }, Step.apply s st) := by
  unfold StepObj.apply Step.apply
  simp only [List.isEmpty_nil, if_true]
  split <;> rename_i h <;> simp [h]

/-! ## Later applications -/

/-- **C96** An object that was first applied to `s` does to `t` what a fresh step does, if `t` has the size of `s` and no
candidates that `s` had not; in particular later in the course of solving `s`.  (`C56_stale`: not otherwise.) -/
theorem C96_as_fresh (st : Step) (s s' t : Sudoku) (o : StepObj) (h : StepObj.apply { step := st } s = .ok (o, s'))
    (hw : t.bw = s.bw) (hh : t.bh = s.bh) (hc : ∀ a, t.getCandidates a ⊆ s.getCandidates a) :
    ∃ o', o.apply t = .ok (o', Step.apply t st) := by
  rw [C96_first] at h
  split at h
  · exact absurd h (by simp)
  · rename_i acts hb
    simp only [Except.ok.injEq, Prod.mk.injEq] at h
    obtain ⟨rfl, -⟩ := h
    have e := build_smaller hb hw hh hc
    unfold StepObj.apply
    split
    · rename_i he
      simp only at he
      have : acts = [] := by simpa using he
      subst this
      have hb' : ∃ acts', st.build t = .ok acts' := by
        unfold Step.build at hb ⊢
        rcases hk : st.kind with _ | _ | _ | _ | n | n | n | n <;> rw [hk] at hb <;> simp only at hb ⊢
        · split at hb
          · exact absurd hb (by simp)
          · exact ⟨_, rfl⟩
        iterate 3
          split at hb
          · exact ⟨_, rfl⟩
          · exact absurd hb (by simp)
        · exact ⟨_, rfl⟩
        · exact ⟨_, rfl⟩
        · split at hb
          · exact absurd hb (by simp)
          · exact ⟨_, rfl⟩
        · exact ⟨_, rfl⟩
      obtain ⟨acts', hb'⟩ := hb'
      simp only [hb', Step.apply]
      exact ⟨_, rfl⟩
    · simp only
      rw [e]
      exact ⟨_, rfl⟩

/-- For the examples: the naked pair of `exNakedTuple`. -/
def exPair : Step := Step.mk' (.nakedTuple 2) [(0, 0), (0, 1)] [(0, 2), (0, 3)] [1, 2]

/-- The pair is found in `exNakedTuple` and applied there; later one candidate has vanished, another has been removed by hand. -/
example :
    let t := (exNakedTuple.setCandidates (0, 2) {1, 4}).setCandidates (0, 3) {2, 3, 4}
    (∀ a ∈ t.cells, t.getCandidates a ⊆ exNakedTuple.getCandidates a) ∧
      ((StepObj.apply { step := exPair } exNakedTuple).toOption.bind fun p => (p.1.apply t).toOption.map fun q =>
        (q.2.getCandidates (0, 2), q.2.getCandidates (0, 3))) = some ({4}, {3, 4}) := by decide +kernel

/-! ## No solution is lost -/

/-- What is known of an object that has been used. -/
private structure Used (g : Grid) (w h : Nat) (o : StepObj) : Prop where
  shape : Shape w h o.step
  truth : TrueOf g o.step
  keeps : ∀ x ∈ o.actions, x.Keeps g

private theorem used_apply {g p : Grid} {o : StepObj} {s : Sudoku} (ho : Used g s.bw s.bh o) (hg : IsSolution s.bw s.bh p g) :
    ∃ o' acts, o.apply s = .ok (o', acts.foldl Action.exec s) ∧ o'.step = o.step ∧ o'.actions = acts ∧
      ∀ x ∈ acts, x.Keeps g := by
  unfold StepObj.apply
  split
  · obtain ⟨acts, h1, h2⟩ := build_keeps ho.shape ho.truth hg
    simp only [h1]
    exact ⟨_, acts, rfl, rfl, rfl, h2⟩
  · exact ⟨o, o.actions, rfl, rfl, rfl, ho.keeps⟩

private theorem use_keeps {g p : Grid} {w h : Nat} (hg : IsSolution w h p g) (l : List (Nat × Nat)) :
    ∀ (os : Nat → StepObj) (ss : Nat → Sudoku), (∀ i, Used g w h (os i)) → (∀ j, (ss j).bw = w ∧ (ss j).bh = h) →
      ∃ os' ss', useObjs l os ss = .ok (os', ss') ∧ (∀ i, (os' i).step = (os i).step) ∧
        (∀ j, (ss' j).bw = w ∧ (ss' j).bh = h) ∧ (∀ j, Contains (ss j) g → Contains (ss' j) g) ∧
        ∀ j, MayContain (ss j) g → MayContain (ss' j) g := by
  induction l with
  | nil => intro os ss _ hd; exact ⟨os, ss, rfl, fun _ => rfl, hd, fun _ => id, fun _ => id⟩
  | cons x l ih =>
    obtain ⟨i, j⟩ := x
    intro os ss ho hd
    obtain ⟨hw, hh⟩ := hd j
    obtain ⟨o', acts, h1, h2, h3, h4⟩ := used_apply (s := ss j) (by rw [hw, hh]; exact ho i) (by rw [hw, hh]; exact hg)
    have hdim := foldl_dims acts (ss j)
    obtain ⟨os', ss', k1, k2, k3, k4, k5⟩ := ih (Function.update os i o') (Function.update ss j (acts.foldl Action.exec (ss j)))
      (by
        intro i'
        by_cases e : i' = i
        · subst e
          rw [Function.update_self]
          exact ⟨by rw [h2]; exact (ho i').shape, by rw [h2]; exact (ho i').truth, by rw [h3]; exact h4⟩
        · rw [Function.update_of_ne e]; exact ho i')
      (by
        intro j'
        by_cases e : j' = j
        · subst e
          rw [Function.update_self]
          exact ⟨hdim.1.trans hw, hdim.2.trans hh⟩
        · rw [Function.update_of_ne e]; exact hd j')
    refine ⟨os', ss', ?_, ?_, k3, ?_, ?_⟩
    · unfold useObjs
      rw [h1]
      exact k1
    · intro i'
      rw [k2]
      by_cases e : i' = i
      · subst e; rw [Function.update_self, h2]
      · rw [Function.update_of_ne e]
    · intro j' hj
      refine k4 j' ?_
      by_cases e : j' = j
      · subst e; rw [Function.update_self]; exact foldl_contains acts h4 _ hj
      · rw [Function.update_of_ne e]; exact hj
    · intro j' hj
      refine k5 j' ?_
      by_cases e : j' = j
      · subst e; rw [Function.update_self]; exact foldl_mayContain acts h4 _ hj
      · rw [Function.update_of_ne e]; exact hj

/-- **C96** Step objects may be applied to any sudokus of the right size, in any order and as often as one likes: no exception
is raised, and each sudoku that had a solution `g` of which the steps are true still has it, both in its numbers and in its
candidates; even if the objects had before been applied to sudokus with other solutions or none. -/
theorem C96_keeps (w h : Nat) (p g : Grid) (hg : IsSolution w h p g) (st : Nat → Step) (hst : ∀ i, Fits w h (st i))
    (ht : ∀ i, TrueOf g (st i)) (ss : Nat → Sudoku) (hd : ∀ j, (ss j).bw = w ∧ (ss j).bh = h) (l : List (Nat × Nat)) :
    ∃ os' ss', useObjs l (fun i => { step := st i }) ss = .ok (os', ss') ∧ (∀ i, (os' i).step = st i) ∧
      (∀ j, Contains (ss j) g → Contains (ss' j) g) ∧ ∀ j, MayContain (ss j) g → MayContain (ss' j) g := by
  obtain ⟨os', ss', h1, h2, -, h3, h4⟩ := use_keeps hg l (fun i => { step := st i }) ss
    (fun i => ⟨(hst i).shape, ht i, by simp⟩) hd
  exact ⟨os', ss', h1, h2, h3, h4⟩

theorem exPair_fits : Fits 2 2 exPair ∧ TrueOf solved4.get exPair := by
  refine ⟨⟨exNakedTuple, rfl, rfl, by unfold InGrid; decide, ?_⟩, ?_⟩
  · show ∃ a ∈ exPair.affected, ∃ v ∈ exPair.values, v ∈ exNakedTuple.cand a
    decide +kernel
  · show ∀ a ∈ exPair.affected, solved4.get a ∉ exPair.values
    decide +kernel

/-- The pair, first applied to a sudoku where it has nothing to remove, then does nothing in `exNakedTuple`, where there was
something to remove: not what the step says, but no solution is lost. -/
example :
    let ss : Nat → Sudoku := fun j => if j = 0 then withCands [((0, 2), {3, 4}), ((0, 3), {3, 4})] else exNakedTuple
    Contains (ss 0) solved4.get ∧ Contains (ss 1) solved4.get ∧
      ((useObjs [(0, 0), (0, 1)] (fun _ => { step := exPair }) ss).toOption.map fun x => (x.2 1).getCandidates (0, 2)) =
        some {1, 2, 3, 4} ∧
      (Step.apply (ss 1) exPair).getCandidates (0, 2) = {3, 4} := by decide +kernel

/-! ## Hints -/

/-- An object used while solving, at a time when the sudoku is `s`. -/
private structure Since (s : Sudoku) (o : StepObj) : Prop where
  built : o.actions = [] ∨ ∃ s0 : Sudoku, o.step.build s0 = .ok o.actions ∧ s.bw = s0.bw ∧ s.bh = s0.bh ∧
    ∀ a, s.cand a ⊆ s0.cand a

private theorem since_apply {s : Sudoku} {o : StepObj} {g : Grid} (ho : Since s o) (hs : Shape s.bw s.bh o.step)
    (ht : TrueOf g o.step) (hg : Contains s g) :
    ∃ o', o.apply s = .ok (o', Step.apply s o.step) ∧ o'.step = o.step ∧ Since s o' := by
  unfold StepObj.apply
  split
  · obtain ⟨acts, h1, -⟩ := build_keeps hs ht hg.1
    have e : Step.apply s o.step = acts.foldl Action.exec s := by simp only [Step.apply, h1]
    simp only [h1, e]
    exact ⟨{ o with actions := acts }, rfl, rfl, ⟨Or.inr ⟨s, h1, rfl, rfl, fun _ => subset_rfl⟩⟩⟩
  · rename_i he
    rcases ho.built with h | ⟨s0, h1, h2, h3, h4⟩
    · rw [h] at he; simp at he
    · exact ⟨o, by rw [build_smaller h1 h2 h3 h4], rfl, ho⟩

private theorem use_fresh {g : Grid} (st : Nat → Step) (l : List Nat) :
    ∀ (os : Nat → StepObj) (ss : Nat → Sudoku), (∀ i, (os i).step = st i) → (∀ i, Since (ss 0) (os i)) →
      (∀ i, Shape (ss 0).bw (ss 0).bh (st i) ∧ TrueOf g (st i) ∧ (st i).kind ≠ .calculateCandidates) → Contains (ss 0) g →
      ∃ os' ss', useObjs (l.map fun i => (i, 0)) os ss = .ok (os', ss') ∧
        ss' 0 = l.foldl (fun s i => Step.apply s (st i)) (ss 0) := by
  induction l with
  | nil => intro os ss _ _ _ _; exact ⟨os, ss, rfl, rfl⟩
  | cons i l ih =>
    intro os ss he ho hs hg
    obtain ⟨o', h1, h2, h3⟩ := since_apply (ho i) (by rw [he]; exact (hs i).1) (by rw [he]; exact (hs i).2.1) hg
    rw [he] at h1 h2
    have hdim := apply_dims (ss 0) (st i)
    have hsm := apply_smaller (hs i).1 (hs i).2.1 (hs i).2.2 hg
    have later : ∀ o, Since (ss 0) o → Since (Step.apply (ss 0) (st i)) o := by
      rintro o ⟨h | ⟨s0, k1, k2, k3, k4⟩⟩
      · exact ⟨Or.inl h⟩
      · exact ⟨Or.inr ⟨s0, k1, hdim.1.trans k2, hdim.2.trans k3, fun a => (hsm a).trans (k4 a)⟩⟩
    obtain ⟨os', ss', k1, k2⟩ := ih (Function.update os i o') (Function.update ss 0 (Step.apply (ss 0) (st i)))
      (by
        intro i'
        by_cases e : i' = i
        · subst e; rw [Function.update_self, h2]
        · rw [Function.update_of_ne e, he])
      (by
        intro i'
        rw [Function.update_self]
        by_cases e : i' = i
        · subst e; rw [Function.update_self]; exact later _ h3
        · rw [Function.update_of_ne e]; exact later _ (ho i'))
      (by
        intro i'
        rw [Function.update_self, hdim.1, hdim.2]
        exact hs i')
      (by rw [Function.update_self]; exact contains_apply (hs i).1 (hs i).2.1 hg)
    refine ⟨os', ss', ?_, ?_⟩
    · rw [List.map_cons]
      unfold useObjs
      rw [h1]
      exact k1
    · rw [k2, Function.update_self, List.foldl_cons]

/-- **C96** The step objects yielded by `hints(s)` may be collected and applied to `s` in any order and as often as one likes:
each application does what a fresh step does. -/
theorem C96_hints (s : Sudoku) (g : Grid) (hg : Contains s g) (π : Orders Watch) (hπ : π.Ok) (st : Nat → Step)
    (hst : ∀ i, ∃ t, (t, st i) ∈ (hints Prod.fst (watch leave) π (s, [])).2) (l : List Nat) :
    ∃ os' ss', useObjs (l.map fun i => (i, 0)) (fun i => { step := st i }) (fun _ => s) = .ok (os', ss') ∧
      ss' 0 = l.foldl (fun s i => Step.apply s (st i)) s ∧ Contains (ss' 0) g := by
  have hs : ∀ i, Shape s.bw s.bh (st i) ∧ TrueOf g (st i) ∧ (st i).kind ≠ .calculateCandidates := by
    intro i
    obtain ⟨t, ht⟩ := hst i
    have h := (watch_hints (keeps_leave g) hπ s hg _ ht).1
    have hsh := Useful.shape h.useful
    rw [h.bw, h.bh] at hsh
    refine ⟨hsh, h.truth, fun hk => ?_⟩
    have hu := h.useful
    obtain ⟨hin, hu⟩ := hu
    simp only [hk] at hu
    obtain ⟨a, -, e, h0, -⟩ := hu
    have hc := h.cons.2 a (hin a (by rw [e]; simp))
    rw [h0] at hc
    simp at hc
  obtain ⟨os', ss', h1, h2⟩ := use_fresh (g := g) st l (fun i => { step := st i }) (fun _ => s) (fun _ => rfl)
    (fun _ => ⟨Or.inl rfl⟩) hs hg
  refine ⟨os', ss', h1, h2, ?_⟩
  rw [h2]
  have := contains_foldl hg (l.map st) (fun x hx => by
    obtain ⟨i, -, rfl⟩ := List.mem_map.1 hx
    exact ⟨(hs i).1, (hs i).2.1⟩)
  rwa [List.foldl_map] at this

/-- Two of the nine hints of `exNakedTuple`, the first of them applied twice. -/
example : Contains exNakedTuple solved4.get ∧
    (let hs := (hints Prod.fst (watch leave) (plainWatch Watch) (exNakedTuple, [])).2.map Prod.snd
    ((useObjs [(0, 0), (8, 0), (0, 0)] (fun i => { step := hs.getD i exPair }) (fun _ => exNakedTuple)).toOption.map fun x =>
      (x.2 0).getCandidates (0, 2)) = some {3, 4}) := by decide +kernel

end Props
