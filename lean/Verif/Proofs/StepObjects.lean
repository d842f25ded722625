import Verif.Proofs.Watch

set_option autoImplicit false

/-!
# Step objects that remember their actions

Helper lemmas for `Props/StepObjects.lean`.
-/

open Spec

namespace Solvers

/-- The action does not contradict `g`. -/
def Action.Keeps (g : Grid) : Action → Prop
  | .setNumber a v => g a = v
  | .setCandidates a vs => g a ∈ vs
  | .removeCandidates a vs => g a ∉ vs

theorem exec_dims (s : Sudoku) (x : Action) : (x.exec s).bw = s.bw ∧ (x.exec s).bh = s.bh := by
  cases x <;> exact ⟨rfl, rfl⟩

theorem exec_contains {s : Sudoku} {g : Grid} {x : Action} (hx : x.Keeps g) (h : Contains s g) : Contains (x.exec s) g := by
  cases x with
  | setNumber a v => exact ⟨solution_set h.1 hx, h.2⟩
  | setCandidates a vs =>
    refine ⟨h.1, fun b hb => ?_⟩
    simp only [Action.exec, Sudoku.setCandidates]
    split
    · rename_i e; subst e; exact hx
    · exact h.2 b hb
  | removeCandidates a vs =>
    refine ⟨h.1, fun b hb => ?_⟩
    simp only [Action.exec, Sudoku.removeCandidates]
    split
    · rename_i e; subst e; exact Finset.mem_sdiff.2 ⟨h.2 b hb, hx⟩
    · exact h.2 b hb

theorem exec_mayContain {s : Sudoku} {g : Grid} {x : Action} (hx : x.Keeps g) (h : MayContain s g) :
    MayContain (x.exec s) g := by
  cases x with
  | setNumber a v => exact ⟨solution_set h.1 hx, h.2⟩
  | setCandidates a vs =>
    refine ⟨h.1, fun b hb => ?_⟩
    simp only [Action.exec, Sudoku.setCandidates]
    split
    · rename_i e; subst e; exact Or.inr hx
    · exact h.2 b hb
  | removeCandidates a vs =>
    refine ⟨h.1, fun b hb => ?_⟩
    simp only [Action.exec, Sudoku.removeCandidates]
    split
    · rename_i e; subst e
      rcases h.2 b hb with h | h
      · left; rw [h]; simp
      · right; exact Finset.mem_sdiff.2 ⟨h, hx⟩
    · exact h.2 b hb

theorem foldl_contains {g : Grid} (l : List Action) (hl : ∀ x ∈ l, x.Keeps g) (s : Sudoku) (h : Contains s g) :
    Contains (l.foldl Action.exec s) g :=
  foldl_inv (fun t => Contains t g) _ l (fun _ x hx ht => exec_contains (hl x hx) ht) s h

theorem foldl_mayContain {g : Grid} (l : List Action) (hl : ∀ x ∈ l, x.Keeps g) (s : Sudoku) (h : MayContain s g) :
    MayContain (l.foldl Action.exec s) g :=
  foldl_inv (fun t => MayContain t g) _ l (fun _ x hx ht => exec_mayContain (hl x hx) ht) s h

theorem foldl_dims (l : List Action) (s : Sudoku) :
    (l.foldl Action.exec s).bw = s.bw ∧ (l.foldl Action.exec s).bh = s.bh :=
  foldl_inv (fun t => t.bw = s.bw ∧ t.bh = s.bh) _ l
    (fun t x _ ht => ⟨(exec_dims t x).1.trans ht.1, (exec_dims t x).2.trans ht.2⟩) s ⟨rfl, rfl⟩

/-- The actions of a true step do not contradict the solution, for whatever sudoku of the right size they are built. -/
theorem build_keeps {s : Sudoku} {st : Step} {g p : Grid} (hs : Shape s.bw s.bh st) (hg : TrueOf g st)
    (hsol : IsSolution s.bw s.bh p g) : ∃ acts, st.build s = .ok acts ∧ ∀ x ∈ acts, x.Keeps g := by
  obtain ⟨hin, hs⟩ := hs
  unfold TrueOf at hg
  unfold Step.build
  have single : ∀ a v, InGrid s.bw s.bh a → g a = v → ∀ x ∈ buildSingle a v s, x.Keeps g := by
    intro a v ha e x hx
    unfold buildSingle at hx
    simp only [List.mem_cons, List.mem_map, List.mem_filter] at hx
    rcases hx with rfl | rfl | ⟨b, ⟨hb, -⟩, rfl⟩
    · exact e
    · simp [Action.Keeps, e]
    · rw [Sudoku.mem_surroundingOf_false s ha] at hb
      have h0 : g a ≠ 0 := by have := (hsol.full a ha).1; omega
      simp only [Action.Keeps, Finset.mem_singleton]
      exact fun e' => hsol.valid a b ha hb.1 hb.2 h0 (e.trans e'.symm)
  rcases hk : st.kind with _ | _ | _ | _ | n | n | n | n <;> rw [hk] at hs hg <;> simp only at hs hg ⊢
  · obtain ⟨a, h1, h2⟩ := hs
    rw [h1]
    refine ⟨_, rfl, fun x hx => ?_⟩
    simp only [List.mem_singleton] at hx
    subst hx
    simp only [Action.Keeps, List.mem_toFinset]
    exact hg a (by rw [h2]; simp)
  iterate 3
    obtain ⟨a, v, h1, h2⟩ := hs
    rw [h1, h2]
    exact ⟨_, rfl, single a v (hin a (by rw [h1]; simp)) (hg a (by rw [h1]; simp) v (by rw [h2]; simp))⟩
  · refine ⟨_, rfl, fun x hx => ?_⟩
    obtain ⟨a, ha, rfl⟩ := List.mem_map.1 hx
    simp only [Action.Keeps, Finset.mem_inter, List.mem_toFinset]
    exact fun h => hg a ha h.1
  · refine ⟨_, rfl, fun x hx => ?_⟩
    obtain ⟨a, ha, rfl⟩ := List.mem_map.1 hx
    simp only [Action.Keeps, Finset.mem_sdiff, List.mem_toFinset]
    exact fun h => h.2 (hg a ha)
  · obtain ⟨v, hv⟩ := hs
    rw [hv] at hg ⊢
    refine ⟨_, rfl, fun x hx => ?_⟩
    obtain ⟨a, ha, rfl⟩ := List.mem_map.1 hx
    simp only [Action.Keeps, List.mem_toFinset]
    exact hg a ha
  · refine ⟨_, rfl, fun x hx => ?_⟩
    obtain ⟨a, ha, rfl⟩ := List.mem_map.1 hx
    simp only [Action.Keeps, List.mem_toFinset]
    exact hg a ha

theorem surroundingOf_congr {s t : Sudoku} (hw : t.bw = s.bw) (hh : t.bh = s.bh) (a : Cell) (inc : Bool) :
    t.surroundingOf a inc = s.surroundingOf a inc := by
  unfold Sudoku.surroundingOf Sudoku.rowOf Sudoku.columnOf Sudoku.quadWithoutRowAndColumnOf Sudoku.indices Sudoku.n
  simp only [hw, hh]

theorem exec_single (s : Sudoku) (a : Cell) (v : Int) (l : List Cell) (hl : a ∉ l) :
    (Action.setNumber a v :: Action.setCandidates a {v} :: l.map fun b => .removeCandidates b {v}).foldl Action.exec s =
      { s with
        num := fun b => if b = a then v else s.num b
        cand := fun b => if b = a then {v} else if b ∈ l then s.cand b \ {v} else s.cand b } := by
  simp only [List.foldl_cons]
  rw [foldl_remove l (fun _ => {v})]
  simp only [Action.exec, Sudoku.setNumber, Sudoku.setCandidates]
  congr 1
  funext b
  by_cases hb : b = a
  · subst hb; simp [hl]
  · simp [hb]

/-- The actions built for `s` do in `t` what fresh ones do, if `t` has no candidates that `s` had not. -/
theorem build_smaller {s t : Sudoku} {st : Step} {acts : List Action} (h : st.build s = .ok acts) (hw : t.bw = s.bw)
    (hh : t.bh = s.bh) (hc : ∀ a, t.cand a ⊆ s.cand a) : acts.foldl Action.exec t = Step.apply t st := by
  have single : ∀ a v, (buildSingle a v s).foldl Action.exec t = (buildSingle a v t).foldl Action.exec t := by
    intro a v
    unfold buildSingle
    rw [exec_single _ _ _ _ (fun h => not_mem_surrounding s _ (List.mem_filter.1 h).1),
      exec_single _ _ _ _ (fun h => not_mem_surrounding t _ (List.mem_filter.1 h).1)]
    congr 1
    funext b
    rw [surroundingOf_congr hw hh]
    split
    · rfl
    · simp only [List.mem_filter, Sudoku.getCandidates]
      by_cases hv : v ∈ t.cand b
      · have := hc b hv
        simp [hv, this]
      · have e : t.cand b \ {v} = t.cand b := by
          ext x; simp only [Finset.mem_sdiff, Finset.mem_singleton]
          exact ⟨fun h => h.1, fun h => ⟨h, fun e => hv (e ▸ h)⟩⟩
        simp [e]
  unfold Step.apply
  unfold Step.build at h ⊢
  rcases hk : st.kind with _ | _ | _ | _ | n | n | n | n <;> rw [hk] at h <;> simp only at h ⊢
  · split at h
    · exact absurd h (by simp)
    · rw [Except.ok.injEq] at h
      subst h
      rfl
  iterate 3
    split at h
    · rename_i e1 e2
      rw [Except.ok.injEq] at h
      subst h
      simp only
      exact single _ _
    · exact absurd h (by simp)
  · rw [Except.ok.injEq] at h
    subst h
    rw [foldl_remove st.affected (fun a => st.values.toFinset ∩ s.getCandidates a),
      foldl_remove st.affected (fun a => st.values.toFinset ∩ t.getCandidates a)]
    congr 1
    funext b
    split
    · ext x
      have := @hc b x
      simp only [Finset.mem_sdiff, Finset.mem_inter, Sudoku.getCandidates]
      tauto
    · rfl
  · rw [Except.ok.injEq] at h
    subst h
    rw [foldl_remove st.affected (fun a => s.getCandidates a \ st.values.toFinset),
      foldl_remove st.affected (fun a => t.getCandidates a \ st.values.toFinset)]
    congr 1
    funext b
    split
    · ext x
      have := @hc b x
      simp only [Finset.mem_sdiff, Sudoku.getCandidates]
      tauto
    · rfl
  · split at h
    · exact absurd h (by simp)
    · rw [Except.ok.injEq] at h
      subst h
      rfl
  · rw [Except.ok.injEq] at h
    subst h
    rfl

/-- Nothing is added to the candidates by a true step that is no `CalculateCandidates`. -/
theorem apply_smaller {s : Sudoku} {st : Step} {g : Grid} (hs : Shape s.bw s.bh st) (hg : TrueOf g st)
    (hk : st.kind ≠ .calculateCandidates) (hc : Contains s g) (a : Cell) : (Step.apply s st).cand a ⊆ s.cand a := by
  rcases effect hs with ⟨b, hk', -⟩ | ⟨b, v, -, hb, e, truth, -⟩ | ⟨R, -, e, -, -⟩
  · exact absurd hk' hk
  · rw [e]
    intro x hx
    simp only at hx
    split at hx
    · rename_i h; subst h
      rw [Finset.mem_singleton] at hx
      rw [hx, ← truth g hg]
      exact hc.2 a hb
    · split at hx
      · exact (Finset.mem_sdiff.1 hx).1
      · exact hx
  · rw [e]
    exact Finset.sdiff_subset

end Solvers
