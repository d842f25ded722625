import Verif.Proofs.Commute
import Verif.Props.StepObjects

set_option autoImplicit false

/-!
# Hints in any order (C29, C96)

The result of applying hints does not depend on the order.
-/

open Spec Solvers

namespace Props

private theorem hint_ok {s : Sudoku} {g : Grid} (hg : Contains s g) {π : Orders Watch} (hπ : π.Ok) {st : Step}
    (hst : ∃ t, (t, st) ∈ (hints Prod.fst (watch leave) π (s, [])).2) : Shape s.bw s.bh st ∧ TrueOf g st ∧ st.kind ≠ .calculateCandidates := by
  obtain ⟨t, ht⟩ := hst
  have h := (watch_hints (Solvers.keeps_leave g) hπ s hg _ ht).1
  have hsh := Useful.shape h.useful
  rw [h.bw, h.bh] at hsh
  refine ⟨hsh, h.truth, fun hk => ?_⟩
  obtain ⟨hin, hu⟩ := h.useful
  simp only [hk] at hu
  obtain ⟨a, -, e, h0, -⟩ := hu
  have hc := h.cons.2 a (hin a (by rw [e]; simp))
  rw [h0] at hc
  simp at hc

/-- **C29** If the candidates contain a solution, hints applied in another order, or repeatedly, give the same numbers and the same candidates. -/
theorem C29_same (s : Sudoku) (g : Grid) (hg : Contains s g) (π : Orders Watch) (hπ : π.Ok) (l l' : List Step)
    (hl : ∀ st ∈ l, ∃ t, (t, st) ∈ (hints Prod.fst (watch leave) π (s, [])).2) (hm : ∀ st, st ∈ l ↔ st ∈ l') :
    l.foldl Step.apply s = l'.foldl Step.apply s :=
  steps_same hg (fun st h => hint_ok hg hπ (hl st h)) hm

/-- **C96** Likewise for the step objects, which build their actions when they are applied first. -/
theorem C96_same (s : Sudoku) (g : Grid) (hg : Contains s g) (π : Orders Watch) (hπ : π.Ok) (st : Nat → Step)
    (hst : ∀ i, ∃ t, (t, st i) ∈ (hints Prod.fst (watch leave) π (s, [])).2) (l l' : List Nat) (hm : ∀ i, i ∈ l ↔ i ∈ l') :
    ∃ os os' ss ss', useObjs (l.map fun i => (i, 0)) (fun i => { step := st i }) (fun _ => s) = .ok (os, ss) ∧
      useObjs (l'.map fun i => (i, 0)) (fun i => { step := st i }) (fun _ => s) = .ok (os', ss') ∧ ss 0 = ss' 0 := by
  obtain ⟨os, ss, h1, h2, -⟩ := C96_hints s g hg π hπ st hst l
  obtain ⟨os', ss', h1', h2', -⟩ := C96_hints s g hg π hπ st hst l'
  refine ⟨os, os', ss, ss', h1, h1', ?_⟩
  rw [h2, h2']
  have h := C29_same s g hg π hπ (l.map st) (l'.map st)
    (fun x hx => by
      obtain ⟨i, -, rfl⟩ := List.mem_map.1 hx
      exact hst i)
    (fun x => by simp only [List.mem_map, hm])
  rwa [List.foldl_map, List.foldl_map] at h

/-- Two fields of a row with `1` as only candidate; all others have all candidates. -/
def twoOnes : Sudoku :=
  ((List.range 4).foldl (fun s r => (List.range 4).foldl (fun s c => s.setCandidates (r, c) {1, 2, 3, 4}) s) (Sudoku.new 2 2)
    |>.setCandidates (0, 0) {1}).setCandidates (0, 1) {1}

/-- **C29** If they contain no solution, the order can matter: both fields get the number `1`, and the field filled last keeps its candidate. -/
theorem C29_wrong_candidates :
    let x := Step.mk' .nakedSingle [(0, 0)] [(0, 0)] [1]
    let y := Step.mk' .nakedSingle [(0, 1)] [(0, 1)] [1]
    (∀ st ∈ [x, y], st ∈ (hints Prod.fst (watch leave) (plainWatch Watch) (twoOnes, [])).2.map Prod.snd) ∧
      ([x, y].foldl Step.apply twoOnes).getCandidates (0, 0) = ∅ ∧ ([y, x].foldl Step.apply twoOnes).getCandidates (0, 0) = {1} := by
  decide +kernel

/-- The nine hints of `exNakedTuple`, forwards and backwards. -/
example : Contains exNakedTuple solved4.get ∧
    (let hs := (hints Prod.fst (watch leave) (plainWatch Watch) (exNakedTuple, [])).2.map Prod.snd
    hs.length = 9 ∧ (hs.foldl Step.apply exNakedTuple).getCandidates (0, 2) = {3, 4} ∧
      (hs.reverse.foldl Step.apply exNakedTuple).getCandidates (0, 2) = {3, 4} ∧ exNakedTuple.getCandidates (0, 2) ≠ {3, 4}) := by decide +kernel

end Props
