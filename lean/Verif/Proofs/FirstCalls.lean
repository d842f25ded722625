import Verif.Proofs.FirstSolutions

set_option autoImplicit false

/-! # The search never goes deeper than the number of its calls -/

open Spec

namespace Dlx

section
variable {κ ρ : Type} [DecidableEq κ] [DecidableEq ρ]

theorem searchLoopK_shallow {rec rec' : Nat → Dict κ (List ρ) → List ρ → Except PyErr (List (List ρ) × Dict κ (List ρ) × Nat)} {Y : Dict ρ (List κ)} {f : Nat}
    (hrec : ∀ k X sol a X' m, rec k X sol = .ok (a, X', m) → m ≤ f → rec' k X sol = .ok (a, X', m)) (rs : List ρ) :
    ∀ k X sol a X' m, searchLoopK rec Y rs k X sol = .ok (a, X', m) → m ≤ f → searchLoopK rec' Y rs k X sol = .ok (a, X', m) := by
  induction rs with
  | nil => intro k X sol a X' m e _; exact e
  | cons r rs ih =>
    intro k X sol a X' m e hm
    unfold searchLoopK at e ⊢
    cases e1 : select X Y r with
    | error x => rw [e1] at e; cases e
    | ok q =>
      obtain ⟨X1, st⟩ := q
      rw [e1] at e
      simp only at e ⊢
      cases e2 : rec k X1 (sol ++ [r]) with
      | error x => rw [e2] at e; cases e
      | ok q =>
        obtain ⟨a1, X2, n1⟩ := q
        rw [e2] at e
        simp only at e
        by_cases hl : a1.length = k
        · rw [if_pos hl] at e
          cases e
          rw [hrec _ _ _ _ _ _ e2 hm]
          simp only
          rw [if_pos hl]
        · rw [if_neg hl] at e
          cases e3 : deselect X2 Y r st with
          | error x => rw [e3] at e; cases e
          | ok X3 =>
            rw [e3] at e
            simp only at e
            cases e4 : searchLoopK rec Y rs (k - a1.length) X3 sol with
            | error x => rw [e4] at e; cases e
            | ok q =>
              obtain ⟨a2, X4, n2⟩ := q
              rw [e4] at e
              cases e
              rw [hrec _ _ _ _ _ _ e2 (by omega)]
              simp only
              rw [if_neg hl, e3]
              simp only
              rw [ih _ _ _ _ _ _ e4 (by omega)]

theorem searchK_shallow (π : OrdersOf κ ρ) (Y : Dict ρ (List κ)) (fuel : Nat) : ∀ fuel' k X sol a X' m, searchK π Y fuel k X sol = .ok (a, X', m) →
    m ≤ fuel' → searchK π Y fuel' k X sol = .ok (a, X', m) := by
  induction fuel with
  | zero => intro fuel' k X sol a X' m e; cases e
  | succ fuel ih =>
    intro fuel' k X sol a X' m e hm
    unfold searchK at e
    cases hmin : minKey X (π.keys sol (X.map Prod.fst)) with
    | none =>
      rw [hmin] at e
      cases e
      cases fuel' with
      | zero => omega
      | succ f => unfold searchK; rw [hmin]
    | some c =>
      rw [hmin] at e
      simp only at e
      cases e1 : Dict.get X c with
      | error x => rw [e1] at e; cases e
      | ok rs =>
        rw [e1] at e
        simp only at e
        cases e2 : searchLoopK (searchK π Y fuel) Y (π.rows sol rs) k X sol with
        | error x => rw [e2] at e; cases e
        | ok q =>
          obtain ⟨a1, X1, n1⟩ := q
          rw [e2] at e
          cases e
          cases fuel' with
          | zero => omega
          | succ f =>
            unfold searchK
            rw [hmin]
            simp only
            rw [e1]
            simp only
            rw [searchLoopK_shallow (rec := searchK π Y fuel) (rec' := searchK π Y f) (f := f) (fun k X sol a X' m e h => ih f k X sol a X' m e h) _ _ _ _ _ _ _ e2
              (by omega)]

end

theorem dlxK_shallow {π : Orders} {fuel fuel' k : Nat} {s : Sudoku} {sols : List Sudoku} {m : Nat} (h : dlxK π fuel k s = .ok (sols, m)) (hm : m ≤ fuel') :
    dlxK π fuel' k s = .ok (sols, m) := by
  unfold dlxK at h ⊢
  simp only at h ⊢
  cases e : exactCover (columns (s.copy.bh * s.copy.bw)) (matrix s.copy.bh s.copy.bw) with
  | error x => rw [e] at h; cases h
  | ok X =>
    rw [e] at h
    simp only at h ⊢
    cases e1 : selectGiven s.copy (matrix s.copy.bh s.copy.bw) s.copy.cells X with
    | error x => rw [e1] at h; cases h
    | ok o =>
      cases o with
      | none => rw [e1] at h; exact h
      | some X1 =>
        rw [e1] at h
        simp only at h ⊢
        cases e2 : searchK π (matrix s.copy.bh s.copy.bw) fuel k X1 [] with
        | error x => rw [e2] at h; cases h
        | ok q =>
          obtain ⟨a, X', n⟩ := q
          rw [e2] at h
          cases h
          rw [searchK_shallow π _ fuel fuel' k X1 [] a X' m e2 hm]

end Dlx

namespace Solve

theorem bfLoopK_shallow {rec rec' : Nat → List (Cell × Int) → Sudoku → Option (List Sudoku × Sudoku × Nat)} {path : List (Cell × Int)} {a : Cell} {f : Nat}
    (hrec : ∀ k p s b s' m, rec k p s = some (b, s', m) → m ≤ f → rec' k p s = some (b, s', m)) (cs : List Int) :
    ∀ k s b s' m, bfLoopK rec path a cs k s = some (b, s', m) → m ≤ f → bfLoopK rec' path a cs k s = some (b, s', m) := by
  induction cs with
  | nil => intro k s b s' m e _; exact e
  | cons c cs ih =>
    intro k s b s' m e hm
    unfold bfLoopK at e ⊢
    simp only at e ⊢
    cases e2 : rec k ((a, c) :: path) (saveAndRemove c ((s.setNumber a c).surroundingOf a false) (s.setNumber a c) [(a, (s.setNumber a c).getCandidates a)]).1 with
    | none => rw [e2] at e; cases e
    | some q =>
      obtain ⟨a1, s1, n1⟩ := q
      rw [e2] at e
      simp only at e
      by_cases hl : a1.length = k
      · rw [if_pos hl] at e
        cases e
        rw [hrec _ _ _ _ _ _ e2 hm]
        simp only
        rw [if_pos hl]
      · rw [if_neg hl] at e
        cases e4 : bfLoopK rec path a cs (k - a1.length) ((restore s1 (saveAndRemove c ((s.setNumber a c).surroundingOf a false) (s.setNumber a c)
            [(a, (s.setNumber a c).getCandidates a)]).2).setNumber a 0) with
        | none => rw [e4] at e; cases e
        | some q =>
          obtain ⟨a2, s2, n2⟩ := q
          rw [e4] at e
          cases e
          rw [hrec _ _ _ _ _ _ e2 (by omega)]
          simp only
          rw [if_neg hl, ih _ _ _ _ _ e4 (by omega)]

theorem doBruteforceK_shallow (π : SetOrder) (fuel : Nat) : ∀ fuel' k path s b s' m, doBruteforceK π fuel k path s = some (b, s', m) → m ≤ fuel' →
    doBruteforceK π fuel' k path s = some (b, s', m) := by
  induction fuel with
  | zero => intro fuel' k path s b s' m e; cases e
  | succ fuel ih =>
    intro fuel' k path s b s' m e hm
    unfold doBruteforceK at e
    cases hp : pickEmpty s with
    | none =>
      rw [hp] at e
      cases e
      cases fuel' with
      | zero => omega
      | succ f => unfold doBruteforceK; rw [hp]
    | some a =>
      rw [hp] at e
      simp only at e
      cases e2 : bfLoopK (doBruteforceK π fuel) path a (π path (s.getCandidates a)) k s with
      | none => rw [e2] at e; cases e
      | some q =>
        obtain ⟨a1, s1, n1⟩ := q
        rw [e2] at e
        cases e
        cases fuel' with
        | zero => omega
        | succ f =>
          unfold doBruteforceK
          rw [hp]
          simp only
          rw [bfLoopK_shallow (rec := doBruteforceK π fuel) (rec' := doBruteforceK π f) (f := f) (fun k p s b s' m e h => ih f k p s b s' m e h) _ _ _ _ _ _ e2
            (by omega)]

theorem bruteforceK_shallow {π : SetOrder} {fuel fuel' k : Nat} {s : Sudoku} {sols : List Sudoku} {m : Nat} (h : bruteforceK π fuel k s = some (sols, m))
    (hm : m ≤ fuel') : bruteforceK π fuel' k s = some (sols, m) := by
  unfold bruteforceK at h ⊢
  by_cases hc : hasConflict s = true
  · rw [if_pos hc] at h ⊢; exact h
  · rw [if_neg hc] at h ⊢
    simp only at h ⊢
    cases e : doBruteforceK π fuel k [] (initCandidates s.copy) with
    | none => rw [e] at h; cases h
    | some q =>
      obtain ⟨a, s1, n⟩ := q
      rw [e] at h
      cases h
      rw [doBruteforceK_shallow π fuel fuel' k [] _ a s1 n e hm]
      rfl

end Solve
