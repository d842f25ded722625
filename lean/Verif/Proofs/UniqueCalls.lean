import Verif.Model.UniqueCalls
import Verif.Proofs.CallsFactorial

set_option autoImplicit false

/-! # The search until the `k`-th solution -/

open Spec

namespace Dlx

section
variable {κ ρ : Type} [DecidableEq κ] [DecidableEq ρ]

theorem searchLoopK_spec {recN : Dict κ (List ρ) → List ρ → Except PyErr (List (List ρ) × Dict κ (List ρ) × Nat)}
    {recK : Nat → Dict κ (List ρ) → List ρ → Except PyErr (List (List ρ) × Dict κ (List ρ) × Nat)} {Y : Dict ρ (List κ)}
    (hrec : ∀ k X sol a X' n, 1 ≤ k → recN X sol = .ok (a, X', n) → ∃ X'' m, recK k X sol = .ok (a.take k, X'', m) ∧
      (a.length < k → X'' = X' ∧ m = n) ∧ m + (a.length - k) ≤ n ∧ a.length ≤ n) (rs : List ρ) :
    ∀ k X sol a X' n, 1 ≤ k → searchLoopN recN Y rs X sol = .ok (a, X', n) → ∃ X'' m, searchLoopK recK Y rs k X sol = .ok (a.take k, X'', m) ∧
      (a.length < k → X'' = X' ∧ m = n) ∧ m + (a.length - k) ≤ n ∧ a.length ≤ n := by
  induction rs with
  | nil =>
    intro k X sol a X' n _ e
    cases e
    exact ⟨X, 0, by simp [searchLoopK], fun _ => ⟨rfl, rfl⟩, by simp, by simp⟩
  | cons r rs ih =>
    intro k X sol a X' n hk e
    unfold searchLoopN at e
    unfold searchLoopK
    cases e1 : select X Y r with
    | error x => rw [e1] at e; cases e
    | ok q =>
      obtain ⟨X1, st⟩ := q
      rw [e1] at e
      simp only at e ⊢
      cases e2 : recN X1 (sol ++ [r]) with
      | error x => rw [e2] at e; cases e
      | ok q =>
        obtain ⟨a1, X2, n1⟩ := q
        rw [e2] at e
        simp only at e
        obtain ⟨X2', m1, f1, f2, f3, f4⟩ := hrec k X1 _ _ _ _ hk e2
        rw [f1]
        simp only
        cases e3 : deselect X2 Y r st with
        | error x => rw [e3] at e; cases e
        | ok X3 =>
          rw [e3] at e
          simp only at e
          cases e4 : searchLoopN recN Y rs X3 sol with
          | error x => rw [e4] at e; cases e
          | ok q =>
            obtain ⟨a2, X4, n2⟩ := q
            rw [e4] at e
            cases e
            by_cases hlt : a1.length < k
            · obtain ⟨rfl, rfl⟩ := f2 hlt
              have ht : a1.take k = a1 := List.take_of_length_le (Nat.le_of_lt hlt)
              obtain ⟨X4', m2, g1, g2, g3, g4⟩ := ih (k - a1.length) X3 sol _ _ _ (by omega) e4
              rw [if_neg (by rw [ht]; omega), e3, ht]
              simp only
              rw [g1]
              simp only
              refine ⟨X4', m1 + m2, ?_, fun hl => ?_, ?_, ?_⟩
              · rw [List.take_append, ht]
              · rw [List.length_append] at hl
                obtain ⟨rfl, rfl⟩ := g2 (by omega)
                exact ⟨rfl, rfl⟩
              · rw [List.length_append]; omega
              · rw [List.length_append]; omega
            · obtain ⟨-, -, -, -, -, g4⟩ := ih k X3 sol _ _ _ hk e4
              rw [if_pos (by rw [List.length_take]; omega)]
              refine ⟨X2', m1, ?_, fun hl => ?_, ?_, ?_⟩
              · rw [List.take_append_of_le_length (by omega)]
              · rw [List.length_append] at hl; omega
              · rw [List.length_append]; omega
              · rw [List.length_append]; omega

theorem searchK_spec (π : OrdersOf κ ρ) (Y : Dict ρ (List κ)) (fuel : Nat) : ∀ k X sol a X' n, 1 ≤ k → searchN π Y fuel X sol = .ok (a, X', n) →
    ∃ X'' m, searchK π Y fuel k X sol = .ok (a.take k, X'', m) ∧
      (a.length < k → X'' = X' ∧ m = n) ∧ m + (a.length - k) ≤ n ∧ a.length ≤ n := by
  induction fuel with
  | zero => intro k X sol a X' n _ e; cases e
  | succ fuel ih =>
    intro k X sol a X' n hk e
    unfold searchN at e
    unfold searchK
    cases hmin : minKey X (π.keys sol (X.map Prod.fst)) with
    | none =>
      rw [hmin] at e
      cases e
      refine ⟨X, 1, ?_, fun _ => ⟨rfl, rfl⟩, by simp; omega, by simp⟩
      rw [List.take_of_length_le (by simpa using hk)]
    | some c =>
      rw [hmin] at e
      simp only at e ⊢
      cases e1 : Dict.get X c with
      | error x => rw [e1] at e; cases e
      | ok rs =>
        rw [e1] at e
        simp only at e ⊢
        cases e2 : searchLoopN (searchN π Y fuel) Y (π.rows sol rs) X sol with
        | error x => rw [e2] at e; cases e
        | ok q =>
          obtain ⟨a1, X1, n1⟩ := q
          rw [e2] at e
          cases e
          obtain ⟨X2, m, f1, f2, f3, f4⟩ := searchLoopK_spec ih (π.rows sol rs) k X sol _ _ _ hk e2
          rw [f1]
          refine ⟨X2, m + 1, rfl, fun hl => ?_, by omega, by omega⟩
          obtain ⟨rfl, rfl⟩ := f2 hl
          exact ⟨rfl, rfl⟩

end

namespace Cover

variable {κ ρ : Type} [DecidableEq κ] [DecidableEq ρ] {K : List κ} {L : List ρ} {f : ρ → List κ}

theorem searchLoopK_deep {recN : Dict κ (List ρ) → List ρ → Except PyErr (List (List ρ) × Dict κ (List ρ) × Nat)}
    {recK : Nat → Dict κ (List ρ) → List ρ → Except PyErr (List (List ρ) × Dict κ (List ρ) × Nat)} {D : Finset κ} {k : Nat} (hk : 1 ≤ k)
    (hrec : ∀ r X1 sol, r ∈ L → (∀ x ∈ f r, x ∉ D) → Rep K L f X1 (D ∪ (f r).toFinset) → recK k X1 sol = recN X1 sol ∧
      ∀ a X2 n, recN X1 sol = .ok (a, X2, n) → a = [] ∧ Rep K L f X2 (D ∪ (f r).toFinset)) (rs : List ρ) :
    ∀ X sol, Rep K L f X D → (∀ r ∈ rs, r ∈ L ∧ ∀ x ∈ f r, x ∉ D) →
      searchLoopK recK (table L f) rs k X sol = searchLoopN recN (table L f) rs X sol ∧
      ∀ a X2 n, searchLoopN recN (table L f) rs X sol = .ok (a, X2, n) → a = [] := by
  induction rs with
  | nil =>
    intro X sol h _
    refine ⟨rfl, fun a X2 n e => ?_⟩
    cases e
    rfl
  | cons r rs ih =>
    intro X sol h hall
    obtain ⟨hr, hd⟩ := hall r (by simp)
    obtain ⟨X1, st, e1, r1, s1⟩ := select_ok h hr hd
    obtain ⟨q1, q2⟩ := hrec r X1 (sol ++ [r]) hr hd r1
    unfold searchLoopK searchLoopN
    rw [e1]
    simp only
    rw [q1]
    cases e2 : recN X1 (sol ++ [r]) with
    | error x => exact ⟨rfl, fun a X2 n e => by (cases e)⟩
    | ok q =>
      obtain ⟨a1, X2, n1⟩ := q
      obtain ⟨rfl, r2⟩ := q2 _ _ _ e2
      obtain ⟨X3, e3, r3⟩ := deselect_ok r2 hr hd s1
      simp only [List.length_nil]
      rw [if_neg (by omega), e3]
      simp only [Nat.sub_zero]
      obtain ⟨i1, i2⟩ := ih X3 sol r3 (fun x hx => hall x (by simp [hx]))
      rw [i1]
      cases e4 : searchLoopN recN (table L f) rs X3 sol with
      | error x => exact ⟨rfl, fun a X2 n e => by (cases e)⟩
      | ok q =>
        obtain ⟨a2, X4, n2⟩ := q
        refine ⟨rfl, fun a X2 n e => ?_⟩
        cases e
        rw [i2 _ _ _ e4]
        rfl

/-- If too few levels of recursion are left for any solution, the search until the `k`-th solution does the same as the whole one. -/
theorem searchK_deep {π : OrdersOf κ ρ} (hπ : π.Ok) {m : Nat} (hm : 0 < m) (hf : ∀ r ∈ L, (f r).length ≤ m) {k : Nat} (hk : 1 ≤ k) (fuel : Nat) :
    ∀ (D : Finset κ) (X : Dict κ (List ρ)) (sol : List ρ), Rep K L f X D → m * fuel ≤ (K.toFinset \ D).card →
      searchK π (table L f) fuel k X sol = searchN π (table L f) fuel X sol ∧
      ∀ a X2 n, searchN π (table L f) fuel X sol = .ok (a, X2, n) → a = [] := by
  induction fuel with
  | zero => intro D X sol _ _; exact ⟨rfl, fun a X2 n e => by (cases e)⟩
  | succ fuel ih =>
    intro D X sol h hcard
    unfold searchK searchN
    rw [Nat.mul_succ] at hcard
    cases hmin : minKey X (π.keys sol (X.map Prod.fst)) with
    | none =>
      exfalso
      rw [minKey_none] at hmin
      have hkeys : X.map Prod.fst = [] := List.perm_nil.1 ((hπ.1 sol _).symm.trans (by rw [hmin]))
      have : (K.toFinset \ D).card = 0 := by
        rw [Finset.card_eq_zero, Finset.eq_empty_iff_forall_notMem]
        intro c hc
        rw [Finset.mem_sdiff, List.mem_toFinset] at hc
        obtain ⟨rs, hrs⟩ := h.key hc.1 hc.2
        have := (lookup_isSome_iff c X).1 ⟨rs, hrs⟩
        rw [hkeys] at this
        cases this
      omega
    | some c =>
      have hc : c ∈ X.map Prod.fst := (hπ.1 sol _).mem_iff.1 (minKey_mem X _ c hmin)
      obtain ⟨rs, hrs⟩ := (lookup_isSome_iff c X).2 hc
      have hmem := h.mem c rs hrs
      have hall : ∀ r ∈ π.rows sol rs, r ∈ L ∧ ∀ x ∈ f r, x ∉ D := fun r hr => by
        have := (hmem r).1 ((hπ.2 sol rs).mem_iff.1 hr)
        exact ⟨this.1, this.2.2⟩
      simp only [get_ok hrs]
      obtain ⟨q1, q2⟩ := searchLoopK_deep (K := K) (L := L) (f := f) (D := D) (recN := searchN π (table L f) fuel)
        (recK := searchK π (table L f) fuel) hk (fun r X1 sol' hr hd r1 => by
          obtain ⟨p1, p2⟩ := ih _ X1 sol' r1 (by
            have h1 : (K.toFinset \ D).card ≤ (K.toFinset \ (D ∪ (f r).toFinset)).card + (f r).toFinset.card := by
              refine Nat.le_trans (Finset.card_le_card (t := (K.toFinset \ (D ∪ (f r).toFinset)) ∪ (f r).toFinset) fun x hx => ?_) (Finset.card_union_le _ _)
              simp only [Finset.mem_sdiff, Finset.mem_union, List.mem_toFinset] at hx ⊢
              tauto
            have h2 := List.toFinset_card_le (f r)
            have h3 := hf r hr
            omega)
          exact ⟨p1, fun a X2 n e => ⟨p2 a X2 n e, (searchN_count hπ fuel _ X1 sol' a X2 n r1 e).1⟩⟩) (π.rows sol rs) X sol h hall
      rw [q1]
      cases e : searchLoopN (searchN π (table L f) fuel) (table L f) (π.rows sol rs) X sol with
      | error x => exact ⟨rfl, fun a X2 n e' => by (cases e')⟩
      | ok q =>
        obtain ⟨a1, X1, n1⟩ := q
        refine ⟨rfl, fun a X2 n e' => ?_⟩
        cases e'
        exact q2 _ _ _ e

end Cover

/-- If the whole search fails, so does that until the second solution. -/
theorem isUniqueN_error {π : Orders} (hπ : π.Ok) {fuel : Nat} {s : Sudoku} {e : PyErr} (h : dlx π fuel s = .error e) : isUniqueN π fuel s = .error e := by
  unfold dlx at h
  unfold isUniqueN
  simp only at h ⊢
  obtain ⟨X, e0, r⟩ := exactCover_ok (R := s.copy.bh) (C := s.copy.bw)
  rw [e0] at h ⊢
  simp only at h ⊢
  rcases selectGiven_spec s.copy s.copy.cells X ∅ r with ⟨hok, X1, e1, r1⟩ | ⟨hno, e1⟩
  · rw [e1] at h ⊢
    simp only at h ⊢
    rcases search_spec hπ fuel _ X1 [] r1 with ⟨⟨_, _, e2, -⟩, -⟩ | ⟨e2, hc⟩
    · rw [e2] at h
      cases h
    · rw [e2] at h
      cases h
      have h1 := (Cover.searchK_deep (K := columns (s.copy.bh * s.copy.bw)) (L := rows (s.copy.bh * s.copy.bw)) (f := colsOf s.copy.bh s.copy.bw) hπ
        (m := 4) (by omega) (fun r _ => Nat.le_refl 4) (k := 2) (by omega) fuel _ X1 [] r1 hc).1
      have h2 := searchN_same π (matrix s.copy.bh s.copy.bw) fuel X1 []
      rw [e2] at h2
      have h3 : searchK π (matrix s.copy.bh s.copy.bw) fuel 2 X1 [] = searchN π (matrix s.copy.bh s.copy.bw) fuel X1 [] := h1
      rw [h3]
      cases e3 : searchN π (matrix s.copy.bh s.copy.bw) fuel X1 [] with
      | error x => rw [e3] at h2; cases h2; rfl
      | ok q => rw [e3] at h2; cases h2
  · rw [e1] at h
    cases h

theorem isUniqueN_spec {π : Orders} {fuel : Nat} {s : Sudoku} {sols : List Sudoku} {n : Nat} (h : dlxN π fuel s = .ok (sols, n)) :
    ∃ m, isUniqueN π fuel s = .ok (decide (sols.length = 1), m) ∧ (sols.length < 2 → m = n) ∧ m + (sols.length - 2) ≤ n := by
  unfold dlxN at h
  unfold isUniqueN
  simp only at h ⊢
  cases e : exactCover (columns (s.copy.bh * s.copy.bw)) (matrix s.copy.bh s.copy.bw) with
  | error x => rw [e] at h; cases h
  | ok X =>
    rw [e] at h
    simp only at h ⊢
    cases e1 : selectGiven s.copy (matrix s.copy.bh s.copy.bw) s.copy.cells X with
    | error x => rw [e1] at h; cases h
    | ok o =>
      cases o with
      | none =>
        rw [e1] at h
        cases h
        exact ⟨0, rfl, fun _ => rfl, by simp⟩
      | some X1 =>
        rw [e1] at h
        simp only at h ⊢
        cases e2 : searchN π (matrix s.copy.bh s.copy.bw) fuel X1 [] with
        | error x => rw [e2] at h; cases h
        | ok q =>
          obtain ⟨a, X', n'⟩ := q
          rw [e2] at h
          cases h
          obtain ⟨X2, m, f1, f2, f3, -⟩ := searchK_spec π _ fuel 2 X1 [] a X' n (by omega) e2
          rw [f1, length_writeSolutions]
          refine ⟨m, ?_, fun hl => (f2 hl).2, f3⟩
          match a with
          | [] => rfl
          | [_] => rfl
          | _ :: _ :: _ => simp

end Dlx
