import Verif.Proofs.CallsGrid
import Verif.Proofs.CallsBrute

set_option autoImplicit false

/-! # The number of calls and the number of solutions -/

open Spec

namespace Dlx

namespace Cover

variable {κ ρ : Type} [DecidableEq κ] [DecidableEq ρ] {K : List κ} {L : List ρ} {f : ρ → List κ}

/-- The number of calls `n`, if `m` solutions are found. -/
def More (K : List κ) (L : List ρ) (f : ρ → List κ) (D : Finset κ) (m n : Nat) : Prop :=
  m ≤ n ∧ ∀ T, IsCover K L f D T → T.card + m ≤ n

theorem searchLoopN_more {rec : Dict κ (List ρ) → List ρ → Except PyErr (List (List ρ) × Dict κ (List ρ) × Nat)} {D : Finset κ}
    (hrec : ∀ r X1 sol a X2 n, r ∈ L → (∀ k ∈ f r, k ∉ D) → Rep K L f X1 (D ∪ (f r).toFinset) → rec X1 sol = .ok (a, X2, n) →
      Rep K L f X2 (D ∪ (f r).toFinset) ∧ More K L f (D ∪ (f r).toFinset) a.length n) (rs : List ρ) :
    ∀ X sol a X' n, Rep K L f X D → (∀ r ∈ rs, r ∈ L ∧ ∀ k ∈ f r, k ∉ D) → searchLoopN rec (table L f) rs X sol = .ok (a, X', n) →
      a.length ≤ n ∧ ∀ r ∈ rs, ∀ T, IsCover K L f (D ∪ (f r).toFinset) T → T.card + a.length ≤ n := by
  induction rs with
  | nil =>
    intro X sol a X' n h _ e
    cases e
    exact ⟨Nat.le_refl 0, fun r hr => by cases hr⟩
  | cons r rs ih =>
    intro X sol a X' n h hall e
    obtain ⟨hr, hd⟩ := hall r (by simp)
    obtain ⟨X1, st, e1, r1, s1⟩ := select_ok h hr hd
    unfold searchLoopN at e
    rw [e1] at e
    simp only at e
    cases e2 : rec X1 (sol ++ [r]) with
    | error x => rw [e2] at e; cases e
    | ok q =>
      obtain ⟨sols, X2, n1⟩ := q
      rw [e2] at e
      simp only at e
      obtain ⟨r2, p2⟩ := hrec r X1 _ _ _ _ hr hd r1 e2
      obtain ⟨X3, e3, r3⟩ := deselect_ok r2 hr hd s1
      rw [e3] at e
      simp only at e
      cases e4 : searchLoopN rec (table L f) rs X3 sol with
      | error x => rw [e4] at e; cases e
      | ok q =>
        obtain ⟨sols', X4, n2⟩ := q
        rw [e4] at e
        cases e
        obtain ⟨h1, h2⟩ := ih X3 sol _ _ _ r3 (fun x hx => hall x (by simp [hx])) e4
        have h3 := p2.1
        rw [List.length_append]
        refine ⟨by omega, fun x hx T hT => ?_⟩
        rcases List.mem_cons.1 hx with rfl | hx
        · have := p2.2 T hT
          omega
        · have := h2 x hx T hT
          omega

theorem searchN_more {π : OrdersOf κ ρ} (hπ : π.Ok) (fuel : Nat) : ∀ (D : Finset κ) (X : Dict κ (List ρ)) (sol : List ρ) a X' n,
    Rep K L f X D → searchN π (table L f) fuel X sol = .ok (a, X', n) → More K L f D a.length n := by
  induction fuel with
  | zero => intro D X sol a X' n _ e; cases e
  | succ fuel ih =>
    intro D X sol a X' n h e
    unfold searchN at e
    cases hmin : minKey X (π.keys sol (X.map Prod.fst)) with
    | none =>
      rw [hmin] at e
      cases e
      rw [minKey_none] at hmin
      have hkeys : X.map Prod.fst = [] := List.perm_nil.1 ((hπ.1 sol _).symm.trans (by rw [hmin]))
      refine ⟨Nat.le_refl 1, fun T hT => ?_⟩
      have : T = ∅ := by
        rw [Finset.eq_empty_iff_forall_notMem]
        intro i hi
        obtain ⟨j, hj⟩ := List.exists_mem_of_ne_nil _ (hT.ne i hi)
        refine hT.disj i hi j hj ?_
        by_contra hD
        obtain ⟨l, hl⟩ := h.key (h.good.sub i (hT.legal i hi) j hj) hD
        have := (lookup_isSome_iff j X).1 ⟨l, hl⟩
        rw [hkeys] at this; cases this
      rw [this]; simp
    | some c =>
      rw [hmin] at e
      have hc : c ∈ X.map Prod.fst := (hπ.1 sol _).mem_iff.1 (minKey_mem X _ c hmin)
      obtain ⟨rs, hrs⟩ := (lookup_isSome_iff c X).2 hc
      obtain ⟨hcc, hcD⟩ := h.of_key hrs
      simp only [get_ok hrs] at e
      have hmem := h.mem c rs hrs
      cases e1 : searchLoopN (searchN π (table L f) fuel) (table L f) (π.rows sol rs) X sol with
      | error x => rw [e1] at e; cases e
      | ok q =>
        obtain ⟨sols, X2, m⟩ := q
        rw [e1] at e
        cases e
        obtain ⟨h1, h2⟩ := searchLoopN_more (K := K) (L := L) (f := f) (D := D)
          (fun r X1 sol a X2 n _ _ hX e => ⟨(searchN_count hπ fuel _ X1 sol a X2 n hX e).1, ih _ X1 sol a X2 n hX e⟩) (π.rows sol rs) X sol _ _ _ h
          (fun r hr => by
            have := (hmem r).1 ((hπ.2 sol rs).mem_iff.1 hr)
            exact ⟨this.1, this.2.2⟩) e1
        refine ⟨by omega, fun T hT => ?_⟩
        obtain ⟨i, hi, hci⟩ := hT.ex c hcc hcD
        have h3 := h2 i ((hπ.2 sol rs).mem_iff.2 ((hmem i).2 ⟨hT.legal i hi, hci, hT.disj i hi⟩)) _ (hT.erase hi)
        rw [Finset.card_erase_of_mem hi] at h3
        have := Finset.card_pos.2 ⟨i, hi⟩
        omega

end Cover

theorem writeSolutions_length (sols : List (List Row)) : ∀ s, (writeSolutions sols s).length = sols.length := by
  induction sols with
  | nil => intro s; rfl
  | cons a l ih => intro s; simp [writeSolutions, ih]

theorem dlxN_more {π : Orders} (hπ : π.Ok) {fuel : Nat} {s : Sudoku} {sols : List Sudoku} {n : Nat}
    (h : dlxN π fuel s = .ok (sols, n)) : sols.length ≤ n ∧ ∀ g, IsSolution s.bw s.bh s.num g → s.empty.length + sols.length ≤ n := by
  have hc : sols.length ≤ n ∧ ∀ g, IsSolution s.copy.bw s.copy.bh s.copy.num g → s.copy.empty.length + sols.length ≤ n := by
    unfold dlxN at h
    simp only at h
    obtain ⟨X, e, r⟩ := exactCover_ok (R := s.copy.bh) (C := s.copy.bw)
    rw [e] at h
    simp only at h
    rcases selectGiven_spec s.copy s.copy.cells X ∅ r with ⟨hok, X1, e1, r1⟩ | ⟨hno, e1⟩
    · rw [e1] at h
      simp only at h
      cases e2 : searchN π (matrix s.copy.bh s.copy.bw) fuel X1 [] with
      | error x => rw [e2] at h; cases h
      | ok q =>
        obtain ⟨a, X', m⟩ := q
        rw [e2] at h
        cases h
        obtain ⟨h1, h2⟩ := Cover.searchN_more hπ fuel _ _ _ _ _ _ r1 e2
        rw [writeSolutions_length]
        refine ⟨h1, fun g hs => ?_⟩
        have hcl := clues_sub_gridRows.2 hs.keeps
        have hc := (cover_clues (R := s.copy.bh) (C := s.copy.bw) (clues s.copy s.copy.cells) ∅ (gridRows s.copy.bw s.copy.bh g) (clues_nodup s.copy)).1
          ⟨cover_of_grid hs.full hs.valid, hcl⟩
        have h3 := h2 _ hc.2.2
        rw [Finset.card_sdiff_of_subset (fun i hi => hcl i (List.mem_toFinset.1 hi)), card_gridRows,
          List.toFinset_card_of_nodup (clues_nodup s.copy)] at h3
        have := length_clues s.copy
        omega
    · rw [e1] at h
      cases h
      refine ⟨Nat.le_refl 0, fun g hs => ?_⟩
      have hcl := clues_sub_gridRows.2 hs.keeps
      exact absurd ((cover_clues (R := s.copy.bh) (C := s.copy.bw) (clues s.copy s.copy.cells) ∅ (gridRows s.copy.bw s.copy.bh g) (clues_nodup s.copy)).1
        ⟨cover_of_grid hs.full hs.valid, hcl⟩).1 hno
  refine ⟨hc.1, fun g hg => ?_⟩
  have := hc.2 g (by rw [copy_bw, copy_bh, solution_copy]; exact hg)
  rwa [copy_empty] at this

end Dlx

namespace Solve

theorem bfLoopN_more {rec : List (Cell × Int) → Sudoku → Option (List Sudoku × Sudoku × Nat)} {path : List (Cell × Int)} {a : Cell}
    {s : Sudoku} (ha : InGrid s.bw s.bh a) (h0 : s.num a = 0) {P : Int → Nat → Prop} (cs : List Int) :
    (∀ c ∈ cs, ∀ sols s' n, rec ((a, c) :: path) (place s a c) = some (sols, s', n) → s' = place s a c ∧ sols.length ≤ n ∧ ∀ d, P c d → d + sols.length ≤ n) →
    ∀ sols s' n, bfLoopN rec path a cs s = some (sols, s', n) → sols.length ≤ n ∧ ∀ c ∈ cs, ∀ d, P c d → d + sols.length ≤ n := by
  induction cs with
  | nil =>
    intro _ sols s' n e
    cases e
    exact ⟨Nat.le_refl 0, fun c hc => by cases hc⟩
  | cons c cs ih =>
    intro hrec sols s' n e
    rw [bfLoopN_cons ha h0 (fun sols s' n h => (hrec c (by simp) sols s' n h).1)] at e
    cases e1 : rec ((a, c) :: path) (place s a c) with
    | none => rw [e1] at e; cases e
    | some q =>
      obtain ⟨sols1, s1, n1⟩ := q
      rw [e1] at e
      simp only at e
      obtain ⟨-, p1, p2⟩ := hrec c (by simp) _ _ _ e1
      cases e2 : bfLoopN rec path a cs s with
      | none => rw [e2] at e; cases e
      | some q =>
        obtain ⟨sols2, s2, n2⟩ := q
        rw [e2] at e
        cases e
        obtain ⟨q1, q2⟩ := ih (fun d hd => hrec d (by simp [hd])) _ _ _ e2
        rw [List.length_append]
        refine ⟨by omega, fun x hx d hd => ?_⟩
        rcases List.mem_cons.1 hx with rfl | hx
        · have := p2 d hd
          omega
        · have := q2 x hx d hd
          omega

theorem doBruteforceN_more {π : SetOrder} (hπ : π.Ok) (fuel : Nat) : ∀ (path : List (Cell × Int)) (s : Sudoku) sols s' n, Inv s →
    doBruteforceN π fuel path s = some (sols, s', n) → sols.length ≤ n ∧ ∀ g, IsSolution s.bw s.bh s.num g → s.empty.length + sols.length ≤ n := by
  induction fuel with
  | zero => intro path s sols s' n _ e; cases e
  | succ fuel ih =>
    intro path s sols s' n inv e
    unfold doBruteforceN at e
    cases hp : pickEmpty s with
    | none =>
      rw [hp] at e
      cases e
      have hfull := (pickEmpty_none s).1 hp
      have hemp : s.empty = [] := by
        rw [List.eq_nil_iff_forall_not_mem]
        intro a ha
        simp only [Sudoku.empty, List.mem_filter, Sudoku.mem_cells, Sudoku.get, beq_iff_eq] at ha
        exact hfull a ha.1 ha.2
      exact ⟨Nat.le_refl 1, fun g hg => by rw [hemp]; simp⟩
    | some a =>
      obtain ⟨ha, h0⟩ := pickEmpty_some hp
      rw [hp] at e
      simp only at e
      obtain ⟨pn, pm⟩ := hπ path (s.getCandidates a)
      cases e1 : bfLoopN (doBruteforceN π fuel) path a (π path (s.getCandidates a)) s with
      | none => rw [e1] at e; cases e
      | some q =>
        obtain ⟨sols1, s1, m⟩ := q
        rw [e1] at e
        cases e
        obtain ⟨q1, q2⟩ := bfLoopN_more (rec := doBruteforceN π fuel) ha h0
          (P := fun c d => d = (place s a c).empty.length ∧ ∃ g, IsSolution s.bw s.bh (place s a c).num g) _
          (fun c hc sols s' n h => by
            have hi := inv.place ha h0 ((pm c).1 hc)
            obtain ⟨h1, h2⟩ := ih _ _ _ _ _ hi h
            refine ⟨(doBruteforceN_count hπ fuel _ _ _ _ _ hi h).1, h1, ?_⟩
            rintro d ⟨rfl, g, hg⟩
            exact h2 g hg) _ _ _ e1
        refine ⟨by omega, fun g hg => ?_⟩
        have hn := hg.full a ha
        have hg0 : g a ≠ 0 := by have := hn.1; omega
        have hk : IsSolution s.bw s.bh (place s a (g a)).num g := by
          refine ⟨fun b hb hb0 => ?_, hg.full, hg.valid⟩
          simp only [place] at hb0 ⊢
          split
          · rename_i e; rw [e]
          · rename_i e
            rw [if_neg e] at hb0
            exact hg.keeps b hb hb0
        have h1 : g a ∈ π path (s.getCandidates a) := by
          refine (pm _).2 ((inv.cand a ha h0 _).2 ⟨hn, fun b hb hp' e' => ?_⟩)
          have hb0 : s.num b ≠ 0 := by rw [e']; exact hg0
          exact hg.valid a b ha hb hp' hg0 (by rw [hg.keeps b hb hb0, e'])
        have h2 := empty_place ha h0 hg0
        have := q2 _ h1 _ ⟨rfl, g, hk⟩
        omega

theorem bruteforceN_more {π : SetOrder} (hπ : π.Ok) {fuel : Nat} {s : Sudoku} {sols : List Sudoku} {n : Nat}
    (h : bruteforceN π fuel s = some (sols, n)) : sols.length ≤ n ∧ ∀ g, IsSolution s.bw s.bh s.num g → s.empty.length + sols.length ≤ n := by
  unfold bruteforceN at h
  by_cases hs : NoConflict s.bw s.bh s.num
  swap
  · rw [if_pos (by rw [hasConflict_iff]; exact hs)] at h
    cases h
    refine ⟨Nat.le_refl 0, fun g hg => absurd (fun a b ha hb hp h0 e => ?_) hs⟩
    have ga := hg.keeps a ha h0
    have gb := hg.keeps b hb (by rw [← e]; exact h0)
    exact hg.valid a b ha hb hp (by rw [ga]; exact h0) (by rw [ga, gb]; exact e)
  rw [if_neg (by rw [hasConflict_iff, not_not]; exact hs)] at h
  simp only at h
  cases e : doBruteforceN π fuel [] (initCandidates s.copy) with
  | none => rw [e] at h; cases h
  | some q =>
    obtain ⟨sols1, s1, m⟩ := q
    rw [e] at h
    cases h
    obtain ⟨h1, h2⟩ := doBruteforceN_more hπ fuel _ _ _ _ _ (inv_init hs) e
    refine ⟨h1, fun g hg => ?_⟩
    have hw : (initCandidates s.copy).bw = s.bw := by rw [initCandidates_eq, Sudoku.copy_eq]
    have hh : (initCandidates s.copy).bh = s.bh := by rw [initCandidates_eq, Sudoku.copy_eq]
    have he : ∀ a, InGrid s.bw s.bh a → (initCandidates s.copy).num a = s.num a := by
      intro a ha
      rw [initCandidates_eq, Sudoku.copy_eq]; simp [ha]
    have hemp : (initCandidates s.copy).empty = s.empty := by
      have hcells : (initCandidates s.copy).cells = s.cells := by rw [initCandidates_eq, Sudoku.copy_eq]; rfl
      unfold Sudoku.empty
      rw [hcells]
      refine List.filter_congr fun a ha => ?_
      have := he a ((Sudoku.mem_cells s).1 ha)
      simp [Sudoku.get, this]
    have := h2 g (by
      rw [hw, hh]
      exact ⟨fun a ha h0 => by rw [he a ha] at h0 ⊢; exact hg.keeps a ha h0, hg.full, hg.valid⟩)
    rwa [hemp] at this

end Solve
