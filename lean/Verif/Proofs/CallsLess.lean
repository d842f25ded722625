import Verif.Proofs.CallsMore
import Mathlib.Algebra.BigOperators.Ring.Finset

set_option autoImplicit false

/-! # Upper bounds for the number of calls -/

open Spec

namespace Calls

/-- The size of a tree of depth `d` in which each node has `k` children. -/
def tree (k : Nat) : Nat → Nat
  | 0 => 1
  | d + 1 => 1 + k * tree k d

theorem tree_eq (k d : Nat) : tree k d = ∑ i ∈ Finset.range (d + 1), k ^ i := by
  induction d with
  | zero => rfl
  | succ d ih =>
    rw [tree, ih, Finset.mul_sum, Finset.sum_range_succ' _ (d + 1), Nat.pow_zero, Nat.add_comm]
    congr 1
    refine Finset.sum_congr rfl fun i _ => ?_
    rw [Nat.pow_succ, Nat.mul_comm]

theorem tree_pos (k d : Nat) : 1 ≤ tree k d := by
  cases d with
  | zero => exact Nat.le_refl 1
  | succ d => exact Nat.le_add_right _ _

/-- At most `k` numbers fit in each empty field. -/
def AtMost (w h : Nat) (t : Grid) (k : Nat) : Prop := ∀ (a : Cell) (V : Finset Int), (∀ v ∈ V, Fits w h t a v) → V.card ≤ k

end Calls

namespace Dlx

namespace Cover

variable {κ ρ : Type} [DecidableEq κ] [DecidableEq ρ] {K : List κ} {L : List ρ} {f : ρ → List κ}

/-- An invariant of the search: `d` rows at most can be chosen further, and some column that is not covered has at most `B` rows. -/
structure Slim (K : List κ) (L : List ρ) (f : ρ → List κ) (B : Nat) (I : Nat → Finset κ → Prop) : Prop where
  step : ∀ d D r, I d D → r ∈ L → (∀ k ∈ f r, k ∉ D) → ∃ d', d = d' + 1 ∧ I d' (D ∪ (f r).toFinset)
  small : ∀ d D, I d D → (∃ c ∈ K, c ∉ D) → ∃ c ∈ K, c ∉ D ∧ ∀ l : List ρ, l.Nodup → (∀ i ∈ l, i ∈ L ∧ c ∈ f i ∧ ∀ k ∈ f i, k ∉ D) → l.length ≤ B

theorem searchLoopN_less {rec : Dict κ (List ρ) → List ρ → Except PyErr (List (List ρ) × Dict κ (List ρ) × Nat)} {D : Finset κ} {b : Nat}
    (hrec : ∀ r X1 sol a X2 n, r ∈ L → (∀ k ∈ f r, k ∉ D) → Rep K L f X1 (D ∪ (f r).toFinset) → rec X1 sol = .ok (a, X2, n) →
      Rep K L f X2 (D ∪ (f r).toFinset) ∧ n ≤ b) (rs : List ρ) :
    ∀ X sol a X' n, Rep K L f X D → (∀ r ∈ rs, r ∈ L ∧ ∀ k ∈ f r, k ∉ D) → searchLoopN rec (table L f) rs X sol = .ok (a, X', n) →
      n ≤ rs.length * b := by
  induction rs with
  | nil =>
    intro X sol a X' n h _ e
    cases e
    exact Nat.zero_le _
  | cons r rs ih =>
    intro X sol a X' n h hall e
    obtain ⟨hr, hd⟩ := hall r (by simp)
    obtain ⟨X1, st, e1, r1, s1⟩ := select_ok h hr hd
    unfold searchLoopN at e
    rw [e1] at e
    simp only at e
    cases e2 : rec X1 (sol ++ [r]) with
    | error x => rw [e2] at e; cases e
    | ok q =>
      obtain ⟨sols, X2, n1⟩ := q
      rw [e2] at e
      simp only at e
      obtain ⟨r2, p2⟩ := hrec r X1 _ _ _ _ hr hd r1 e2
      obtain ⟨X3, e3, r3⟩ := deselect_ok r2 hr hd s1
      rw [e3] at e
      simp only at e
      cases e4 : searchLoopN rec (table L f) rs X3 sol with
      | error x => rw [e4] at e; cases e
      | ok q =>
        obtain ⟨sols', X4, n2⟩ := q
        rw [e4] at e
        cases e
        have h1 := ih X3 sol _ _ _ r3 (fun x hx => hall x (by simp [hx])) e4
        rw [List.length_cons, Nat.succ_mul]
        omega

theorem searchN_less {π : OrdersOf κ ρ} (hπ : π.Ok) {B : Nat} {I : Nat → Finset κ → Prop} (hI : Slim K L f B I) (fuel : Nat) :
    ∀ (d : Nat) (D : Finset κ) (X : Dict κ (List ρ)) (sol : List ρ) a X' n,
    I d D → Rep K L f X D → searchN π (table L f) fuel X sol = .ok (a, X', n) → n ≤ Calls.tree B d := by
  induction fuel with
  | zero => intro d D X sol a X' n _ _ e; cases e
  | succ fuel ih =>
    intro d D X sol a X' n hd h e
    unfold searchN at e
    cases hmin : minKey X (π.keys sol (X.map Prod.fst)) with
    | none =>
      rw [hmin] at e
      cases e
      exact Calls.tree_pos B d
    | some c =>
      rw [hmin] at e
      have hc : c ∈ X.map Prod.fst := (hπ.1 sol _).mem_iff.1 (minKey_mem X _ c hmin)
      obtain ⟨rs, hrs⟩ := (lookup_isSome_iff c X).2 hc
      obtain ⟨hcc, hcD⟩ := h.of_key hrs
      simp only [get_ok hrs] at e
      have hmem := h.mem c rs hrs
      have hall : ∀ r ∈ π.rows sol rs, r ∈ L ∧ ∀ k ∈ f r, k ∉ D := fun r hr => by
        have := (hmem r).1 ((hπ.2 sol rs).mem_iff.1 hr)
        exact ⟨this.1, this.2.2⟩
      have hlen : (π.rows sol rs).length ≤ B := by
        rw [(hπ.2 sol rs).length_eq]
        obtain ⟨c', h1, h2, h3⟩ := hI.small d D hd ⟨c, hcc, hcD⟩
        obtain ⟨rs', hrs'⟩ := h.key h1 h2
        have h4 := h3 rs' (h.nodup c' rs' hrs') (fun i hi => (h.mem c' rs' hrs' i).1 hi)
        have h5 := minKey_min X _ c hmin c' ((hπ.1 sol _).mem_iff.2 ((lookup_isSome_iff c' X).1 ⟨rs', hrs'⟩))
        rw [hrs, hrs'] at h5
        simp only [Option.getD_some] at h5
        omega
      cases e1 : searchLoopN (searchN π (table L f) fuel) (table L f) (π.rows sol rs) X sol with
      | error x => rw [e1] at e; cases e
      | ok q =>
        obtain ⟨sols, X2, m⟩ := q
        rw [e1] at e
        cases e
        cases d with
        | zero =>
          have hnil : π.rows sol rs = [] := by
            rw [List.eq_nil_iff_forall_not_mem]
            intro r hr
            obtain ⟨d', hd', -⟩ := hI.step 0 D r hd (hall r hr).1 (hall r hr).2
            omega
          rw [hnil] at e1
          cases e1
          exact Nat.le_refl 1
        | succ d =>
          have h1 := searchLoopN_less (K := K) (L := L) (f := f) (D := D) (b := Calls.tree B d)
            (fun r X1 sol a X2 n hr hk hX e => by
              obtain ⟨d', hd', h'⟩ := hI.step (d + 1) D r hd hr hk
              have : d' = d := by omega
              subst this
              exact ⟨(searchN_count hπ fuel _ X1 sol a X2 n hX e).1, ih d' _ X1 sol a X2 n h' hX e⟩) (π.rows sol rs) X sol _ _ _ h hall e1
          have h2 := Nat.mul_le_mul_right (Calls.tree B d) hlen
          rw [Calls.tree]
          omega

end Cover

theorem clueOk_spec {R C : Nat} (cl : List Row) : ∀ D, ClueOk R C D cl → (∀ i ∈ cl, i ∈ rows (R * C) ∧ ∀ j ∈ colsOf R C i, j ∉ D) ∧
    ∀ i ∈ cl, ∀ i' ∈ cl, ∀ j ∈ colsOf R C i, j ∈ colsOf R C i' → i = i' := by
  induction cl with
  | nil => intro D _; exact ⟨fun i hi => by (cases hi), fun i hi => by (cases hi)⟩
  | cons x cl ih =>
    intro D h
    obtain ⟨⟨h1, h2⟩, h3⟩ := h
    obtain ⟨h4, h5⟩ := ih _ h3
    have h6 : ∀ i ∈ cl, ∀ j ∈ colsOf R C i, j ∉ D ∧ j ∉ colsOf R C x := fun i hi j hj => by
      have := (h4 i hi).2 j hj
      rw [Finset.mem_union, List.mem_toFinset] at this
      exact not_or.1 this
    refine ⟨fun i hi => ?_, fun i hi i' hi' j hj hj' => ?_⟩
    · rcases List.mem_cons.1 hi with rfl | hi
      · exact ⟨h1, h2⟩
      · exact ⟨(h4 i hi).1, fun j hj => (h6 i hi j hj).1⟩
    · rcases List.mem_cons.1 hi with e | hm <;> rcases List.mem_cons.1 hi' with e' | hm'
      · rw [e, e']
      · rw [e] at hj; exact absurd hj (h6 i' hm' j hj').2
      · rw [e'] at hj'; exact absurd hj' (h6 i hm j hj).2
      · exact h5 i hm i' hm' j hj hj'

/-- The columns covered are those of some rows without common columns, the clues among them; `d` fields have no row. -/
def Partial (s : Sudoku) (d : Nat) (D : Finset Col) : Prop := ∃ S : Finset Row, (∀ i ∈ S, i ∈ rows (s.bh * s.bw)) ∧
  (∀ i ∈ S, ∀ i' ∈ S, ∀ j ∈ colsOf s.bh s.bw i, j ∈ colsOf s.bh s.bw i' → i = i') ∧
  (∀ j, j ∈ D ↔ ∃ i ∈ S, j ∈ colsOf s.bh s.bw i) ∧ (∀ i ∈ clues s s.cells, i ∈ S) ∧ S.card + d = s.len

theorem card_partial {s : Sudoku} {S : Finset Row} (h1 : ∀ i ∈ S, i ∈ rows (s.bh * s.bw))
    (h2 : ∀ i ∈ S, ∀ i' ∈ S, ∀ j ∈ colsOf s.bh s.bw i, j ∈ colsOf s.bh s.bw i' → i = i') : S.card ≤ s.len := by
  have hc : s.cells.toFinset.card = s.len := by
    rw [List.toFinset_card_of_nodup (Sudoku.nodup_cells s)]
    exact length_cells s
  rw [← hc]
  refine Finset.card_le_card_of_injOn (fun i : Row => ((i.1, i.2.1) : Cell)) (fun i hi => ?_) (fun i hi i' hi' e => ?_)
  · have := mem_rows.1 (h1 i hi)
    rw [Finset.mem_coe, List.mem_toFinset, Sudoku.mem_cells]
    exact inGrid_iff.2 ⟨this.1, this.2.1⟩
  · simp only [Prod.mk.injEq] at e
    exact h2 i hi i' hi' (.rc i.1 i.2.1) (by simp [colsOf]) (by rw [e.1, e.2]; simp [colsOf])

theorem slim (s : Sudoku) (k : Nat) (hk : Calls.AtMost s.bw s.bh s.num k) :
    Cover.Slim (columns (s.bh * s.bw)) (rows (s.bh * s.bw)) (colsOf s.bh s.bw) k (Partial s) := by
  constructor
  · rintro d D r ⟨S, h1, h2, h3, h4, h5⟩ hr hd
    have hrS : r ∉ S := fun h => hd (.rc r.1 r.2.1) (by simp [colsOf]) ((h3 _).2 ⟨r, h, by simp [colsOf]⟩)
    have hl : ∀ i ∈ insert r S, i ∈ rows (s.bh * s.bw) := by
      intro i hi
      rcases Finset.mem_insert.1 hi with rfl | hi
      · exact hr
      · exact h1 i hi
    have hu : ∀ i ∈ insert r S, ∀ i' ∈ insert r S, ∀ j ∈ colsOf s.bh s.bw i, j ∈ colsOf s.bh s.bw i' → i = i' := by
      intro i hi i' hi' j hj hj'
      rcases Finset.mem_insert.1 hi with e | hm <;> rcases Finset.mem_insert.1 hi' with e' | hm'
      · rw [e, e']
      · rw [e] at hj; exact absurd ((h3 j).2 ⟨i', hm', hj'⟩) (hd j hj)
      · rw [e'] at hj'; exact absurd ((h3 j).2 ⟨i, hm, hj⟩) (hd j hj')
      · exact h2 i hm i' hm' j hj hj'
    have hc := card_partial hl hu
    rw [Finset.card_insert_of_notMem hrS] at hc
    refine ⟨d - 1, by omega, insert r S, hl, hu, fun j => ?_, fun i hi => Finset.mem_insert_of_mem (h4 i hi), ?_⟩
    · rw [Finset.mem_union, List.mem_toFinset, h3]
      simp only [Finset.mem_insert, exists_eq_or_imp]
      exact or_comm
    · rw [Finset.card_insert_of_notMem hrS]
      omega
  · rintro d D ⟨S, h1, h2, h3, h4, h5⟩ ⟨c, hc, hcD⟩
    have hfield : ∃ a, InGrid s.bw s.bh a ∧ ∀ v, (a.1, a.2, v) ∉ S := by
      by_contra hno
      have hv : ∀ a, InGrid s.bw s.bh a → ∃ v, (a.1, a.2, v) ∈ S := by
        intro a ha
        by_contra hv
        exact hno ⟨a, ha, fun v hv' => hv ⟨v, hv'⟩⟩
      choose! g hg using hv
      have hcov := cover_of_grid (w := s.bw) (h := s.bh) (g := g)
        (fun a ha => isNumber_iff.2 (mem_rows.1 (h1 _ (hg a ha))).2.2)
        (fun a b ha hb hp h0 e => by
          have hab : ∀ j ∈ colsOf s.bh s.bw (a.1, a.2, g a), j ∈ colsOf s.bh s.bw (b.1, b.2, g b) → False := by
            intro j hj hj'
            have := h2 _ (hg a ha) _ (hg b hb) j hj hj'
            simp only [Prod.mk.injEq] at this
            exact hp.1 (Prod.ext this.1 this.2.1)
          rcases hp.2 with hs | hs | hs
          · exact hab (.rn a.1 (g a)) (by simp [colsOf]) (by
              have hs' : a.1 = b.1 := hs
              rw [hs', e]; simp [colsOf])
          · exact hab (.cn a.2 (g a)) (by simp [colsOf]) (by
              have hs' : a.2 = b.2 := hs
              rw [hs', e]; simp [colsOf])
          · exact hab (.bn (a.1 / s.bh * s.bh + a.2 / s.bw) (g a)) (by simp [colsOf]) (by
              rw [(box_iff ha hb).2 hs, e]; simp [colsOf]))
      obtain ⟨i, hi, hj⟩ := hcov.ex c hc (by simp)
      obtain ⟨hi1, hi2⟩ := mem_gridRows.1 hi
      refine hcD ((h3 c).2 ⟨i, ?_, hj⟩)
      have := hg _ hi1
      rw [← hi2] at this
      exact this
    obtain ⟨a, ha, hv⟩ := hfield
    refine ⟨.rc a.1 a.2, mem_columns.2 (inGrid_iff.1 ha), fun hD => ?_, fun l hl hm => ?_⟩
    · obtain ⟨i, hi, hj⟩ := (h3 _).1 hD
      simp only [mem_colsOf, Col.rc.injEq, reduceCtorEq, or_false] at hj
      refine hv i.2.2 ?_
      rw [hj.1, hj.2]
      exact hi
    · have hia : ∀ i ∈ l, i = (a.1, a.2, i.2.2) := by
        intro i hi
        have := (hm i hi).2.1
        simp only [mem_colsOf, Col.rc.injEq, reduceCtorEq, or_false] at this
        rw [this.1, this.2]
      have hnd : (l.map fun i => i.2.2).Nodup := by
        refine (List.nodup_map_iff_inj_on hl).2 fun i hi i' hi' e => ?_
        rw [hia i hi, hia i' hi', e]
      have := hk a (l.map fun i => i.2.2).toFinset (fun v hv' => by
        obtain ⟨i, hi, rfl⟩ := List.mem_map.1 (List.mem_toFinset.1 hv')
        have hf := (fits_iff (w := s.bw) (h := s.bh) (t := s.num) (i := i)).1 ⟨(hm i hi).1, fun j hj hT => ?_⟩
        · rw [show a = (i.1, i.2.1) by rw [hia i hi]]
          exact hf
        · obtain ⟨b, hb, h0, hjb⟩ := hT
          exact (hm i hi).2.2 j hj ((h3 j).2 ⟨_, h4 _ (mem_clues.2 ⟨hb, h0, rfl⟩), hjb⟩))
      rwa [List.toFinset_card_of_nodup hnd, List.length_map] at this

theorem dlxN_less {π : Orders} (hπ : π.Ok) {fuel : Nat} {s : Sudoku} {sols : List Sudoku} {n k : Nat}
    (hk : Calls.AtMost s.bw s.bh s.num k) (h : dlxN π fuel s = .ok (sols, n)) : n ≤ Calls.tree k s.empty.length := by
  have hk' : Calls.AtMost s.copy.bw s.copy.bh s.copy.num k := by
    intro a V hV
    refine hk a V fun v hv => ?_
    obtain ⟨f1, f2, f3, f4⟩ := hV v hv
    rw [copy_bw, copy_bh] at f1 f3
    have hnum : ∀ b, InGrid s.bw s.bh b → s.copy.num b = s.num b := fun b hb => by rw [Sudoku.copy_eq]; simp [hb]
    refine ⟨f1, by rw [← hnum a f1]; exact f2, f3, fun b hb hp => ?_⟩
    rw [← hnum b hb]
    exact f4 b (by rw [copy_bw, copy_bh]; exact hb) (by rw [copy_bw, copy_bh]; exact hp)
  rw [← copy_empty]
  unfold dlxN at h
  simp only at h
  obtain ⟨X, e, r⟩ := exactCover_ok (R := s.copy.bh) (C := s.copy.bw)
  rw [e] at h
  simp only at h
  rcases selectGiven_spec s.copy s.copy.cells X ∅ r with ⟨hok, X1, e1, r1⟩ | ⟨hno, e1⟩
  · rw [e1] at h
    simp only at h
    cases e2 : searchN π (matrix s.copy.bh s.copy.bw) fuel X1 [] with
    | error x => rw [e2] at h; cases h
    | ok q =>
      obtain ⟨a, X', m⟩ := q
      rw [e2] at h
      cases h
      obtain ⟨c1, c2⟩ := clueOk_spec _ _ hok
      refine Cover.searchN_less hπ (slim s.copy k hk') fuel _ _ _ _ _ _ _ ⟨(clues s.copy s.copy.cells).toFinset, ?_, ?_, ?_, ?_, ?_⟩ r1 e2
      · exact fun i hi => (c1 i (List.mem_toFinset.1 hi)).1
      · exact fun i hi i' hi' => c2 i (List.mem_toFinset.1 hi) i' (List.mem_toFinset.1 hi')
      · intro j
        rw [mem_allCols]
        simp
      · exact fun i hi => List.mem_toFinset.2 hi
      · rw [List.toFinset_card_of_nodup (clues_nodup s.copy)]
        exact length_clues s.copy
  · rw [e1] at h
    cases h
    exact Nat.zero_le _

end Dlx

namespace Solve

theorem bfLoopN_less {rec : List (Cell × Int) → Sudoku → Option (List Sudoku × Sudoku × Nat)} {path : List (Cell × Int)} {a : Cell}
    {s : Sudoku} (ha : InGrid s.bw s.bh a) (h0 : s.num a = 0) {b : Nat} (cs : List Int) :
    (∀ c ∈ cs, ∀ sols s' n, rec ((a, c) :: path) (place s a c) = some (sols, s', n) → s' = place s a c ∧ n ≤ b) →
    ∀ sols s' n, bfLoopN rec path a cs s = some (sols, s', n) → n ≤ cs.length * b := by
  induction cs with
  | nil =>
    intro _ sols s' n e
    cases e
    exact Nat.zero_le _
  | cons c cs ih =>
    intro hrec sols s' n e
    rw [bfLoopN_cons ha h0 (fun sols s' n h => (hrec c (by simp) sols s' n h).1)] at e
    cases e1 : rec ((a, c) :: path) (place s a c) with
    | none => rw [e1] at e; cases e
    | some q =>
      obtain ⟨sols1, s1, n1⟩ := q
      rw [e1] at e
      simp only at e
      obtain ⟨-, p1⟩ := hrec c (by simp) _ _ _ e1
      cases e2 : bfLoopN rec path a cs s with
      | none => rw [e2] at e; cases e
      | some q =>
        obtain ⟨sols2, s2, n2⟩ := q
        rw [e2] at e
        cases e
        have q1 := ih (fun d hd => hrec d (by simp [hd])) _ _ _ e2
        rw [List.length_cons, Nat.succ_mul]
        omega

theorem atMost_place {s : Sudoku} {k : Nat} {a : Cell} {c : Int} (h0 : s.num a = 0) (hk : Calls.AtMost s.bw s.bh s.num k) :
    Calls.AtMost (place s a c).bw (place s a c).bh (place s a c).num k := by
  intro b V hV
  refine hk b V fun v hv => ?_
  obtain ⟨f1, f2, f3, f4⟩ := hV v hv
  have hnum : ∀ x, x ≠ a → (place s a c).num x = s.num x := fun x hx => by simp [place, hx]
  refine ⟨f1, ?_, f3, fun x hx hp e => ?_⟩
  · by_cases hb : b = a
    · rw [hb]; exact h0
    · rw [← hnum b hb]; exact f2
  · by_cases hxa : x = a
    · rw [hxa, h0] at e
      have := f3.1
      omega
    · exact f4 x hx hp (by rw [hnum x hxa]; exact e)

theorem doBruteforceN_less {π : SetOrder} (hπ : π.Ok) {k : Nat} (fuel : Nat) : ∀ (path : List (Cell × Int)) (s : Sudoku) sols s' n, Inv s →
    Calls.AtMost s.bw s.bh s.num k → doBruteforceN π fuel path s = some (sols, s', n) → n ≤ Calls.tree k s.empty.length := by
  induction fuel with
  | zero => intro path s sols s' n _ _ e; cases e
  | succ fuel ih =>
    intro path s sols s' n inv hk e
    unfold doBruteforceN at e
    cases hp : pickEmpty s with
    | none =>
      rw [hp] at e
      cases e
      exact Calls.tree_pos _ _
    | some a =>
      obtain ⟨ha, h0⟩ := pickEmpty_some hp
      rw [hp] at e
      simp only at e
      obtain ⟨pn, pm⟩ := hπ path (s.getCandidates a)
      cases e1 : bfLoopN (doBruteforceN π fuel) path a (π path (s.getCandidates a)) s with
      | none => rw [e1] at e; cases e
      | some q =>
        obtain ⟨sols1, s1, m⟩ := q
        rw [e1] at e
        cases e
        have hcand : ∀ c ∈ π path (s.getCandidates a), Fits s.bw s.bh s.num a c := by
          intro c hc
          have := (inv.cand a ha h0 c).1 ((pm c).1 hc)
          exact ⟨ha, h0, this.1, this.2⟩
        have hlen : (π path (s.getCandidates a)).length ≤ k := by
          rw [← List.toFinset_card_of_nodup pn]
          exact hk a _ fun v hv => hcand v (List.mem_toFinset.1 hv)
        have hmem : a ∈ s.empty := by
          simp only [Sudoku.empty, List.mem_filter, Sudoku.mem_cells, Sudoku.get, beq_iff_eq]
          exact ⟨ha, h0⟩
        obtain ⟨d, hd⟩ : ∃ d, s.empty.length = d + 1 := ⟨s.empty.length - 1, by have := List.length_pos_of_mem hmem; omega⟩
        have q1 := bfLoopN_less (rec := doBruteforceN π fuel) ha h0 (b := Calls.tree k d) _
          (fun c hc sols s' n h => by
            have hi := inv.place ha h0 ((pm c).1 hc)
            have hc0 : c ≠ 0 := by have := (hcand c hc).2.2.1.1; omega
            have h1 := ih _ _ _ _ _ hi (atMost_place h0 hk) h
            have h2 := empty_place ha h0 hc0
            rw [show (place s a c).empty.length = d by omega] at h1
            exact ⟨(doBruteforceN_count hπ fuel _ _ _ _ _ hi h).1, h1⟩) _ _ _ e1
        have h2 := Nat.mul_le_mul_right (Calls.tree k d) hlen
        rw [hd, Calls.tree]
        omega

theorem bruteforceN_less {π : SetOrder} (hπ : π.Ok) {fuel : Nat} {s : Sudoku} {sols : List Sudoku} {n k : Nat}
    (hk : Calls.AtMost s.bw s.bh s.num k) (h : bruteforceN π fuel s = some (sols, n)) : n ≤ Calls.tree k s.empty.length := by
  unfold bruteforceN at h
  by_cases hs : NoConflict s.bw s.bh s.num
  swap
  · rw [if_pos (by rw [hasConflict_iff]; exact hs)] at h
    cases h
    exact Nat.zero_le _
  rw [if_neg (by rw [hasConflict_iff, not_not]; exact hs)] at h
  simp only at h
  cases e : doBruteforceN π fuel [] (initCandidates s.copy) with
  | none => rw [e] at h; cases h
  | some q =>
    obtain ⟨sols1, s1, m⟩ := q
    rw [e] at h
    cases h
    have hw : (initCandidates s.copy).bw = s.bw := by rw [initCandidates_eq, Sudoku.copy_eq]
    have hh : (initCandidates s.copy).bh = s.bh := by rw [initCandidates_eq, Sudoku.copy_eq]
    have he : ∀ a, InGrid s.bw s.bh a → (initCandidates s.copy).num a = s.num a := by
      intro a ha
      rw [initCandidates_eq, Sudoku.copy_eq]; simp [ha]
    have hemp : (initCandidates s.copy).empty = s.empty := by
      have hcells : (initCandidates s.copy).cells = s.cells := by rw [initCandidates_eq, Sudoku.copy_eq]; rfl
      unfold Sudoku.empty
      rw [hcells]
      refine List.filter_congr fun a ha => ?_
      have := he a ((Sudoku.mem_cells s).1 ha)
      simp [Sudoku.get, this]
    have := doBruteforceN_less hπ (k := k) fuel _ _ _ _ _ (inv_init hs) (by
      rw [hw, hh]
      intro a V hV
      refine hk a V fun v hv => ?_
      obtain ⟨f1, f2, f3, f4⟩ := hV v hv
      exact ⟨f1, by rw [← he a f1]; exact f2, f3, fun b hb hp => by rw [← he b hb]; exact f4 b hb hp⟩) e
    rwa [hemp] at this

end Solve
