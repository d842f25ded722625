import Verif.Proofs.CallsLess
import Verif.Proofs.Units
import Mathlib.Algebra.BigOperators.Group.Finset.Basic
import Mathlib.Algebra.Order.BigOperators.Ring.Finset
import Mathlib.Data.Nat.Factorial.Basic

set_option autoImplicit false

/-! # Upper bounds for the number of calls by the numbers missing in the units -/

open Spec

namespace Calls

/-- The number of clues in the unit `u`. -/
def clueCount (w h : Nat) (t : Grid) (unit : Cell → Nat) (u : Nat) : Nat :=
  ((Finset.range (w * h) ×ˢ Finset.range (w * h)).filter fun a => t a ≠ 0 ∧ unit a = u).card

/-- Fields of the same unit are peers; there are the units `U`. -/
structure Units (w h : Nat) (unit : Cell → Nat) (U : Finset Nat) : Prop where
  mem : ∀ a, InGrid w h a → unit a ∈ U
  peer : ∀ a b, InGrid w h a → InGrid w h b → a ≠ b → unit a = unit b → Peer w h a b

/-- The product of the factorials of the numbers of missing numbers. -/
def weight (U : Finset Nat) (N : Nat) (c : Nat → Nat) : Nat := ∏ u ∈ U, Nat.factorial (N - c u)

theorem weight_pos (U : Finset Nat) (N : Nat) (c : Nat → Nat) : 1 ≤ weight U N c :=
  Finset.prod_pos fun _ _ => Nat.factorial_pos _

theorem weight_step {U : Finset Nat} {N : Nat} {c c' : Nat → Nat} {u : Nat} (hu : u ∈ U) (hlt : c u < N) (h1 : c' u = c u + 1)
    (h2 : ∀ x, x ≠ u → c' x = c x) : (N - c u) * weight U N c' = weight U N c := by
  unfold weight
  rw [← Finset.mul_prod_erase U _ hu, ← Finset.mul_prod_erase U (fun x => Nat.factorial (N - c x)) hu, h1, ← Nat.mul_assoc]
  congr 1
  · rw [← Nat.mul_factorial_pred (n := N - c u) (by omega)]
    congr 2
  · exact Finset.prod_congr rfl fun x hx => by rw [h2 x (Finset.ne_of_mem_erase hx)]

/-- Numbers different from `m` different ones between 1 and `N`: at most `N - m`. -/
theorem card_others {ι : Type} [DecidableEq ι] {N : Nat} {S : Finset ι} {g : ι → Int} {V : Finset Int} (h1 : ∀ i ∈ S, 1 ≤ g i ∧ g i ≤ N)
    (h2 : ∀ i ∈ S, ∀ j ∈ S, g i = g j → i = j) (h3 : ∀ v ∈ V, 1 ≤ v ∧ v ≤ N) (h4 : ∀ v ∈ V, ∀ i ∈ S, v ≠ g i) : V.card ≤ N - S.card := by
  have hi : (S.image g).card = S.card := Finset.card_image_of_injOn fun i hi j hj e => h2 i hi j hj e
  have hd : Disjoint V (S.image g) := by
    rw [Finset.disjoint_left]
    intro v hv hm
    obtain ⟨i, hi, e⟩ := Finset.mem_image.1 hm
    exact h4 v hv i hi e.symm
  have hs : V ∪ S.image g ⊆ Finset.Icc 1 (N : Int) := by
    intro v hv
    rcases Finset.mem_union.1 hv with hv | hv
    · exact Finset.mem_Icc.2 (h3 v hv)
    · obtain ⟨i, hi, rfl⟩ := Finset.mem_image.1 hv
      exact Finset.mem_Icc.2 (h1 i hi)
  have := Finset.card_le_card hs
  rw [Finset.card_union_of_disjoint hd, hi, Int.card_Icc] at this
  omega

end Calls

namespace Dlx

namespace Cover

variable {κ ρ : Type} [DecidableEq κ] [DecidableEq ρ] {K : List κ} {L : List ρ} {f : ρ → List κ}

/-- An invariant of the search: `d` rows at most can be chosen further, and the weight `F` is at least that of each row times the rows in some
column of it. -/
structure Weighed (K : List κ) (L : List ρ) (f : ρ → List κ) (I : Nat → Nat → Finset κ → Prop) : Prop where
  pos : ∀ d F D, I d F D → 1 ≤ F
  step : ∀ d F D r, I d F D → r ∈ L → (∀ k ∈ f r, k ∉ D) → ∃ d' F' c, d = d' + 1 ∧ I d' F' (D ∪ (f r).toFinset) ∧ c ∈ K ∧ c ∉ D ∧
    ∀ l : List ρ, l.Nodup → (∀ i ∈ l, i ∈ L ∧ c ∈ f i ∧ ∀ k ∈ f i, k ∉ D) → l.length * F' ≤ F

theorem searchLoopN_weighed {rec : Dict κ (List ρ) → List ρ → Except PyErr (List (List ρ) × Dict κ (List ρ) × Nat)} {D : Finset κ} {b F G : Nat}
    (rs : List ρ) (hrec : ∀ r X1 sol a X2 n, r ∈ rs → Rep K L f X1 (D ∪ (f r).toFinset) → rec X1 sol = .ok (a, X2, n) →
      Rep K L f X2 (D ∪ (f r).toFinset) ∧ b * a.length ≤ F ∧ b * n ≤ G) :
    ∀ X sol a X' n, Rep K L f X D → (∀ r ∈ rs, r ∈ L ∧ ∀ k ∈ f r, k ∉ D) → searchLoopN rec (table L f) rs X sol = .ok (a, X', n) →
      b * a.length ≤ rs.length * F ∧ b * n ≤ rs.length * G := by
  induction rs with
  | nil =>
    intro X sol a X' n h _ e
    cases e
    exact ⟨Nat.zero_le _, Nat.zero_le _⟩
  | cons r rs ih =>
    intro X sol a X' n h hall e
    obtain ⟨hr, hd⟩ := hall r (by simp)
    obtain ⟨X1, st, e1, r1, s1⟩ := select_ok h hr hd
    unfold searchLoopN at e
    rw [e1] at e
    simp only at e
    cases e2 : rec X1 (sol ++ [r]) with
    | error x => rw [e2] at e; cases e
    | ok q =>
      obtain ⟨sols, X2, n1⟩ := q
      rw [e2] at e
      simp only at e
      obtain ⟨r2, p1, p2⟩ := hrec r X1 _ _ _ _ (by simp) r1 e2
      obtain ⟨X3, e3, r3⟩ := deselect_ok r2 hr hd s1
      rw [e3] at e
      simp only at e
      cases e4 : searchLoopN rec (table L f) rs X3 sol with
      | error x => rw [e4] at e; cases e
      | ok q =>
        obtain ⟨sols', X4, n2⟩ := q
        rw [e4] at e
        cases e
        obtain ⟨h1, h2⟩ := ih (fun x X1 sol a X2 n hx => hrec x X1 sol a X2 n (by simp [hx])) X3 sol _ _ _ r3 (fun x hx => hall x (by simp [hx])) e4
        rw [List.length_cons, Nat.succ_mul, Nat.succ_mul, List.length_append, Nat.mul_add, Nat.mul_add]
        omega

theorem searchN_weighed {π : OrdersOf κ ρ} (hπ : π.Ok) {I : Nat → Nat → Finset κ → Prop} (hI : Weighed K L f I) (fuel : Nat) :
    ∀ (d F : Nat) (D : Finset κ) (X : Dict κ (List ρ)) (sol : List ρ) a X' n,
    I d F D → Rep K L f X D → searchN π (table L f) fuel X sol = .ok (a, X', n) → a.length ≤ F ∧ n ≤ (d + 1) * F := by
  induction fuel with
  | zero => intro d F D X sol a X' n _ _ e; cases e
  | succ fuel ih =>
    intro d F D X sol a X' n hd h e
    have hF := hI.pos d F D hd
    have hdF : 1 + d * F ≤ (d + 1) * F := by rw [Nat.succ_mul]; omega
    unfold searchN at e
    cases hmin : minKey X (π.keys sol (X.map Prod.fst)) with
    | none =>
      rw [hmin] at e
      cases e
      refine ⟨hF, ?_⟩
      have := Nat.zero_le (d * F)
      omega
    | some c =>
      rw [hmin] at e
      have hc : c ∈ X.map Prod.fst := (hπ.1 sol _).mem_iff.1 (minKey_mem X _ c hmin)
      obtain ⟨rs, hrs⟩ := (lookup_isSome_iff c X).2 hc
      simp only [get_ok hrs] at e
      have hmem := h.mem c rs hrs
      have hall : ∀ r ∈ π.rows sol rs, r ∈ L ∧ ∀ k ∈ f r, k ∉ D := fun r hr => by
        have := (hmem r).1 ((hπ.2 sol rs).mem_iff.1 hr)
        exact ⟨this.1, this.2.2⟩
      have hlen : (π.rows sol rs).length = rs.length := (hπ.2 sol rs).length_eq
      cases e1 : searchLoopN (searchN π (table L f) fuel) (table L f) (π.rows sol rs) X sol with
      | error x => rw [e1] at e; cases e
      | ok q =>
        obtain ⟨sols, X2, m⟩ := q
        rw [e1] at e
        cases e
        by_cases hnil : π.rows sol rs = []
        · rw [hnil] at e1
          cases e1
          refine ⟨Nat.zero_le _, ?_⟩
          have := Nat.zero_le (d * F)
          omega
        have hpos : 0 < rs.length := by rw [← hlen]; exact List.length_pos_iff.2 hnil
        obtain ⟨h1, h2⟩ := searchLoopN_weighed (K := K) (L := L) (f := f) (D := D) (b := rs.length) (F := F) (G := d * F) (π.rows sol rs)
          (fun r X1 sol' a X2 n hr hX e => by
            obtain ⟨d', F', c', hd', h', hc', hcD', hle⟩ := hI.step d F D r hd (hall r hr).1 (hall r hr).2
            obtain ⟨rs', hrs'⟩ := h.key hc' hcD'
            have h4 := hle rs' (h.nodup c' rs' hrs') (fun i hi => (h.mem c' rs' hrs' i).1 hi)
            have h5 := minKey_min X _ c hmin c' ((hπ.1 sol _).mem_iff.2 ((lookup_isSome_iff c' X).1 ⟨rs', hrs'⟩))
            rw [hrs, hrs'] at h5
            simp only [Option.getD_some] at h5
            have h6 : rs.length * F' ≤ F := Nat.le_trans (Nat.mul_le_mul_right F' h5) h4
            obtain ⟨i1, i2⟩ := ih d' F' _ X1 sol' a X2 n h' hX e
            refine ⟨(searchN_count hπ fuel _ X1 sol' a X2 n hX e).1, Nat.le_trans (Nat.mul_le_mul_left _ i1) h6, ?_⟩
            refine Nat.le_trans (Nat.mul_le_mul_left _ i2) ?_
            rw [hd', Nat.mul_left_comm]
            exact Nat.mul_le_mul_left _ h6) X sol _ _ _ h hall e1
        rw [hlen] at h1 h2
        have h3 := Nat.le_of_mul_le_mul_left h1 hpos
        have h4 := Nat.le_of_mul_le_mul_left h2 hpos
        exact ⟨h3, by omega⟩

end Cover

/-- The number of rows for fields of the unit `u`. -/
def rowCount (S : Finset Row) (unit : Cell → Nat) (u : Nat) : Nat := (S.filter fun i => unit (i.1, i.2.1) = u).card

/-- The columns covered are those of some rows without common columns; `d` fields have no row, and the weight is that of these rows. -/
def Weight (s : Sudoku) (unit : Cell → Nat) (U : Finset Nat) (d F : Nat) (D : Finset Col) : Prop := ∃ S : Finset Row,
  (∀ i ∈ S, i ∈ rows (s.bh * s.bw)) ∧ (∀ i ∈ S, ∀ i' ∈ S, ∀ j ∈ colsOf s.bh s.bw i, j ∈ colsOf s.bh s.bw i' → i = i') ∧
  (∀ j, j ∈ D ↔ ∃ i ∈ S, j ∈ colsOf s.bh s.bw i) ∧ S.card + d = s.len ∧ F = Calls.weight U (s.bw * s.bh) (rowCount S unit)

/-- Rows for fields of the same unit with the same number have a common column. -/
theorem common_col {s : Sudoku} {unit : Cell → Nat} {U : Finset Nat} (hU : Calls.Units s.bw s.bh unit U) {i i' : Row}
    (hi : i ∈ rows (s.bh * s.bw)) (hi' : i' ∈ rows (s.bh * s.bw)) (hu : unit (i.1, i.2.1) = unit (i'.1, i'.2.1)) (hv : i.2.2 = i'.2.2) :
    ∃ j ∈ colsOf s.bh s.bw i, j ∈ colsOf s.bh s.bw i' := by
  have ha : InGrid s.bw s.bh (i.1, i.2.1) := inGrid_iff.2 ⟨(mem_rows.1 hi).1, (mem_rows.1 hi).2.1⟩
  have hb : InGrid s.bw s.bh (i'.1, i'.2.1) := inGrid_iff.2 ⟨(mem_rows.1 hi').1, (mem_rows.1 hi').2.1⟩
  by_cases he : ((i.1, i.2.1) : Cell) = (i'.1, i'.2.1)
  · simp only [Prod.mk.injEq] at he
    exact ⟨.rc i.1 i.2.1, by simp [colsOf], by rw [he.1, he.2]; simp [colsOf]⟩
  · rcases (hU.peer _ _ ha hb he hu).2 with hs | hs | hs
    · have hs' : i.1 = i'.1 := hs
      exact ⟨.rn i.1 i.2.2, by simp [colsOf], by rw [hs', hv]; simp [colsOf]⟩
    · have hs' : i.2.1 = i'.2.1 := hs
      exact ⟨.cn i.2.1 i.2.2, by simp [colsOf], by rw [hs', hv]; simp [colsOf]⟩
    · refine ⟨.bn (i.1 / s.bh * s.bh + i.2.1 / s.bw) i.2.2, by simp [colsOf], ?_⟩
      rw [(box_iff ha hb).2 hs, hv]
      simp [colsOf]

theorem weighed (s : Sudoku) {unit : Cell → Nat} {U : Finset Nat} (hU : Calls.Units s.bw s.bh unit U) :
    Cover.Weighed (columns (s.bh * s.bw)) (rows (s.bh * s.bw)) (colsOf s.bh s.bw) (Weight s unit U) := by
  constructor
  · rintro d F D ⟨S, -, -, -, -, rfl⟩
    exact Calls.weight_pos _ _ _
  · rintro d F D r ⟨S, h1, h2, h3, h5, rfl⟩ hr hd
    have hrS : r ∉ S := fun h => hd (.rc r.1 r.2.1) (by simp [colsOf]) ((h3 _).2 ⟨r, h, by simp [colsOf]⟩)
    have hl : ∀ i ∈ insert r S, i ∈ rows (s.bh * s.bw) := by
      intro i hi
      rcases Finset.mem_insert.1 hi with rfl | hi
      · exact hr
      · exact h1 i hi
    have hu : ∀ i ∈ insert r S, ∀ i' ∈ insert r S, ∀ j ∈ colsOf s.bh s.bw i, j ∈ colsOf s.bh s.bw i' → i = i' := by
      intro i hi i' hi' j hj hj'
      rcases Finset.mem_insert.1 hi with e | hm <;> rcases Finset.mem_insert.1 hi' with e' | hm'
      · rw [e, e']
      · rw [e] at hj; exact absurd ((h3 j).2 ⟨i', hm', hj'⟩) (hd j hj)
      · rw [e'] at hj'; exact absurd ((h3 j).2 ⟨i, hm, hj⟩) (hd j hj')
      · exact h2 i hm i' hm' j hj hj'
    have hc := card_partial hl hu
    rw [Finset.card_insert_of_notMem hrS] at hc
    have hnum : ∀ i ∈ rows (s.bh * s.bw), 1 ≤ i.2.2 ∧ i.2.2 ≤ ((s.bw * s.bh : Nat) : Int) := fun i hi =>
      isNumber_iff.2 (mem_rows.1 hi).2.2
    have hrow : ∀ l : List Row, l.Nodup → (∀ i ∈ l, i ∈ rows (s.bh * s.bw) ∧ Col.rc r.1 r.2.1 ∈ colsOf s.bh s.bw i ∧
        ∀ k ∈ colsOf s.bh s.bw i, k ∉ D) → l.length ≤ s.bw * s.bh - rowCount S unit (unit (r.1, r.2.1)) := by
      intro l hnd hm
      have hia : ∀ i ∈ l, i = (r.1, r.2.1, i.2.2) := by
        intro i hi
        have := (hm i hi).2.1
        simp only [mem_colsOf, Col.rc.injEq, reduceCtorEq, or_false] at this
        rw [this.1, this.2]
      have hnd' : (l.map fun i => i.2.2).Nodup := by
        refine (List.nodup_map_iff_inj_on hnd).2 fun i hi i' hi' e => ?_
        rw [hia i hi, hia i' hi', e]
      have := Calls.card_others (N := s.bw * s.bh) (S := S.filter fun i => unit (i.1, i.2.1) = unit (r.1, r.2.1)) (g := fun i => i.2.2)
        (V := (l.map fun i => i.2.2).toFinset) (fun i hi => hnum i (h1 i (Finset.mem_filter.1 hi).1))
        (fun i hi i' hi' e => by
          obtain ⟨hi, hiu⟩ := Finset.mem_filter.1 hi
          obtain ⟨hi', hiu'⟩ := Finset.mem_filter.1 hi'
          obtain ⟨j, hj, hj'⟩ := common_col hU (h1 i hi) (h1 i' hi') (hiu.trans hiu'.symm) e
          exact h2 i hi i' hi' j hj hj')
        (fun v hv => by
          obtain ⟨i, hi, rfl⟩ := List.mem_map.1 (List.mem_toFinset.1 hv)
          exact hnum i (hm i hi).1)
        (fun v hv i' hi' e => by
          obtain ⟨i, hi, rfl⟩ := List.mem_map.1 (List.mem_toFinset.1 hv)
          obtain ⟨hi', hiu'⟩ := Finset.mem_filter.1 hi'
          have hiu : unit (i.1, i.2.1) = unit (r.1, r.2.1) := by rw [hia i hi]
          obtain ⟨j, hj, hj'⟩ := common_col hU (hm i hi).1 (h1 i' hi') (hiu.trans hiu'.symm) e
          exact (hm i hi).2.2 j hj ((h3 j).2 ⟨i', hi', hj'⟩))
      rwa [List.toFinset_card_of_nodup hnd', List.length_map] at this
    have hrg : InGrid s.bw s.bh (r.1, r.2.1) := inGrid_iff.2 ⟨(mem_rows.1 hr).1, (mem_rows.1 hr).2.1⟩
    have hone := hrow [r] (List.nodup_singleton r) (by
      intro i hi
      rw [List.mem_singleton.1 hi]
      exact ⟨hr, by simp [colsOf], hd⟩)
    rw [List.length_singleton] at hone
    have hw := Calls.weight_step (N := s.bw * s.bh) (c := rowCount S unit) (c' := rowCount (insert r S) unit) (hU.mem (r.1, r.2.1) hrg)
      (by omega) (by
        unfold rowCount
        rw [Finset.filter_insert, if_pos rfl, Finset.card_insert_of_notMem (fun h => hrS (Finset.mem_filter.1 h).1)])
      (fun x hx => by
        unfold rowCount
        rw [Finset.filter_insert, if_neg (fun e => hx e.symm)])
    refine ⟨d - 1, _, .rc r.1 r.2.1, by omega, ⟨insert r S, hl, hu, fun j => ?_, ?_, rfl⟩, mem_columns.2 (inGrid_iff.1 hrg),
      hd _ (by simp [colsOf]), fun l hnd hm => ?_⟩
    · rw [Finset.mem_union, List.mem_toFinset, h3]
      simp only [Finset.mem_insert, exists_eq_or_imp]
      exact or_comm
    · rw [Finset.card_insert_of_notMem hrS]
      omega
    · rw [← hw]
      exact Nat.mul_le_mul_right _ (hrow l hnd hm)

theorem rowCount_clues (s : Sudoku) (unit : Cell → Nat) (u : Nat) :
    rowCount (clues s.copy s.copy.cells).toFinset unit u = Calls.clueCount s.bw s.bh s.num unit u := by
  have hnum : ∀ b, InGrid s.bw s.bh b → s.copy.num b = s.num b := fun b hb => by rw [Sudoku.copy_eq]; simp [hb]
  unfold rowCount Calls.clueCount
  refine Finset.card_bij (fun i _ => (i.1, i.2.1)) (fun i hi => ?_) (fun i hi i' hi' e => ?_) (fun a ha => ?_)
  · obtain ⟨hi, hu⟩ := Finset.mem_filter.1 hi
    obtain ⟨ha, h0, e⟩ := mem_clues.1 (List.mem_toFinset.1 hi)
    rw [copy_bw, copy_bh] at ha
    rw [Finset.mem_filter, Finset.mem_product, Finset.mem_range, Finset.mem_range]
    exact ⟨ha, by rw [← hnum _ ha]; exact h0, hu⟩
  · obtain ⟨hi, -⟩ := Finset.mem_filter.1 hi
    obtain ⟨hi', -⟩ := Finset.mem_filter.1 hi'
    obtain ⟨-, -, e1⟩ := mem_clues.1 (List.mem_toFinset.1 hi)
    obtain ⟨-, -, e2⟩ := mem_clues.1 (List.mem_toFinset.1 hi')
    rw [e] at e1
    obtain ⟨i1, i2, i3⟩ := i
    obtain ⟨j1, j2, j3⟩ := i'
    simp only [Prod.mk.injEq] at e e1 e2 ⊢
    exact ⟨e.1, e.2, e1.trans e2.symm⟩
  · rw [Finset.mem_filter, Finset.mem_product, Finset.mem_range, Finset.mem_range] at ha
    obtain ⟨hg, h0, hu⟩ := ha
    refine ⟨(a.1, a.2, s.copy.num a), Finset.mem_filter.2 ⟨List.mem_toFinset.2 (mem_clues.2 ⟨?_, ?_, rfl⟩), hu⟩, rfl⟩
    · rw [copy_bw, copy_bh]; exact hg
    · rw [hnum a hg]; exact h0

theorem length_writeSolutions (sols : List (List Row)) (s : Sudoku) : (writeSolutions sols s).length = sols.length := by
  induction sols generalizing s with
  | nil => rfl
  | cons x sols ih => simp [writeSolutions, ih]

theorem dlxN_weighed {π : Orders} (hπ : π.Ok) {fuel : Nat} {s : Sudoku} {sols : List Sudoku} {n : Nat} {unit : Cell → Nat} {U : Finset Nat}
    (hU : Calls.Units s.bw s.bh unit U) (h : dlxN π fuel s = .ok (sols, n)) :
    sols.length ≤ Calls.weight U (s.bw * s.bh) (Calls.clueCount s.bw s.bh s.num unit) ∧
    n ≤ (s.empty.length + 1) * Calls.weight U (s.bw * s.bh) (Calls.clueCount s.bw s.bh s.num unit) := by
  rw [← copy_empty]
  unfold dlxN at h
  simp only at h
  obtain ⟨X, e, r⟩ := exactCover_ok (R := s.copy.bh) (C := s.copy.bw)
  rw [e] at h
  simp only at h
  rcases selectGiven_spec s.copy s.copy.cells X ∅ r with ⟨hok, X1, e1, r1⟩ | ⟨hno, e1⟩
  · rw [e1] at h
    simp only at h
    cases e2 : searchN π (matrix s.copy.bh s.copy.bw) fuel X1 [] with
    | error x => rw [e2] at h; cases h
    | ok q =>
      obtain ⟨a, X', m⟩ := q
      rw [e2] at h
      cases h
      obtain ⟨c1, c2⟩ := clueOk_spec _ _ hok
      rw [length_writeSolutions]
      refine Cover.searchN_weighed hπ (weighed s.copy (unit := unit) (U := U) (by rw [copy_bw, copy_bh]; exact hU)) fuel _ _ _ _ _ _ _ _
        ⟨(clues s.copy s.copy.cells).toFinset, ?_, ?_, ?_, ?_, ?_⟩ r1 e2
      · exact fun i hi => (c1 i (List.mem_toFinset.1 hi)).1
      · exact fun i hi i' hi' => c2 i (List.mem_toFinset.1 hi) i' (List.mem_toFinset.1 hi')
      · intro j
        rw [mem_allCols]
        simp
      · rw [List.toFinset_card_of_nodup (clues_nodup s.copy)]
        exact length_clues s.copy
      · rw [copy_bw, copy_bh, funext (rowCount_clues s unit)]
  · rw [e1] at h
    cases h
    exact ⟨Nat.zero_le _, Nat.zero_le _⟩

end Dlx

namespace Solve

theorem bfLoopN_weighed {rec : List (Cell × Int) → Sudoku → Option (List Sudoku × Sudoku × Nat)} {path : List (Cell × Int)} {a : Cell}
    {s : Sudoku} (ha : InGrid s.bw s.bh a) (h0 : s.num a = 0) {b G : Nat} (cs : List Int) :
    (∀ c ∈ cs, ∀ sols s' n, rec ((a, c) :: path) (place s a c) = some (sols, s', n) → s' = place s a c ∧ b * n ≤ G) →
    ∀ sols s' n, bfLoopN rec path a cs s = some (sols, s', n) → b * n ≤ cs.length * G := by
  induction cs with
  | nil =>
    intro _ sols s' n e
    cases e
    exact Nat.zero_le _
  | cons c cs ih =>
    intro hrec sols s' n e
    rw [bfLoopN_cons ha h0 (fun sols s' n h => (hrec c (by simp) sols s' n h).1)] at e
    cases e1 : rec ((a, c) :: path) (place s a c) with
    | none => rw [e1] at e; cases e
    | some q =>
      obtain ⟨sols1, s1, n1⟩ := q
      rw [e1] at e
      simp only at e
      obtain ⟨-, p1⟩ := hrec c (by simp) _ _ _ e1
      cases e2 : bfLoopN rec path a cs s with
      | none => rw [e2] at e; cases e
      | some q =>
        obtain ⟨sols2, s2, n2⟩ := q
        rw [e2] at e
        cases e
        have q1 := ih (fun d hd => hrec d (by simp [hd])) _ _ _ e2
        rw [List.length_cons, Nat.succ_mul, Nat.mul_add]
        omega

theorem clueCount_place {s : Sudoku} {a : Cell} {c : Int} (ha : InGrid s.bw s.bh a) (h0 : s.num a = 0) (hc : c ≠ 0) (unit : Cell → Nat) :
    Calls.clueCount s.bw s.bh (place s a c).num unit (unit a) = Calls.clueCount s.bw s.bh s.num unit (unit a) + 1 ∧
    ∀ x, x ≠ unit a → Calls.clueCount s.bw s.bh (place s a c).num unit x = Calls.clueCount s.bw s.bh s.num unit x := by
  have hnum : ∀ x, x ≠ a → (place s a c).num x = s.num x := fun x hx => by simp [place, hx]
  have hself : (place s a c).num a = c := by simp [place]
  constructor
  · unfold Calls.clueCount
    rw [← Finset.card_insert_of_notMem (a := a) (s := Finset.filter _ _) (fun h => (Finset.mem_filter.1 h).2.1 h0)]
    congr 1
    ext x
    rw [Finset.mem_filter, Finset.mem_insert, Finset.mem_filter]
    by_cases hx : x = a
    · rw [hx, hself]
      exact ⟨fun _ => Or.inl rfl, fun _ => ⟨Finset.mem_product.2 ⟨Finset.mem_range.2 ha.1, Finset.mem_range.2 ha.2⟩, hc, rfl⟩⟩
    · rw [hnum x hx]
      exact ⟨Or.inr, fun h => h.resolve_left hx⟩
  · intro u hu
    unfold Calls.clueCount
    congr 1
    refine Finset.filter_congr fun x _ => ?_
    by_cases hx : x = a
    · rw [hx]
      exact ⟨fun h => absurd h.2.symm hu, fun h => absurd h.2.symm hu⟩
    · rw [hnum x hx]

/-- All numbers of the grid are between 1 and `N`. -/
def Legal (s : Sudoku) : Prop := ∀ a, InGrid s.bw s.bh a → s.num a ≠ 0 → IsNumber s.bw s.bh (s.num a)

theorem doBruteforceN_weighed {π : SetOrder} (hπ : π.Ok) {unit : Cell → Nat} {U : Finset Nat} (fuel : Nat) :
    ∀ (path : List (Cell × Int)) (s : Sudoku) sols s' n, Inv s → Legal s → Calls.Units s.bw s.bh unit U →
    doBruteforceN π fuel path s = some (sols, s', n) →
    n ≤ (s.empty.length + 1) * Calls.weight U (s.bw * s.bh) (Calls.clueCount s.bw s.bh s.num unit) := by
  induction fuel with
  | zero => intro path s sols s' n _ _ _ e; cases e
  | succ fuel ih =>
    intro path s sols s' n inv hleg hU e
    have hF := Calls.weight_pos U (s.bw * s.bh) (Calls.clueCount s.bw s.bh s.num unit)
    unfold doBruteforceN at e
    cases hp : pickEmpty s with
    | none =>
      rw [hp] at e
      cases e
      exact Nat.mul_pos (Nat.succ_pos _) hF
    | some a =>
      obtain ⟨ha, h0⟩ := pickEmpty_some hp
      rw [hp] at e
      simp only at e
      obtain ⟨pn, pm⟩ := hπ path (s.getCandidates a)
      cases e1 : bfLoopN (doBruteforceN π fuel) path a (π path (s.getCandidates a)) s with
      | none => rw [e1] at e; cases e
      | some q =>
        obtain ⟨sols1, s1, m⟩ := q
        rw [e1] at e
        cases e
        by_cases hnil : π path (s.getCandidates a) = []
        · rw [hnil] at e1
          cases e1
          exact Nat.mul_pos (Nat.succ_pos _) hF
        have hpos := List.length_pos_iff.2 hnil
        have hcand : ∀ c ∈ π path (s.getCandidates a), Admissible s.bw s.bh s.num a c := fun c hc =>
          (inv.cand a ha h0 c).1 ((pm c).1 hc)
        have hin : ∀ x ∈ (Finset.range (s.bw * s.bh) ×ˢ Finset.range (s.bw * s.bh)).filter (fun x => s.num x ≠ 0 ∧ unit x = unit a),
            InGrid s.bw s.bh x ∧ s.num x ≠ 0 ∧ unit x = unit a := by
          intro x hx
          rw [Finset.mem_filter, Finset.mem_product, Finset.mem_range, Finset.mem_range] at hx
          exact hx
        have hlen : (π path (s.getCandidates a)).length ≤ s.bw * s.bh - Calls.clueCount s.bw s.bh s.num unit (unit a) := by
          rw [← List.toFinset_card_of_nodup pn]
          refine Calls.card_others (g := s.num) (fun x hx => ?_) (fun x hx y hy e => ?_) (fun v hv => ?_) (fun v hv x hx e => ?_)
          · obtain ⟨h1, h2, h3⟩ := hin x hx
            exact hleg x h1 h2
          · obtain ⟨h1, h2, h3⟩ := hin x hx
            obtain ⟨h4, h5, h6⟩ := hin y hy
            by_contra hne
            exact inv.ok x y h1 h4 (hU.peer x y h1 h4 hne (h3.trans h6.symm)) h2 e
          · exact (hcand v (List.mem_toFinset.1 hv)).1
          · obtain ⟨h1, h2, h3⟩ := hin x hx
            have hne : a ≠ x := by rintro rfl; exact h2 h0
            exact (hcand v (List.mem_toFinset.1 hv)).2 x h1 (hU.peer a x ha h1 hne h3.symm) e.symm
        have hmem : a ∈ s.empty := by
          simp only [Sudoku.empty, List.mem_filter, Sudoku.mem_cells, Sudoku.get, beq_iff_eq]
          exact ⟨ha, h0⟩
        obtain ⟨d, hd⟩ : ∃ d, s.empty.length = d + 1 := ⟨s.empty.length - 1, by have := List.length_pos_of_mem hmem; omega⟩
        have q1 := bfLoopN_weighed (rec := doBruteforceN π fuel) ha h0 (b := (π path (s.getCandidates a)).length)
          (G := (d + 1) * Calls.weight U (s.bw * s.bh) (Calls.clueCount s.bw s.bh s.num unit)) _
          (fun c hc sols s' n h => by
            have hi := inv.place ha h0 ((pm c).1 hc)
            have hc0 : c ≠ 0 := by have := (hcand c hc).1.1; omega
            have hl' : Legal (place s a c) := by
              intro x hx hx0
              by_cases hxa : x = a
              · have : (place s a c).num x = c := by simp [place, hxa]
                rw [this]
                exact (hcand c hc).1
              · have : (place s a c).num x = s.num x := by simp [place, hxa]
                rw [this] at hx0 ⊢
                exact hleg x hx hx0
            have h1 := ih _ _ _ _ _ hi hl' hU h
            have h2 := empty_place ha h0 hc0
            obtain ⟨k1, k2⟩ := clueCount_place ha h0 hc0 unit
            have hw := Calls.weight_step (N := s.bw * s.bh) (hU.mem a ha) (by omega) k1 k2
            rw [show (place s a c).empty.length = d by omega] at h1
            refine ⟨(doBruteforceN_count hπ fuel _ _ _ _ _ hi h).1, Nat.le_trans (Nat.mul_le_mul hlen h1) ?_⟩
            rw [Nat.mul_left_comm, ← hw]
            exact Nat.le_refl _) _ _ _ e1
        have h2 := Nat.le_of_mul_le_mul_left q1 hpos
        rw [hd, Nat.succ_mul]
        omega

theorem bruteforceN_weighed {π : SetOrder} (hπ : π.Ok) {fuel : Nat} {s : Sudoku} {sols : List Sudoku} {n : Nat} {unit : Cell → Nat}
    {U : Finset Nat} (hU : Calls.Units s.bw s.bh unit U) (hleg : Legal s) (h : bruteforceN π fuel s = some (sols, n)) :
    n ≤ (s.empty.length + 1) * Calls.weight U (s.bw * s.bh) (Calls.clueCount s.bw s.bh s.num unit) := by
  unfold bruteforceN at h
  by_cases hs : NoConflict s.bw s.bh s.num
  swap
  · rw [if_pos (by rw [hasConflict_iff]; exact hs)] at h
    cases h
    exact Nat.zero_le _
  rw [if_neg (by rw [hasConflict_iff, not_not]; exact hs)] at h
  simp only at h
  cases e : doBruteforceN π fuel [] (initCandidates s.copy) with
  | none => rw [e] at h; cases h
  | some q =>
    obtain ⟨sols1, s1, m⟩ := q
    rw [e] at h
    cases h
    have hw : (initCandidates s.copy).bw = s.bw := by rw [initCandidates_eq, Sudoku.copy_eq]
    have hh : (initCandidates s.copy).bh = s.bh := by rw [initCandidates_eq, Sudoku.copy_eq]
    have he : ∀ a, InGrid s.bw s.bh a → (initCandidates s.copy).num a = s.num a := by
      intro a ha
      rw [initCandidates_eq, Sudoku.copy_eq]; simp [ha]
    have hemp : (initCandidates s.copy).empty = s.empty := by
      have hcells : (initCandidates s.copy).cells = s.cells := by rw [initCandidates_eq, Sudoku.copy_eq]; rfl
      unfold Sudoku.empty
      rw [hcells]
      refine List.filter_congr fun a ha => ?_
      have := he a ((Sudoku.mem_cells s).1 ha)
      simp [Sudoku.get, this]
    have hcc : Calls.clueCount s.bw s.bh (initCandidates s.copy).num unit = Calls.clueCount s.bw s.bh s.num unit := by
      funext u
      unfold Calls.clueCount
      congr 1
      refine Finset.filter_congr fun x hx => ?_
      rw [Finset.mem_product, Finset.mem_range, Finset.mem_range] at hx
      rw [he x hx]
    have := doBruteforceN_weighed hπ (unit := unit) (U := U) fuel _ _ _ _ _ (inv_init hs) (by
      intro a ha h0
      rw [hw, hh] at ha ⊢
      rw [he a ha] at h0 ⊢
      exact hleg a ha h0) (by rw [hw, hh]; exact hU) e
    rwa [hemp, hw, hh, hcc] at this

end Solve
