import Verif.Proofs.UnitSurj
import Mathlib.Data.Nat.Bitwise

set_option autoImplicit false

/-!
# Sets of clues in small sudokus

All full grids of a size are listed, as lists of numbers below `N = w * h`, field after field (`grids`).  Where two of them differ is kept as
the bits of a number (`mask`).  Sets of clues are searched that meet all of these sets, or each of whose members is needed for that.
-/

open Spec

namespace Few

/-! ## Searches -/

/-- The places where two lists differ, as binary digits. -/
def mask : List Nat → List Nat → Nat
  | a :: l, b :: l' => Nat.add (Nat.mul 2 (mask l l')) (cond (Nat.beq a b) 0 1)
  | _, _ => 0

/-- The digit at place `i`. -/
def has (d i : Nat) : Bool := Nat.beq (Nat.land (Nat.shiftRight d i) 1) 1

theorem has_eq (d i : Nat) : has d i = d.testBit i := by
  have e : has d i = Nat.beq ((d >>> i) &&& 1) 1 := rfl
  rw [Bool.eq_iff_iff, e, Nat.testBit, Nat.and_comm 1, Nat.and_one_is_mod]
  constructor
  · intro h
    rw [Nat.eq_of_beq_eq_true h]
    rfl
  · intro h
    rcases Nat.mod_two_eq_zero_or_one (d >>> i) with h0 | h0
    · rw [h0] at h; cases h
    · rw [h0]; rfl

theorem has_mask {l l' : List Nat} (e : l.length = l'.length) (i : Nat) : has (mask l l') i = true ↔ l.getD i 0 ≠ l'.getD i 0 := by
  rw [has_eq]
  induction l generalizing l' i with
  | nil =>
    rw [List.length_nil] at e
    rw [List.length_eq_zero_iff.1 e.symm]
    simp [mask]
  | cons a l ih =>
    cases l' with
    | nil => simp at e
    | cons b l' =>
      have e' : mask (a :: l) (b :: l') = 2 * mask l l' + cond (Nat.beq a b) 0 1 := rfl
      cases i with
      | zero =>
        rw [e', Nat.testBit_zero, List.getD_cons_zero, List.getD_cons_zero]
        by_cases hab : a = b
        · have : Nat.beq a b = true := by rw [hab]; exact Nat.beq_refl _
          simp [hab]
        · have : Nat.beq a b = false := by
            rw [← Bool.not_eq_true]; exact fun h => hab (Nat.eq_of_beq_eq_true h)
          simp [this, hab]
      | succ i =>
        have : (2 * mask l l' + cond (Nat.beq a b) 0 1) / 2 = mask l l' := by
          cases Nat.beq a b
          · show (2 * mask l l' + 1) / 2 = _
            omega
          · show (2 * mask l l' + 0) / 2 = _
            omega
        rw [e', Nat.testBit_succ, this, List.getD_cons_succ, List.getD_cons_succ]
        exact ih (by simpa using e) i

/-- No set of at most `k` places meets all of `M`; the places of the first member are tried one after the other. -/
def noHit (n : Nat) : Nat → List Nat → Bool
  | _, [] => false
  | 0, _ :: _ => true
  | k + 1, d :: M => (List.range n).all fun i => !has d i || noHit n k ((d :: M).filter fun e => !has e i)

theorem noHit_spec {n : Nat} : ∀ (k : Nat) (M : List Nat), noHit n k M = true → ∀ F : List Nat, (∀ i ∈ F, i < n) → F.length ≤ k →
    ∃ d ∈ M, ∀ i ∈ F, has d i = false
  | _, [], h, _, _, _ => by simp [noHit] at h
  | 0, d :: M, _, F, _, hF => ⟨d, List.mem_cons_self, fun i hi => by
      rw [List.length_eq_zero_iff.1 (Nat.le_zero.1 hF)] at hi; cases hi⟩
  | k + 1, d :: M, h, F, hn, hF => by
    by_cases H : ∀ i ∈ F, has d i = false
    · exact ⟨d, List.mem_cons_self, H⟩
    · simp only [not_forall, Bool.not_eq_false] at H
      obtain ⟨i, hi, hd⟩ := H
      rw [noHit, List.all_eq_true] at h
      have h1 := h i (List.mem_range.2 (hn i hi))
      rw [hd, Bool.not_true, Bool.false_or] at h1
      obtain ⟨e, he, h2⟩ := noHit_spec k _ h1 (F.erase i) (fun j hj => hn j (List.mem_of_mem_erase hj))
        (by rw [List.length_erase_of_mem hi]; omega)
      rw [List.mem_filter] at he
      refine ⟨e, he.1, fun j hj => ?_⟩
      by_cases hji : j = i
      · rw [hji]; simpa using he.2
      · exact h2 j ((List.mem_erase_of_ne hji).2 hj)

/-- Sets of members of a family are kept as numbers, too; the list has for each place the set of members that contain it.  No `k` further
places from the list can be added such that each set of `priv` keeps a member without these places, and each place has a member of `rest` in
which it is the only one. -/
def noIrr : Nat → List Nat → List Nat → Nat → Bool
  | 0, _, _, _ => false
  | _ + 1, [], _, _ => true
  | k + 1, b :: l, priv, rest =>
    noIrr (k + 1) l priv rest &&
      (Nat.beq (Nat.land rest b) 0 || (priv.any fun p => Nat.beq (Nat.land p b) p) ||
        noIrr k l (Nat.land rest b :: priv.map fun p => Nat.xor p (Nat.land p b)) (Nat.xor rest (Nat.land rest b)))

theorem testBit_rest (p b j : Nat) : (Nat.xor p (Nat.land p b)).testBit j = (p.testBit j && !b.testBit j) := by
  show (p ^^^ (p &&& b)).testBit j = _
  rw [Nat.testBit_xor, Nat.testBit_and]
  cases p.testBit j <;> cases b.testBit j <;> rfl

theorem testBit_both (p b j : Nat) : (Nat.land p b).testBit j = (p.testBit j && b.testBit j) := Nat.testBit_and p b j

theorem noIrr_spec (B : Nat → Nat) : ∀ (k : Nat) (l : List Nat) (priv : List Nat) (rest : Nat), noIrr k (l.map B) priv rest = true →
    ∀ T : List Nat, T.Sublist l → l.Nodup → k ≤ T.length →
    (∀ p ∈ priv, ∃ j, p.testBit j = true ∧ ∀ i ∈ T, (B i).testBit j = false) →
    (∀ i ∈ T, ∃ j, rest.testBit j = true ∧ ∀ x ∈ T, (B x).testBit j = true ↔ x = i) → False
  | 0, _, _, _, h, _, _, _, _, _, _ => by simp [noIrr] at h
  | k + 1, [], _, _, _, T, hT, _, hk, _, _ => by
    rw [List.sublist_nil.1 hT] at hk; simp at hk
  | k + 1, i :: l, priv, rest, h, T, hT, hnd, hk, hp, hr => by
    rw [List.map_cons, noIrr, Bool.and_eq_true] at h
    rw [List.nodup_cons] at hnd
    rcases List.sublist_cons_iff.1 hT with hT | ⟨T', rfl, hT'⟩
    · exact noIrr_spec B (k + 1) l priv rest h.1 T hT hnd.2 hk hp hr
    · have hiT : i ∉ T' := fun hi => hnd.1 (hT'.subset hi)
      have own : ∃ j, (Nat.land rest (B i)).testBit j = true ∧ ∀ x ∈ T', (B x).testBit j = false := by
        obtain ⟨j, hj, h1⟩ := hr i List.mem_cons_self
        refine ⟨j, ?_, fun x hx => ?_⟩
        · rw [testBit_both, hj, (h1 i List.mem_cons_self).2 rfl]; rfl
        · rw [← Bool.not_eq_true, h1 x (List.mem_cons_of_mem _ hx)]
          rintro rfl
          exact hiT hx
      have h2 := h.2
      simp only [Bool.or_eq_true] at h2
      rcases h2 with (h2 | h2) | h2
      · obtain ⟨j, hj, -⟩ := own
        rw [Nat.eq_of_beq_eq_true h2, Nat.zero_testBit] at hj
        cases hj
      · obtain ⟨p, hp0, h3⟩ := List.any_eq_true.1 h2
        obtain ⟨j, hj, h4⟩ := hp p hp0
        rw [← Nat.eq_of_beq_eq_true h3, testBit_both, h4 i List.mem_cons_self, Bool.and_false] at hj
        cases hj
      · refine noIrr_spec B k l _ _ h2 T' hT' hnd.2 (by simpa using hk) ?_ ?_
        · intro p hp0
          rcases List.mem_cons.1 hp0 with rfl | hp0
          · exact own
          · obtain ⟨q, hq, rfl⟩ := List.mem_map.1 hp0
            obtain ⟨j, hj, h1⟩ := hp q hq
            refine ⟨j, ?_, fun x hx => h1 x (List.mem_cons_of_mem _ hx)⟩
            rw [testBit_rest, hj, h1 i List.mem_cons_self]; rfl
        · intro x hx
          obtain ⟨j, hj, h1⟩ := hr x (List.mem_cons_of_mem _ hx)
          refine ⟨j, ?_, fun y hy => h1 y (List.mem_cons_of_mem _ hy)⟩
          have : (B i).testBit j = false := by
            rw [← Bool.not_eq_true, h1 i List.mem_cons_self]
            rintro rfl
            exact hiT hx
          rw [testBit_rest, hj, this]; rfl

/-- The members of `M` that contain place `i`. -/
def column (M : List Nat) (i : Nat) : Nat := mask (M.map fun d => cond (has d i) 1 0) (M.map fun _ => 0)

theorem testBit_column {M : List Nat} {i j : Nat} (hj : j < M.length) : (column M i).testBit j = has M[j] i := by
  rw [column, ← has_eq, Bool.eq_iff_iff, has_mask (by simp), List.getD_eq_getElem _ _ (by simpa using hj),
    List.getD_eq_getElem _ _ (by simpa using hj), List.getElem_map, List.getElem_map]
  cases has M[j] i <;> simp

theorem noIrr_columns {n k : Nat} {M : List Nat} (h : noIrr k ((List.range n).map (column M)) [] (Nat.sub (Nat.pow 2 M.length) 1) = true)
    (T : List Nat) (hT : T.Sublist (List.range n)) (hk : k ≤ T.length)
    (hr : ∀ i ∈ T, ∃ d ∈ M, ∀ x ∈ T, has d x = true ↔ x = i) : False := by
  refine noIrr_spec (column M) k _ [] _ h T hT List.nodup_range hk (by simp) fun i hi => ?_
  obtain ⟨d, hd, h1⟩ := hr i hi
  obtain ⟨j, hj, rfl⟩ := List.getElem_of_mem hd
  refine ⟨j, ?_, fun x hx => by rw [testBit_column hj]; exact h1 x hx⟩
  show (2 ^ M.length - 1).testBit j = true
  rw [Nat.testBit_two_pow_sub_one]
  exact decide_eq_true hj

/-! ## All full grids -/

/-- The field with number `i`, counted row by row. -/
def cellAt (N i : Nat) : Cell := (i / N, i % N)

/-- Its inverse. -/
def idx (N : Nat) (a : Cell) : Nat := N * a.1 + a.2

theorem cellAt_idx {N : Nat} {a : Cell} (ha : a.2 < N) : cellAt N (idx N a) = a := by
  unfold cellAt idx
  rw [Nat.mul_add_div (by omega), Nat.mul_add_mod, Nat.div_eq_of_lt ha, Nat.mod_eq_of_lt ha, Nat.add_zero]

theorem idx_cellAt (N i : Nat) : idx N (cellAt N i) = i := Nat.div_add_mod i N

theorem idx_lt {w h : Nat} {a : Cell} (ha : InGrid w h a) : idx (w * h) a < w * h * (w * h) := by
  unfold idx
  have h1 := ha.2
  have h2 := Nat.mul_le_mul_left (w * h) (Nat.succ_le_of_lt ha.1)
  rw [Nat.mul_succ] at h2
  omega

theorem inGrid_cellAt {w h i : Nat} (hi : i < w * h * (w * h)) : InGrid w h (cellAt (w * h) i) := by
  have : 0 < w * h := by
    rcases Nat.eq_zero_or_pos (w * h) with e | e
    · rw [e] at hi; simp at hi
    · exact e
  exact ⟨(Nat.div_lt_iff_lt_mul this).2 hi, Nat.mod_lt _ this⟩

/-- The numbers of the fields before field `n` that are its peers. -/
def peersBefore (w h n : Nat) : List Nat := (List.range n).filter fun j => decide (Peer w h (cellAt (w * h) n) (cellAt (w * h) j))

/-- All ways to fill the first `n` fields with numbers below `w * h` without conflict. -/
def grids (w h : Nat) : Nat → List (List Nat)
  | 0 => [[]]
  | n + 1 => (grids w h n).flatMap fun l => ((List.range (w * h)).filter fun v =>
      (peersBefore w h n).all fun j => !(Nat.beq (l.getD j 0) v)).map fun v => l ++ [v]

theorem mem_grids {w h : Nat} {n : Nat} {k : Nat → Nat} (h1 : ∀ i < n, k i < w * h)
    (h2 : ∀ i < n, ∀ j < n, Peer w h (cellAt (w * h) i) (cellAt (w * h) j) → k i ≠ k j) : (List.range n).map k ∈ grids w h n := by
  induction n with
  | zero => simp [grids]
  | succ n ih =>
    rw [grids, List.mem_flatMap]
    refine ⟨_, ih (fun i hi => h1 i (by omega)) (fun i hi j hj => h2 i (by omega) j (by omega)), ?_⟩
    rw [List.mem_map]
    refine ⟨k n, List.mem_filter.2 ⟨List.mem_range.2 (h1 n (by omega)), ?_⟩, by rw [List.range_succ, List.map_append]; rfl⟩
    rw [List.all_eq_true]
    intro j hj
    obtain ⟨hj, hp⟩ := List.mem_filter.1 hj
    rw [List.mem_range] at hj
    have := h2 n (by omega) j (by omega) (of_decide_eq_true hp)
    rw [List.getD_eq_getElem?_getD, List.getElem?_map, List.getElem?_range hj]
    simp only [Option.map_some, Option.getD_some, Bool.not_eq_true', ← Bool.not_eq_true]
    exact fun e => this (Nat.eq_of_beq_eq_true e).symm

theorem peer_symm {w h : Nat} {a b : Cell} (hp : Peer w h a b) : Peer w h b a :=
  ⟨fun e => hp.1 e.symm, hp.2.imp (fun e => Eq.symm e) (Or.imp (fun e => Eq.symm e) fun e => ⟨e.1.symm, e.2.symm⟩)⟩

theorem of_mem_grids {w h : Nat} {n : Nat} {l : List Nat} (hl : l ∈ grids w h n) : l.length = n ∧ (∀ i < n, l.getD i 0 < w * h) ∧
    ∀ i < n, ∀ j < n, Peer w h (cellAt (w * h) i) (cellAt (w * h) j) → l.getD i 0 ≠ l.getD j 0 := by
  induction n generalizing l with
  | zero =>
    simp only [grids, List.mem_singleton] at hl
    subst hl
    exact ⟨rfl, fun i hi => absurd hi (by omega), fun i hi => absurd hi (by omega)⟩
  | succ n ih =>
    rw [grids, List.mem_flatMap] at hl
    obtain ⟨l', hl', hl⟩ := hl
    obtain ⟨v, hv, rfl⟩ := List.mem_map.1 hl
    obtain ⟨e, h1, h2⟩ := ih hl'
    obtain ⟨hv0, hc⟩ := List.mem_filter.1 hv
    have hvN := List.mem_range.1 hv0
    have hlow : ∀ i < n, (l' ++ [v]).getD i 0 = l'.getD i 0 := fun i hi => List.getD_append _ _ _ _ (by omega)
    have htop : (l' ++ [v]).getD n 0 = v := by
      rw [List.getD_append_right _ _ _ _ (by omega), e, Nat.sub_self]
      rfl
    have hnew : ∀ j < n, Peer w h (cellAt (w * h) n) (cellAt (w * h) j) → l'.getD j 0 ≠ v := by
      intro j hj hp e
      have := List.all_eq_true.1 hc j (List.mem_filter.2 ⟨List.mem_range.2 hj, decide_eq_true hp⟩)
      rw [e] at this
      simp at this
    refine ⟨by simp [e], fun i hi => ?_, fun i hi j hj hp => ?_⟩
    · rcases Nat.lt_succ_iff_lt_or_eq.1 hi with hi | rfl
      · rw [hlow i hi]; exact h1 i hi
      · rw [htop]; exact hvN
    · rcases Nat.lt_succ_iff_lt_or_eq.1 hi with hi | rfl <;> rcases Nat.lt_succ_iff_lt_or_eq.1 hj with hj | rfl
      · rw [hlow i hi, hlow j hj]; exact h2 i hi j hj hp
      · rw [hlow i hi, htop]; exact hnew i hi (peer_symm hp)
      · rw [htop, hlow j hj]; exact (hnew j hj hp).symm
      · exact absurd rfl hp.1

/-! ## Solutions as lists -/

/-- A full grid without conflict. -/
def Full (w h : Nat) (g : Grid) : Prop := (∀ a, InGrid w h a → IsNumber w h (g a)) ∧ NoConflict w h g

/-- `l` describes `g'`: number `v` stands for the one in column `v` of the first row of `g`. -/
def Code (w h : Nat) (g g' : Grid) (l : List Nat) : Prop :=
  l ∈ grids w h (w * h * (w * h)) ∧ ∀ a, InGrid w h a → g' a = g (0, l.getD (idx (w * h) a) 0)

theorem row_inj {w h : Nat} {g : Grid} (hg : Full w h g) {u v : Nat} (hu : u < w * h) (hv : v < w * h) (e : g (0, u) = g (0, v)) : u = v := by
  by_contra hne
  have hu' : InGrid w h (0, u) := ⟨by omega, hu⟩
  have h1 := hg.1 _ hu'
  exact hg.2 (0, u) (0, v) hu' ⟨by omega, hv⟩ ⟨fun e => hne (congrArg Prod.snd e), Or.inl rfl⟩ (by unfold IsNumber at h1; omega) e

theorem row_surj {w h : Nat} {g : Grid} (hg : Full w h g) (hN : 0 < w * h) {v : Int} (hv : IsNumber w h v) : ∃ u < w * h, g (0, u) = v := by
  obtain ⟨a, ha, e⟩ := Geometry.unit_surj hg.1 hg.2 ((List.range (w * h)).map fun c => ((0, c) : Cell))
    (List.nodup_range.map fun x y e => congrArg Prod.snd e) (by simp)
    (fun a ha => by obtain ⟨c, hc, rfl⟩ := List.mem_map.1 ha; exact ⟨hN, List.mem_range.1 hc⟩)
    (fun a ha b hb hne => by
      obtain ⟨c, hc, rfl⟩ := List.mem_map.1 ha
      obtain ⟨d, hd, rfl⟩ := List.mem_map.1 hb
      exact ⟨hne, Or.inl rfl⟩) v hv
  obtain ⟨c, hc, rfl⟩ := List.mem_map.1 ha
  exact ⟨c, List.mem_range.1 hc, e⟩

/-- Each full grid has a description. -/
theorem exists_code {w h : Nat} {g g' : Grid} (hg : Full w h g) (hg' : Full w h g') : ∃ l, Code w h g g' l := by
  have : ∀ i, ∃ u, i < w * h * (w * h) → u < w * h ∧ g (0, u) = g' (cellAt (w * h) i) := by
    intro i
    by_cases hi : i < w * h * (w * h)
    · have hc := inGrid_cellAt hi
      obtain ⟨u, hu, e⟩ := row_surj hg (by have := hc.1; omega) (hg'.1 _ hc)
      exact ⟨u, fun _ => ⟨hu, e⟩⟩
    · exact ⟨0, fun h => absurd h hi⟩
  choose k hk using this
  refine ⟨(List.range (w * h * (w * h))).map k, mem_grids (fun i hi => (hk i hi).1) (fun i hi j hj hp e => ?_), fun a ha => ?_⟩
  · have hi' := inGrid_cellAt hi
    refine hg'.2 _ _ hi' (inGrid_cellAt hj) hp ?_ ?_
    · have := hg'.1 _ hi'; unfold IsNumber at this; omega
    · rw [← (hk i hi).2, ← (hk j hj).2, e]
  · have hi := idx_lt ha
    rw [List.getD_eq_getElem?_getD, List.getElem?_map, List.getElem?_range hi]
    simp only [Option.map_some, Option.getD_some]
    rw [(hk _ hi).2, cellAt_idx ha.2]

/-- What a list describes. -/
theorem full_of_code {w h : Nat} {g : Grid} (hg : Full w h g) {l : List Nat} (hl : l ∈ grids w h (w * h * (w * h))) :
    ∃ g', Full w h g' ∧ Code w h g g' l := by
  obtain ⟨-, h1, h2⟩ := of_mem_grids hl
  refine ⟨fun a => g (0, l.getD (idx (w * h) a) 0), ⟨fun a ha => ?_, fun a b ha hb hp h0 e => ?_⟩, hl, fun a _ => rfl⟩
  · have := h1 _ (idx_lt ha)
    exact hg.1 _ ⟨by omega, this⟩
  · have ha' := h1 _ (idx_lt ha)
    have hb' := h1 _ (idx_lt hb)
    exact h2 _ (idx_lt ha) _ (idx_lt hb) (by rw [cellAt_idx ha.2, cellAt_idx hb.2]; exact hp) (row_inj hg ha' hb' e)

/-- The mask tells where two grids differ. -/
theorem mask_iff {w h : Nat} {g g' g'' : Grid} (hg : Full w h g) {l l' : List Nat} (h1 : Code w h g g' l) (h2 : Code w h g g'' l') {a : Cell}
    (ha : InGrid w h a) : has (mask l l') (idx (w * h) a) = true ↔ g' a ≠ g'' a := by
  rw [has_mask ((of_mem_grids h1.1).1.trans (of_mem_grids h2.1).1.symm), h1.2 a ha, h2.2 a ha]
  have b1 := (of_mem_grids h1.1).2.1 _ (idx_lt ha)
  have b2 := (of_mem_grids h2.1).2.1 _ (idx_lt ha)
  exact not_congr ⟨fun e => by rw [e], row_inj hg b1 b2⟩

/-- The description of `g` itself begins with 0, 1, 2, ... -/
theorem code_self {w h : Nat} {g : Grid} (hg : Full w h g) {l : List Nat} (hl : Code w h g g l) : l.take (w * h) = List.range (w * h) := by
  have hlen := (of_mem_grids hl.1).1
  have hle : w * h ≤ w * h * (w * h) := by
    rcases Nat.eq_zero_or_pos (w * h) with e | e
    · rw [e]
    · exact Nat.le_mul_of_pos_left _ e
  refine List.ext_getElem (by simp [hlen, hle]) fun i h1 h2 => ?_
  rw [List.length_range] at h2
  have ha : InGrid w h (0, i) := ⟨by omega, h2⟩
  have := hl.2 _ ha
  have hi : idx (w * h) (0, i) = i := by simp [idx]
  rw [hi] at this
  have b := (of_mem_grids hl.1).2.1 i (by omega)
  have e := row_inj hg h2 b this
  rw [List.getElem_take, List.getElem_range]
  rw [List.getD_eq_getElem _ _ (by omega)] at e
  exact e.symm

/-! ## Sets of clues -/

/-- `M` are the smallest sets in which other full grids differ from `l` (`B`: the same, transposed); no `lo` clues meet all of them, and of `hi` clues one is not needed. -/
def check (n lo hi : Nat) (all : List (List Nat)) (l M B : List Nat) : Bool :=
  (all.all fun l' => l == l' || M.any fun m => Nat.beq (Nat.land m (mask l l')) m) &&
  (M.all fun m => !Nat.beq m 0 && all.any fun l' => Nat.beq (mask l l') m) &&
  noHit n lo M && B == (List.range n).map (column M) && noIrr hi B [] (Nat.sub (Nat.pow 2 M.length) 1)

/-- All full grids are checked. -/
def Checked (w h lo hi : Nat) : Prop :=
  ∀ l ∈ grids w h (w * h * (w * h)), l.take (w * h) = List.range (w * h) →
    ∃ M B, check (w * h * (w * h)) lo hi (grids w h (w * h * (w * h))) l M B = true

/-- The numbers of the filled fields. -/
def filledIdx (w h : Nat) (s : Grid) : List Nat := (List.range (w * h * (w * h))).filter fun i => s (cellAt (w * h) i) ≠ 0

theorem mem_filledIdx {w h : Nat} {s : Grid} {a : Cell} (ha : InGrid w h a) : idx (w * h) a ∈ filledIdx w h s ↔ s a ≠ 0 := by
  rw [filledIdx, List.mem_filter, cellAt_idx ha.2, List.mem_range]
  simp [idx_lt ha]

private theorem real {w h lo hi : Nat} {s g : Grid} (hg : IsSolution w h s g) (hu : ∀ g', IsSolution w h s g' → SameGrid w h g g')
    {l M B : List Nat} (hl : Code w h g g l) (hM : check (w * h * (w * h)) lo hi (grids w h (w * h * (w * h))) l M B = true) {m : Nat} (hm : m ∈ M) :
    ∃ i ∈ filledIdx w h s, has m i = true := by
  have hF : Full w h g := ⟨hg.full, hg.valid⟩
  simp only [check, Bool.and_eq_true] at hM
  have h1 := List.all_eq_true.1 hM.1.1.1.2 m hm
  rw [Bool.and_eq_true] at h1
  obtain ⟨l', hl', e⟩ := List.any_eq_true.1 h1.2
  obtain ⟨g', hF', hc⟩ := full_of_code hF hl'
  have e : mask l l' = m := Nat.eq_of_beq_eq_true e
  by_contra H
  simp only [not_exists, not_and] at H
  have hsame := hu g' ⟨fun a ha h0 => ?_, hF'.1, hF'.2⟩
  · have : m = 0 := by
      rw [Nat.eq_iff_testBit_eq]
      intro i
      rw [Nat.zero_testBit, ← has_eq]
      by_cases hi : i < w * h * (w * h)
      · rw [← idx_cellAt (w * h) i, ← Bool.not_eq_true, ← e, mask_iff hF hl hc (inGrid_cellAt hi)]
        exact fun hne => hne (hsame _ (inGrid_cellAt hi))
      · have hlen := (of_mem_grids hl.1).1
        have hlen' := (of_mem_grids hl').1
        rw [← e, ← Bool.not_eq_true, has_mask (hlen.trans hlen'.symm), not_not, List.getD_eq_default _ _ (by omega),
          List.getD_eq_default _ _ (by omega)]
    rw [this] at h1
    simp at h1
  · have := H _ ((mem_filledIdx ha).2 h0)
    rw [← e, mask_iff hF hl hc ha, not_not] at this
    rw [← this]
    exact hg.keeps a ha h0

/-- More than `lo` fields are filled if the solution is unique. -/
theorem lower {w h lo hi : Nat} (H : Checked w h lo hi) {s : Grid} (hs : UniqueSolution w h s) : lo < (filledIdx w h s).length := by
  obtain ⟨g, hg, hu⟩ := hs
  have hF : Full w h g := ⟨hg.full, hg.valid⟩
  obtain ⟨l, hl⟩ := exists_code hF hF
  obtain ⟨M, B, hM⟩ := H l hl.1 (code_self hF hl)
  by_contra hlt
  have hM' := hM
  simp only [check, Bool.and_eq_true] at hM'
  obtain ⟨m, hm, h1⟩ := noHit_spec lo M hM'.1.1.2 (filledIdx w h s) (fun i hi => List.mem_range.1 (List.mem_filter.1 hi).1) (by omega)
  obtain ⟨i, hi, h2⟩ := real hg hu hl hM hm
  rw [h1 i hi] at h2
  cases h2

/-- Less than `hi` fields are filled if moreover no clue can be left out. -/
theorem upper {w h lo hi : Nat} (H : Checked w h lo hi) {s : Grid} (hs : UniqueSolution w h s)
    (hirr : ∀ a, InGrid w h a → s a ≠ 0 → ¬ UniqueSolution w h (fun b => if b = a then 0 else s b)) : (filledIdx w h s).length < hi := by
  obtain ⟨g, hg, hu⟩ := hs
  have hF : Full w h g := ⟨hg.full, hg.valid⟩
  obtain ⟨l, hl⟩ := exists_code hF hF
  obtain ⟨M, B, hM⟩ := H l hl.1 (code_self hF hl)
  by_contra hlt
  have hM' := hM
  simp only [check, Bool.and_eq_true] at hM'
  have hB := hM'.2
  rw [beq_iff_eq.1 hM'.1.2] at hB
  refine noIrr_columns hB (filledIdx w h s) List.filter_sublist (by omega) fun i hi' => ?_
  have hi0 := List.mem_filter.1 hi'
  have hin := inGrid_cellAt (List.mem_range.1 hi0.1)
  have hne := hirr _ hin (by simpa using hi0.2)
  have : ∃ g', IsSolution w h (fun b => if b = cellAt (w * h) i then 0 else s b) g' ∧ ¬ SameGrid w h g g' := by
    by_contra hno
    simp only [not_exists, not_and, not_not] at hno
    refine hne ⟨g, ⟨fun a ha h0 => ?_, hg.full, hg.valid⟩, hno⟩
    by_cases e : a = cellAt (w * h) i
    · rw [if_pos e] at h0; exact absurd rfl h0
    · rw [if_neg e] at h0 ⊢; exact hg.keeps a ha h0
  obtain ⟨g', hg', hdiff⟩ := this
  obtain ⟨l', hl'⟩ := exists_code hF ⟨hg'.full, hg'.valid⟩
  have hll : (l == l') = false := by
    rw [beq_eq_false_iff_ne]
    rintro rfl
    exact hdiff fun a ha => by rw [hl.2 a ha, hl'.2 a ha]
  have h1 := List.all_eq_true.1 hM'.1.1.1.1 l' hl'.1
  rw [hll, Bool.false_or] at h1
  obtain ⟨m, hm, h2⟩ := List.any_eq_true.1 h1
  have h2 : m &&& mask l l' = m := Nat.eq_of_beq_eq_true h2
  have only : ∀ j ∈ filledIdx w h s, has m j = true → j = i := by
    intro j hj hb
    by_contra hji
    have hj0 := List.mem_filter.1 hj
    have hjn := inGrid_cellAt (List.mem_range.1 hj0.1)
    rw [← h2, has_eq, Nat.testBit_and, Bool.and_eq_true, ← has_eq, ← has_eq] at hb
    have h3 := hb.2
    rw [← idx_cellAt (w * h) j, mask_iff hF hl hl' hjn] at h3
    have hcne : cellAt (w * h) j ≠ cellAt (w * h) i := fun e => hji (by rw [← idx_cellAt (w * h) j, e, idx_cellAt])
    have hs0 : s (cellAt (w * h) j) ≠ 0 := by simpa using hj0.2
    have h4 := hg'.keeps _ hjn (by rw [if_neg hcne]; exact hs0)
    rw [if_neg hcne] at h4
    rw [h4] at h3
    exact h3 (hg.keeps _ hjn hs0)
  obtain ⟨j, hj, hb⟩ := real hg hu hl hM hm
  have := only j hj hb
  subst this
  exact ⟨m, hm, fun x hx => ⟨only x hx, fun e => by rw [e]; exact hb⟩⟩

end Few
