import Verif.Proofs.Clues
import Verif.Proofs.Unavoidable
import Mathlib.Data.List.Perm.Subperm
import Mathlib.Data.List.Nodup

set_option autoImplicit false

/-! Helper lemmas for C122: where a sudoku without superfluous clues has empty fields. -/

open Spec

namespace Needed

variable {w h : Nat} {s g : Grid}

/-- `N` fields that exclude each other. -/
structure Unit (w h : Nat) (f : Nat → Cell) : Prop where
  inGrid : ∀ i, i < w * h → InGrid w h (f i)
  peers : ∀ i j, i < w * h → j < w * h → i ≠ j → Peer w h (f i) (f j)

/-- Every number occurs in every unit of a full grid. -/
theorem occursIn (hg : IsSolution w h s g) {f : Nat → Cell} (hf : Unit w h f) {v : Int} (hv : IsNumber w h v) :
    ∃ i, i < w * h ∧ g (f i) = v := by
  have hsub : (Finset.range (w * h)).image (fun c => g (f c)) ⊆ Finset.Icc 1 ((w * h : Nat) : Int) := by
    intro x hx
    obtain ⟨c, hc, rfl⟩ := Finset.mem_image.1 hx
    exact Finset.mem_Icc.2 (hg.full _ (hf.inGrid c (Finset.mem_range.1 hc)))
  have hcard : ((Finset.range (w * h)).image (fun c => g (f c))).card = w * h := by
    rw [Finset.card_image_of_injOn, Finset.card_range]
    intro c hc d hd e
    by_contra hne
    have hc := Finset.mem_range.1 hc
    have hd := Finset.mem_range.1 hd
    exact hg.valid.ne hg.full (hf.inGrid c hc) (hf.inGrid d hd) (hf.peers c d hc hd hne) e
  have heq := Finset.eq_of_subset_of_card_le hsub (by rw [hcard, Int.card_Icc]; omega)
  have hmem : v ∈ Finset.Icc 1 ((w * h : Nat) : Int) := Finset.mem_Icc.2 hv
  rw [← heq] at hmem
  obtain ⟨c, hc, he⟩ := Finset.mem_image.1 hmem
  exact ⟨c, Finset.mem_range.1 hc, he⟩

theorem unit_row {r : Nat} (hr : r < w * h) : Unit w h fun c => (r, c) :=
  ⟨fun _ hi => ⟨hr, hi⟩, fun _ _ _ _ hij => ⟨fun e => hij (Prod.mk.inj e).2, Or.inl rfl⟩⟩

theorem unit_col {c : Nat} (hc : c < w * h) : Unit w h fun r => (r, c) :=
  ⟨fun _ hi => ⟨hi, hc⟩, fun _ _ _ _ hij => ⟨fun e => hij (Prod.mk.inj e).1, Or.inr (Or.inl rfl)⟩⟩

/-- The fields of the box in row `q` and column `p` of boxes. -/
def boxField (w h q p i : Nat) : Cell := (h * q + i / w, w * p + i % w)

theorem unit_box {q p : Nat} (hq : q < w) (hp : p < h) : Unit w h (boxField w h q p) := by
  have hw : 0 < w := by omega
  have hh : 0 < h := by omega
  have hi1 : ∀ i, i < w * h → i / w < h := fun i hi => by rw [Nat.div_lt_iff_lt_mul hw, Nat.mul_comm]; exact hi
  constructor
  · intro i hi
    have k1 := hi1 i hi
    have k2 := Nat.mod_lt i hw
    constructor
    · show h * q + i / w < w * h
      calc h * q + i / w < h * q + h := by omega
        _ = h * (q + 1) := by rw [Nat.mul_succ]
        _ ≤ h * w := Nat.mul_le_mul_left h (by omega)
        _ = w * h := Nat.mul_comm _ _
    · show w * p + i % w < w * h
      calc w * p + i % w < w * p + w := by omega
        _ = w * (p + 1) := by rw [Nat.mul_succ]
        _ ≤ w * h := Nat.mul_le_mul_left w (by omega)
  · intro i j hi hj hij
    refine ⟨fun e => hij ?_, Or.inr (Or.inr ⟨?_, ?_⟩)⟩
    · have e1 := (Prod.mk.inj e).1
      have e2 := (Prod.mk.inj e).2
      have d1 := Nat.div_add_mod i w
      have d2 := Nat.div_add_mod j w
      rw [show i / w = j / w by omega, show i % w = j % w by omega] at d1
      exact d1.symm.trans d2
    · show (h * q + i / w) / h = (h * q + j / w) / h
      rw [Nat.mul_add_div hh, Nat.mul_add_div hh, Nat.div_eq_of_lt (hi1 i hi), Nat.div_eq_of_lt (hi1 j hj)]
    · show (w * p + i % w) / w = (w * p + j % w) / w
      rw [Nat.mul_add_div hw, Nat.mul_add_div hw, Nat.div_eq_of_lt (Nat.mod_lt i hw), Nat.div_eq_of_lt (Nat.mod_lt j hw)]

/-- Without the clue `a` there is another solution. -/
def Needs (w h : Nat) (s g : Grid) (a : Cell) : Prop :=
  ∃ g', IsSolution w h (fun _ => 0) g' ∧ g' a ≠ g a ∧ ∀ b, InGrid w h b → b ≠ a → s b ≠ 0 → g' b = g b

/-- All clues are needed. -/
def AllNeeded (w h : Nat) (s g : Grid) : Prop := ∀ a, InGrid w h a → s a ≠ 0 → Needs w h s g a

section
variable (hg : IsSolution w h s g)
include hg

/-- In each unit of a clue that is needed, its number moves to an empty field. -/
theorem moved {a : Cell} (ha : InGrid w h a) {g' : Grid} (h1 : IsSolution w h (fun _ => 0) g') (h2 : g' a ≠ g a)
    (h3 : ∀ b, InGrid w h b → b ≠ a → s b ≠ 0 → g' b = g b) {f : Nat → Cell} (hf : Unit w h f) {k : Nat} (hk : k < w * h) (hfk : f k = a) :
    ∃ i, i < w * h ∧ s (f i) = 0 ∧ g' (f i) = g a := by
  obtain ⟨i, hi, e⟩ := occursIn h1 hf (hg.full a ha)
  refine ⟨i, hi, ?_, e⟩
  by_contra h0
  have hne : f i ≠ a := fun e' => h2 (by rw [← e', e, ← e'])
  have hik : i ≠ k := fun e' => hne (e' ▸ hfk)
  have := h3 _ (hf.inGrid i hi) hne h0
  exact hg.valid.ne hg.full (hf.inGrid i hi) (hf.inGrid k hk) (hf.peers i k hi hk hik) (by rw [← this, e, hfk])

/-- So each unit has an empty field. -/
theorem some_empty (H : AllNeeded w h s g) (hN : 0 < w * h) {f : Nat → Cell} (hf : Unit w h f) : ∃ i, i < w * h ∧ s (f i) = 0 := by
  by_cases h0 : s (f 0) = 0
  · exact ⟨0, hN, h0⟩
  · obtain ⟨g', h1, h2, h3⟩ := H (f 0) (hf.inGrid 0 hN) h0
    obtain ⟨i, hi, e, -⟩ := moved hg (hf.inGrid 0 hN) h1 h2 h3 hf hN rfl
    exact ⟨i, hi, e⟩

/-- If a row has only one empty field, its column is empty. -/
theorem column_empty (H : AllNeeded w h s g) {r c : Nat} (hr : r < w * h) (hc : c < w * h)
    (hone : ∀ c', c' < w * h → s (r, c') = 0 → c' = c) : ∀ r', r' < w * h → s (r', c) = 0 := by
  intro r' hr'
  by_cases hrr : r' = r
  · subst hrr
    obtain ⟨i, hi, e⟩ := some_empty hg H (by omega) (unit_row hr)
    rw [hone i hi e] at e; exact e
  · -- the clue in row `r` with the number of `(r', c)`
    obtain ⟨j, hj, e⟩ := occursIn hg (unit_row hr) (hg.full (r', c) ⟨hr', hc⟩)
    have hjc : j ≠ c := by
      rintro rfl
      exact hg.valid.ne hg.full ⟨hr, hc⟩ ⟨hr', hc⟩ ⟨fun e => hrr (Prod.mk.inj e).1.symm, Or.inr (Or.inl rfl)⟩ e
    have hclue : s (r, j) ≠ 0 := fun h0 => hjc (hone j hj h0)
    obtain ⟨g', h1, h2, h3⟩ := H (r, j) ⟨hr, hj⟩ hclue
    obtain ⟨i, hi, k1, k2⟩ := moved hg ⟨hr, hj⟩ h1 h2 h3 (unit_row hr) hj rfl
    have := hone i hi k1
    subst this
    by_contra h0
    have := h3 (r', i) ⟨hr', hc⟩ (fun e => hrr (Prod.mk.inj e).1) h0
    exact h1.valid.ne h1.full ⟨hr, hi⟩ ⟨hr', hi⟩ ⟨fun e => hrr (Prod.mk.inj e).1.symm, Or.inr (Or.inl rfl)⟩
      (by rw [this, k2, e])

omit hg in
/-- Two empty fields in each row. -/
theorem two_each {E : List Cell} (hE : ∀ a, InGrid w h a → s a = 0 → a ∈ E)
    (htwo : ∀ r, r < w * h → ∃ c c', c < w * h ∧ c' < w * h ∧ c ≠ c' ∧ s (r, c) = 0 ∧ s (r, c') = 0) : 2 * (w * h) ≤ E.length := by
  have : ∃ p q : Nat → Nat, ∀ r, r < w * h → p r < w * h ∧ q r < w * h ∧ p r ≠ q r ∧ s (r, p r) = 0 ∧ s (r, q r) = 0 := by
    refine ⟨fun r => if k : r < w * h then (htwo r k).choose else 0, fun r => if k : r < w * h then (htwo r k).choose_spec.choose else 0, ?_⟩
    intro r k
    simp only [dif_pos k]
    exact (htwo r k).choose_spec.choose_spec
  obtain ⟨p, q, hpq⟩ := this
  have hnd : (((List.range (w * h)).map fun r => (r, p r)) ++ (List.range (w * h)).map fun r => (r, q r)).Nodup := by
    refine List.Nodup.append ?_ ?_ ?_
    · exact List.nodup_range.map fun a b e => (Prod.mk.inj e).1
    · exact List.nodup_range.map fun a b e => (Prod.mk.inj e).1
    · intro a h1 h2
      obtain ⟨r, k1, rfl⟩ := List.mem_map.1 h1
      obtain ⟨r', k2, e⟩ := List.mem_map.1 h2
      obtain ⟨rfl, e2⟩ := Prod.mk.inj e
      exact (hpq r' (List.mem_range.1 k1)).2.2.1 e2.symm
  have := (List.subperm_of_subset hnd (l₂ := E) (by
    intro a ha
    rcases List.mem_append.1 ha with ha | ha
    · obtain ⟨r, k1, rfl⟩ := List.mem_map.1 ha
      have k := hpq r (List.mem_range.1 k1)
      exact hE _ ⟨List.mem_range.1 k1, k.1⟩ k.2.2.2.1
    · obtain ⟨r, k1, rfl⟩ := List.mem_map.1 ha
      have k := hpq r (List.mem_range.1 k1)
      exact hE _ ⟨List.mem_range.1 k1, k.2.1⟩ k.2.2.2.2)).length_le
  simp only [List.length_append, List.length_map, List.length_range] at this
  omega

/-- At least `2N - 1` fields are empty. -/
theorem many_empty (H : AllNeeded w h s g) (hN : 0 < w * h) {E : List Cell} (hE : ∀ a, InGrid w h a → s a = 0 → a ∈ E) :
    2 * (w * h) - 1 ≤ E.length := by
  by_cases htwo : ∀ r, r < w * h → ∃ c c', c < w * h ∧ c' < w * h ∧ c ≠ c' ∧ s (r, c) = 0 ∧ s (r, c') = 0
  · have := two_each hE htwo
    omega
  · push Not at htwo
    obtain ⟨r, hr, hone⟩ := htwo
    obtain ⟨c, hc, hrc⟩ := some_empty hg H hN (unit_row hr)
    have hcol := column_empty hg H hr hc fun c' hc' h0 => by
      by_contra hne
      exact hone c' c hc' hc hne h0 hrc
    have : ∃ f : Nat → Nat, ∀ c, c < w * h → f c < w * h ∧ s (f c, c) = 0 := by
      refine ⟨fun c => if k : c < w * h then (some_empty hg H hN (unit_col k)).choose else 0, ?_⟩
      intro c k
      simp only [dif_pos k]
      exact (some_empty hg H hN (unit_col k)).choose_spec
    obtain ⟨f, hf⟩ := this
    have hnd : (((List.range (w * h)).map fun r => (r, c)) ++ ((List.range (w * h)).erase c).map fun c => (f c, c)).Nodup := by
      refine List.Nodup.append ?_ ?_ ?_
      · exact List.nodup_range.map fun a b e => (Prod.mk.inj e).1
      · exact (List.nodup_range.erase c).map fun a b e => (Prod.mk.inj e).2
      · intro a h1 h2
        obtain ⟨r, k1, rfl⟩ := List.mem_map.1 h1
        obtain ⟨c', k2, e⟩ := List.mem_map.1 h2
        rw [List.nodup_range.mem_erase_iff] at k2
        exact k2.1 (Prod.mk.inj e).2
    have := (List.subperm_of_subset hnd (l₂ := E) (by
      intro a ha
      rcases List.mem_append.1 ha with ha | ha
      · obtain ⟨r', k1, rfl⟩ := List.mem_map.1 ha
        exact hE _ ⟨List.mem_range.1 k1, hc⟩ (hcol r' (List.mem_range.1 k1))
      · obtain ⟨c', k1, rfl⟩ := List.mem_map.1 ha
        have k2 := List.mem_range.1 (List.mem_of_mem_erase k1)
        exact hE _ ⟨(hf c' k2).1, k2⟩ (hf c' k2).2)).length_le
    simp only [List.length_append, List.length_map, List.length_range, List.length_erase_of_mem (List.mem_range.2 hc)] at this
    omega

/-- If a unit has only one empty field, the fields outside of the unit that see it are empty. -/
theorem peer_empty (H : AllNeeded w h s g) {f : Nat → Cell} (hf : Unit w h f) {k : Nat} (hk : k < w * h)
    (hone : ∀ i, i < w * h → s (f i) = 0 → i = k) {b : Cell} (hb : InGrid w h b) (hp : Peer w h (f k) b) (hout : ∀ i, i < w * h → f i ≠ b) :
    s b = 0 := by
  by_contra h0
  obtain ⟨j, hj, e⟩ := occursIn hg hf (hg.full b hb)
  have hjk : j ≠ k := by
    rintro rfl
    exact hg.valid.ne hg.full (hf.inGrid j hj) hb hp e
  obtain ⟨g', h1, h2, h3⟩ := H (f j) (hf.inGrid j hj) fun h0 => hjk (hone j hj h0)
  obtain ⟨i, hi, k1, k2⟩ := moved hg (hf.inGrid j hj) h1 h2 h3 hf hj rfl
  have := hone i hi k1
  subst this
  have := h3 b hb (fun e => hout j hj e.symm) h0
  exact h1.valid.ne h1.full (hf.inGrid i hi) hb hp (by rw [this, k2, e])

/-- With at least two rows and columns of boxes, a column other than `c` has two empty fields. -/
theorem two_in_column (H : AllNeeded w h s g) (hw : 2 ≤ w) (hh : 2 ≤ h) (c : Nat) :
    ∃ c', c' < w * h ∧ c' ≠ c ∧ ∃ r r', r < w * h ∧ r' < w * h ∧ r ≠ r' ∧ s (r, c') = 0 ∧ s (r', c') = 0 := by
  have hN : 2 ≤ w * h := le_trans hw (Nat.le_mul_of_pos_right w (by omega))
  -- a column of boxes without `c`
  obtain ⟨p, hp, hpc⟩ : ∃ p, p < h ∧ p ≠ c / w := by
    by_cases e : c / w = 0
    · exact ⟨1, by omega, by omega⟩
    · exact ⟨0, by omega, fun k => e k.symm⟩
  have hlt : w * p < w * h := Nat.mul_lt_mul_of_pos_left hp (by omega)
  have hcp : w * p ≠ c := fun e => hpc (by rw [← e, Nat.mul_div_cancel_left _ (by omega)])
  by_contra hno
  push Not at hno
  obtain ⟨r, hr, e⟩ := some_empty hg H (by omega) (unit_col hlt)
  have hrow : ∀ c', c' < w * h → s (r, c') = 0 := by
    intro c' hc'
    by_cases hcc : c' = w * p
    · rw [hcc]; exact e
    · refine peer_empty hg H (unit_col hlt) hr (fun i hi h0 => ?_) (b := (r, c')) ⟨hr, hc'⟩ ⟨fun e => hcc (Prod.mk.inj e).2.symm, Or.inl rfl⟩
        (fun i _ e => hcc (Prod.mk.inj e).2.symm)
      by_contra hne
      exact hno _ hlt hcp i r hi hr hne h0 e
  obtain ⟨q, hq, hqr⟩ : ∃ q, q < w ∧ q ≠ r / h := by
    by_cases e : r / h = 0
    · exact ⟨1, by omega, by omega⟩
    · exact ⟨0, by omega, fun k => e k.symm⟩
  have hU := unit_box (w := w) (h := h) hq hp
  obtain ⟨i, hi, e'⟩ := some_empty hg H (by omega) hU
  have k1 : i / w < h := by rw [Nat.div_lt_iff_lt_mul (by omega), Nat.mul_comm]; exact hi
  have k2 : i % w < w := Nat.mod_lt i (by omega)
  refine hno (w * p + i % w) (hU.inGrid i hi).2 ?_ (h * q + i / w) r (hU.inGrid i hi).1 hr ?_ e' (hrow _ (hU.inGrid i hi).2)
  · intro e
    refine hpc ?_
    rw [← e, Nat.mul_add_div (by omega), Nat.div_eq_of_lt k2, Nat.add_zero]
  · intro e
    refine hqr ?_
    rw [← e, Nat.mul_add_div (by omega), Nat.div_eq_of_lt k1, Nat.add_zero]

/-- At least `2N` fields are empty, if there are at least two rows and columns of boxes. -/
theorem many_empty_boxes (H : AllNeeded w h s g) (hw : 2 ≤ w) (hh : 2 ≤ h) {E : List Cell} (hE : ∀ a, InGrid w h a → s a = 0 → a ∈ E) :
    2 * (w * h) ≤ E.length := by
  have hN : 0 < w * h := Nat.mul_pos (by omega) (by omega)
  by_cases htwo : ∀ r, r < w * h → ∃ c c', c < w * h ∧ c' < w * h ∧ c ≠ c' ∧ s (r, c) = 0 ∧ s (r, c') = 0
  · exact two_each hE htwo
  · push Not at htwo
    obtain ⟨r, hr, hone⟩ := htwo
    obtain ⟨c, hc, hrc⟩ := some_empty hg H hN (unit_row hr)
    have hcol := column_empty hg H hr hc fun c' hc' h0 => by
      by_contra hne
      exact hone c' c hc' hc hne h0 hrc
    obtain ⟨c0, hc0, hcc, r1, r2, hr1, hr2, hne, z1, z2⟩ := two_in_column hg H hw hh c
    have : ∃ f : Nat → Nat, f c0 = r1 ∧ ∀ c, c < w * h → f c < w * h ∧ s (f c, c) = 0 := by
      refine ⟨fun c => if c = c0 then r1 else if k : c < w * h then (some_empty hg H hN (unit_col k)).choose else 0, if_pos rfl, ?_⟩
      intro c k
      by_cases e : c = c0
      · simp only [if_pos e]; rw [e]; exact ⟨hr1, z1⟩
      · simp only [if_neg e, dif_pos k]
        exact (some_empty hg H hN (unit_col k)).choose_spec
    obtain ⟨f, hf0, hf⟩ := this
    have hnd : ((r2, c0) :: (((List.range (w * h)).map fun r => (r, c)) ++ ((List.range (w * h)).erase c).map fun c => (f c, c))).Nodup := by
      rw [List.nodup_cons]
      constructor
      · intro hm
        rcases List.mem_append.1 hm with hm | hm
        · obtain ⟨r', -, e⟩ := List.mem_map.1 hm
          exact hcc (Prod.mk.inj e).2.symm
        · obtain ⟨c', -, e⟩ := List.mem_map.1 hm
          obtain ⟨e1, e2⟩ := Prod.mk.inj e
          rw [e2, hf0] at e1
          exact hne e1
      · refine List.Nodup.append ?_ ?_ ?_
        · exact List.nodup_range.map fun a b e => (Prod.mk.inj e).1
        · exact (List.nodup_range.erase c).map fun a b e => (Prod.mk.inj e).2
        · intro a h1 h2
          obtain ⟨r, k1, rfl⟩ := List.mem_map.1 h1
          obtain ⟨c', k2, e⟩ := List.mem_map.1 h2
          rw [List.nodup_range.mem_erase_iff] at k2
          exact k2.1 (Prod.mk.inj e).2
    have := (List.subperm_of_subset hnd (l₂ := E) (by
      intro a ha
      rcases List.mem_cons.1 ha with rfl | ha
      · exact hE _ ⟨hr2, hc0⟩ z2
      rcases List.mem_append.1 ha with ha | ha
      · obtain ⟨r', k1, rfl⟩ := List.mem_map.1 ha
        exact hE _ ⟨List.mem_range.1 k1, hc⟩ (hcol r' (List.mem_range.1 k1))
      · obtain ⟨c', k1, rfl⟩ := List.mem_map.1 ha
        have k2 := List.mem_range.1 (List.mem_of_mem_erase k1)
        exact hE _ ⟨(hf c' k2).1, k2⟩ (hf c' k2).2)).length_le
    simp only [List.length_cons, List.length_append, List.length_map, List.length_range, List.length_erase_of_mem (List.mem_range.2 hc)] at this
    omega

end

end Needed
