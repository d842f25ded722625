import Verif.Proofs.Complete

set_option autoImplicit false

/-! Helper lemmas: a sudoku where some classes find nothing keeps what their steps would have removed elsewhere. -/

open Spec

namespace Solvers

/-- No pattern of the class is in the sudoku. -/
def Idle (s : Sudoku) : Kind → Prop
  | .nakedSingle => ∀ a v, InGrid s.bw s.bh a → s.num a = 0 → s.cand a ≠ {v}
  | .hiddenSingle => ∀ a k v, InGrid s.bw s.bh a → s.num a = 0 → ¬ OnlyPlace s k a v
  | .nakedTuple n => ∀ k e F, InGrid s.bw s.bh e → s.num e = 0 → ¬ NakedPattern s n k e F
  | .hiddenTuple n => ∀ k e V, InGrid s.bw s.bh e → s.num e = 0 → ¬ HiddenPattern s n k e V
  | .pointingTuple n => ∀ k k' e f v, (k = .box ∧ k' ≠ .box ∨ k ≠ .box ∧ k' = .box) → ¬ PointingPattern s n k k' e f v
  | .basicFish n => ∀ byRow v I, ¬ FishPattern s n byRow v I
  | _ => True

/-- The candidates are calculated, contain the solution `g` and agree with the numbers. -/
structure Neat (g : Grid) (s : Sudoku) : Prop where
  cons : Contains s g
  filled : ∀ a, InGrid s.bw s.bh a → s.num a ≠ 0 → s.cand a = {s.num a}
  peers : ∀ a b, InGrid s.bw s.bh a → InGrid s.bw s.bh b → Peer s.bw s.bh a b → s.num a ≠ 0 → s.num a ∉ s.cand b

theorem Neat.num {g : Grid} {s : Sudoku} (hs : Neat g s) {a : Cell} (ha : InGrid s.bw s.bh a) (h0 : s.num a ≠ 0) : s.num a = g a :=
  (hs.cons.1.keeps a ha h0).symm

theorem peer_of_share {w h : Nat} {k : Line} {a b : Cell} (hs : Share w h k a b) (hne : a ≠ b) : Peer w h a b := by
  refine ⟨hne, ?_⟩
  cases k
  · exact Or.inl hs
  · exact Or.inr (Or.inl hs)
  · exact Or.inr (Or.inr hs)

theorem share_both {s : Sudoku} {k : Line} {e a b : Cell} (ha : a ∈ unitFields s k e) (hb : b ∈ unitFields s k e) :
    Share s.bw s.bh k a b := share_trans (share_symm (mem_unitFields.1 ha).2) (mem_unitFields.1 hb).2

theorem line_inj {s : Sudoku} {g : Grid} (hg : Contains s g) {k : Line} {e a b : Cell} (ha : a ∈ unitFields s k e)
    (hb : b ∈ unitFields s k e) (e' : g a = g b) : a = b := by
  by_contra hne
  have h0 : g a ≠ 0 := by have := (hg.1.full a (mem_unitFields.1 ha).1).1; omega
  exact hg.1.valid a b (mem_unitFields.1 ha).1 (mem_unitFields.1 hb).1 (peer_of_share (share_both ha hb) hne) h0 e'

/-- Every number has a place in every unit. -/
theorem line_surj {s : Sudoku} {g : Grid} (hg : Contains s g) {k : Line} {e : Cell} (he : InGrid s.bw s.bh e) {v : Int}
    (hv : IsNumber s.bw s.bh v) : ∃ p ∈ places s k e v, g p = v := by
  obtain ⟨p, hp, e'⟩ := unit_surj hg.1.full hg.1.valid (unit_of s (lineIdx k) he) hv
  have hp' := (mem_unitOf he).1 hp
  refine ⟨p, mem_places.2 ⟨hp', ?_⟩, e'⟩
  rw [← e']
  exact hg.2 p (mem_unitFields.1 hp').1

theorem inGrid_of_unit {s : Sudoku} {k : Line} {e a : Cell} (ha : a ∈ unitFields s k e) : InGrid s.bw s.bh a := (mem_unitFields.1 ha).1

theorem peer_of_unit {s : Sudoku} {k : Line} {e a b : Cell} (ha : a ∈ unitFields s k e) (hb : b ∈ unitFields s k e) (hne : a ≠ b) :
    Peer s.bw s.bh a b := peer_of_share (share_both ha hb) hne

theorem unit_eq_of_mem {s : Sudoku} {k : Line} {e a : Cell} (ha : a ∈ unitFields s k e) : unitFields s k a = unitFields s k e :=
  unitFields_eq (share_symm (mem_unitFields.1 ha).2)

theorem places_eq_of_mem {s : Sudoku} {k : Line} {e a : Cell} (ha : a ∈ unitFields s k e) (v : Int) : places s k a v = places s k e v :=
  places_eq (share_symm (mem_unitFields.1 ha).2) v

section
variable {g : Grid} {t : Sudoku}

/-- An empty field has at least two candidates. -/
theorem two_cands (hn : Neat g t) (h1 : Idle t .nakedSingle) {a : Cell} (ha : InGrid t.bw t.bh a) (h0 : t.num a = 0) :
    1 < (t.cand a).card := by
  have hg := hn.cons.2 a ha
  by_contra hle
  have hc : (t.cand a).card = 1 := by
    have := Finset.card_pos.2 ⟨_, hg⟩
    omega
  obtain ⟨v, hv⟩ := Finset.card_eq_one.1 hc
  exact h1 a v ha h0 hv

theorem naked_mono (hn : Neat g t) (h1 : Idle t .nakedSingle) {n : Nat} (hidle : ∀ m, 2 ≤ m → m ≤ n → Idle t (.nakedTuple m))
    {k : Line} {e : Cell} {F : Finset Cell} {U : Finset Int} (hF : F ⊆ unitFields t k e) (hFn : F.card ≤ n) (hU : U.card ≤ F.card)
    (hFU : ∀ a ∈ F, t.cand a ⊆ U) {b : Cell} (hb : b ∈ unitFields t k e) (hbF : b ∉ F) {v : Int} (hv : v ∈ U) : v ∉ t.cand b := by
  intro hvb
  set D := F.filter fun a => t.num a ≠ 0 with hD
  set E := F.filter fun a => t.num a = 0 with hE
  have hcard : E.card + D.card = F.card := Finset.card_filter_add_card_filter_not _
  have hND : D.image t.num ⊆ U := by
    intro u hu
    obtain ⟨d, hd, rfl⟩ := Finset.mem_image.1 hu
    rw [hD, Finset.mem_filter] at hd
    apply hFU d hd.1
    rw [hn.filled d (inGrid_of_unit (hF hd.1)) hd.2]; simp
  have hNDc : (D.image t.num).card = D.card := by
    apply Finset.card_image_of_injOn
    intro a ha b hb e
    rw [Finset.mem_coe, hD, Finset.mem_filter] at ha hb
    rw [hn.num (inGrid_of_unit (hF ha.1)) ha.2, hn.num (inGrid_of_unit (hF hb.1)) hb.2] at e
    exact line_inj hn.cons (hF ha.1) (hF hb.1) e
  set W := U \ D.image t.num with hW
  have hWc : W.card ≤ E.card := by
    rw [hW, Finset.card_sdiff_of_subset hND, hNDc]; omega
  have hEW : ∀ a ∈ E, t.cand a ⊆ W := by
    intro a ha u hu
    rw [hE, Finset.mem_filter] at ha
    rw [hW, Finset.mem_sdiff]
    refine ⟨hFU a ha.1 hu, fun h => ?_⟩
    obtain ⟨d, hd, rfl⟩ := Finset.mem_image.1 h
    rw [hD, Finset.mem_filter] at hd
    refine hn.peers d a (inGrid_of_unit (hF hd.1)) (inGrid_of_unit (hF ha.1)) (peer_of_unit (hF hd.1) (hF ha.1) ?_) hd.2 hu
    rintro rfl; exact hd.2 ha.2
  have hvW : v ∈ W := by
    rw [hW, Finset.mem_sdiff]
    refine ⟨hv, fun h => ?_⟩
    obtain ⟨d, hd, rfl⟩ := Finset.mem_image.1 h
    rw [hD, Finset.mem_filter] at hd
    refine hn.peers d b (inGrid_of_unit (hF hd.1)) (inGrid_of_unit hb) (peer_of_unit (hF hd.1) hb ?_) hd.2 hvb
    rintro rfl; exact hbF hd.1
  have hEF : E ⊆ F := Finset.filter_subset _ _
  have hsub : E.biUnion t.cand ⊆ W := Finset.biUnion_subset.2 hEW
  have himg : E.image g ⊆ E.biUnion t.cand := by
    intro u hu
    obtain ⟨a, ha, rfl⟩ := Finset.mem_image.1 hu
    exact Finset.mem_biUnion.2 ⟨a, ha, hn.cons.2 a (inGrid_of_unit (hF (hEF ha)))⟩
  have himgc : (E.image g).card = E.card := by
    apply Finset.card_image_of_injOn
    intro a ha b hb e
    exact line_inj hn.cons (hF (hEF ha)) (hF (hEF hb)) e
  have h2 := Finset.card_le_card himg
  have heq : E.biUnion t.cand = W := Finset.eq_of_subset_of_card_le hsub (by omega)
  have hc2 : (E.biUnion t.cand).card ≤ E.card := by rw [heq]; exact hWc
  rw [← heq] at hvW
  obtain ⟨a, ha, hva⟩ := Finset.mem_biUnion.1 hvW
  have ha' := Finset.mem_filter.1 ha
  have heach : ∀ a ∈ E, 1 < (t.cand a).card ∧ (t.cand a).card ≤ E.card := by
    intro a ha
    have ha' := Finset.mem_filter.1 ha
    exact ⟨two_cands hn h1 (inGrid_of_unit (hF ha'.1)) ha'.2, le_trans (Finset.card_le_card (Finset.subset_biUnion_of_mem t.cand ha)) hc2⟩
  have hm := heach a ha
  have hle := Finset.card_le_card hEF
  refine hidle E.card (by omega) (by omega) k a E (inGrid_of_unit (hF ha'.1)) ha'.2 ⟨?_, rfl, heach, hc2, b, ?_⟩
  · rw [unit_eq_of_mem (hF ha'.1)]; exact hEF.trans hF
  · rw [nakedTargets, Finset.mem_filter, unit_eq_of_mem (hF ha'.1)]
    exact ⟨hb, fun h => hbF (hEF h), v, Finset.mem_inter.2 ⟨hvW, hvb⟩⟩

/-- A number that is not set in the unit has at least two places. -/
theorem two_places (hn : Neat g t) (h2 : Idle t .hiddenSingle) {k : Line} {e : Cell} (he : InGrid t.bw t.bh e) {v : Int}
    (hv : IsNumber t.bw t.bh v) (hno : ∀ a ∈ unitFields t k e, t.num a ≠ v) : 1 < (places t k e v).card := by
  obtain ⟨p, hp, e'⟩ := line_surj (k := k) hn.cons he hv
  have hp' := (mem_places.1 hp).1
  by_contra hle
  have hc : (places t k e v).card = 1 := by
    have := Finset.card_pos.2 ⟨_, hp⟩
    omega
  obtain ⟨q, hq⟩ := Finset.card_eq_one.1 hc
  have h0 : t.num p = 0 := by
    by_contra h0
    exact hno p hp' ((hn.num (inGrid_of_unit hp') h0).trans e')
  refine h2 p k v (inGrid_of_unit hp') h0 ⟨hv, fun b hb hne hvb => hne ?_⟩
  have hb' : b ∈ places t k e v := mem_places.2 ⟨by rw [← unit_eq_of_mem hp']; exact hb, hvb⟩
  rw [hq, Finset.mem_singleton] at hb' hp
  rw [hb', hp]

theorem hidden_mono (hn : Neat g t) (h2 : Idle t .hiddenSingle) {n : Nat} (hidle : ∀ m, 2 ≤ m → m ≤ n → Idle t (.hiddenTuple m))
    {k : Line} {e : Cell} (he : InGrid t.bw t.bh e) {V : Finset Int} {M : Finset Cell} (hV : ∀ v ∈ V, IsNumber t.bw t.bh v)
    (hVn : V.card ≤ n) (hM : M.card ≤ V.card) (hVM : ∀ v ∈ V, places t k e v ⊆ M) {b : Cell} (hb : b ∈ M) : t.cand b ⊆ V := by
  intro w hw
  by_contra hwV
  set X := M.filter fun a => a ∈ unitFields t k e ∧ t.num a ≠ 0 ∧ t.num a ∈ V with hX
  set D := V.filter fun v => ∃ a ∈ unitFields t k e, t.num a = v with hD
  set V' := V.filter fun v => ¬ ∃ a ∈ unitFields t k e, t.num a = v with hV'
  set M' := M.filter fun a => ¬ (a ∈ unitFields t k e ∧ t.num a ≠ 0 ∧ t.num a ∈ V) with hM'
  have hc1 : D.card + V'.card = V.card := Finset.card_filter_add_card_filter_not _
  have hc2 : X.card + M'.card = M.card := Finset.card_filter_add_card_filter_not _
  have hn0 : ∀ v ∈ V, v ≠ 0 := fun v hv => by have := (hV v hv).1; omega
  have hDX : D ⊆ X.image t.num := by
    intro v hv
    rw [hD, Finset.mem_filter] at hv
    obtain ⟨hvV, a, ha, rfl⟩ := hv
    refine Finset.mem_image.2 ⟨a, ?_, rfl⟩
    rw [hX, Finset.mem_filter]
    refine ⟨hVM _ hvV (mem_places.2 ⟨ha, ?_⟩), ha, hn0 _ hvV, hvV⟩
    have := hn.filled a (inGrid_of_unit ha) (hn0 _ hvV)
    show t.num a ∈ t.cand a
    rw [this]; simp
  have hc3 : D.card ≤ X.card := le_trans (Finset.card_le_card hDX) Finset.card_image_le
  have hc4 : M'.card ≤ V'.card := by omega
  have hV'V : V' ⊆ V := Finset.filter_subset _ _
  have hno : ∀ v ∈ V', ∀ a ∈ unitFields t k e, t.num a ≠ v := by
    intro v hv a ha e
    rw [hV', Finset.mem_filter] at hv
    exact hv.2 ⟨a, ha, e⟩
  have hsub : V'.biUnion (places t k e) ⊆ M' := by
    refine Finset.biUnion_subset.2 fun v hv a ha => ?_
    have ha' := mem_places.1 ha
    rw [hM', Finset.mem_filter]
    refine ⟨hVM v (hV'V hv) ha, fun h => ?_⟩
    have hva : v ∈ t.cand a := ha'.2
    rw [hn.filled a (inGrid_of_unit ha'.1) h.2.1, Finset.mem_singleton] at hva
    exact hno v hv a ha'.1 hva.symm
  have himg : V' ⊆ (V'.biUnion (places t k e)).image g := by
    intro v hv
    obtain ⟨p, hp, e'⟩ := line_surj hn.cons (k := k) he (hV v (hV'V hv))
    exact Finset.mem_image.2 ⟨p, Finset.mem_biUnion.2 ⟨v, hv, hp⟩, e'⟩
  have hc5 : V'.card ≤ (V'.biUnion (places t k e)).card := le_trans (Finset.card_le_card himg) Finset.card_image_le
  have heq : V'.biUnion (places t k e) = M' := Finset.eq_of_subset_of_card_le hsub (by omega)
  have hc6 : (V'.biUnion (places t k e)).card ≤ V'.card := by rw [heq]; exact hc4
  have hbM : b ∈ M' := by
    rw [hM', Finset.mem_filter]
    refine ⟨hb, fun h => ?_⟩
    rw [hn.filled b (inGrid_of_unit h.1) h.2.1, Finset.mem_singleton] at hw
    exact hwV (hw ▸ h.2.2)
  rw [← heq] at hbM
  obtain ⟨v, hv, hvb⟩ := Finset.mem_biUnion.1 hbM
  have hb' := mem_places.1 hvb
  have h0 : t.num b = 0 := by
    by_contra h0
    have hvb' : v ∈ t.cand b := hb'.2
    rw [hn.filled b (inGrid_of_unit hb'.1) h0, Finset.mem_singleton] at hvb'
    exact hno v hv b hb'.1 hvb'.symm
  have heach : ∀ v ∈ V', IsNumber t.bw t.bh v ∧ 1 < (places t k b v).card ∧ (places t k b v).card ≤ V'.card := by
    intro v hv
    rw [places_eq_of_mem hb'.1]
    exact ⟨hV v (hV'V hv), two_places hn h2 he (hV v (hV'V hv)) (hno v hv),
      le_trans (Finset.card_le_card (Finset.subset_biUnion_of_mem (places t k e) hv)) hc6⟩
  have hm := heach v hv
  have hle := Finset.card_le_card hV'V
  have hfun : places t k b = places t k e := funext fun v => places_eq_of_mem hb'.1 v
  refine hidle V'.card (by omega) (by omega) k b V' (inGrid_of_unit hb'.1) h0 ⟨rfl, heach, by rw [hfun]; exact hc6, b, ?_⟩
  rw [hiddenTargets, Finset.mem_filter, hfun]
  exact ⟨hbM, w, Finset.mem_sdiff.2 ⟨hw, fun h => hwV (hV'V h)⟩⟩

theorem pointing_mono (hn : Neat g t) (h2 : Idle t .hiddenSingle) {n : Nat} (hidle : ∀ m, 2 ≤ m → m ≤ n → Idle t (.pointingTuple m))
    {k k' : Line} (hkk : k = .box ∧ k' ≠ .box ∨ k ≠ .box ∧ k' = .box) {e f : Cell} (he : InGrid t.bw t.bh e) {v : Int}
    (hv : IsNumber t.bw t.bh v) (hcard : (places t k e v).card ≤ n) (hsub : places t k e v ⊆ unitFields t k' f) {b : Cell}
    (hb : b ∈ unitFields t k' f) (hbe : b ∉ unitFields t k e) : v ∉ t.cand b := by
  intro hvb
  obtain ⟨p, hp, e'⟩ := line_surj (k := k) hn.cons he hv
  have hp' := mem_places.1 hp
  have hpf := hsub hp
  have hpb : p ≠ b := by rintro rfl; exact hbe hp'.1
  have hno : ∀ a ∈ unitFields t k e, t.num a ≠ v := by
    intro a ha ea
    have h0 : t.num a ≠ 0 := by have := hv.1; omega
    have hap : a ∈ places t k e v := mem_places.2 ⟨ha, by
      show v ∈ t.cand a
      rw [hn.filled a (inGrid_of_unit ha) h0, ea]; simp⟩
    have hab : a ≠ b := by rintro rfl; exact hbe ha
    refine hn.peers a b (inGrid_of_unit ha) (inGrid_of_unit hb) (peer_of_unit (hsub hap) hb hab) h0 ?_
    rw [ea]; exact hvb
  have htwo := two_places hn h2 he hv hno
  refine hidle _ htwo hcard k k' e p v hkk ⟨hv, rfl, hp, ?_, b, ?_⟩
  · rw [unit_eq_of_mem hpf]; exact hsub
  · rw [pointingTargets, Finset.mem_sdiff, mem_places, unit_eq_of_mem hpf]
    exact ⟨⟨hb, hvb⟩, fun h => hbe (mem_places.1 h).1⟩

/-! ### fishes -/

theorem mem_along {byRow : Bool} {i : Nat} {v : Int} {a : Cell} :
    a ∈ places t (along byRow) (i, i) v ↔ InGrid t.bw t.bh a ∧ across (!byRow) a = i ∧ v ∈ t.cand a := by
  rw [mem_places, mem_unitFields]
  cases byRow
  · constructor
    · rintro ⟨⟨h1, h2⟩, h3⟩; exact ⟨h1, Eq.symm h2, h3⟩
    · rintro ⟨h1, h2, h3⟩; exact ⟨⟨h1, Eq.symm h2⟩, h3⟩
  · constructor
    · rintro ⟨⟨h1, h2⟩, h3⟩; exact ⟨h1, Eq.symm h2, h3⟩
    · rintro ⟨h1, h2, h3⟩; exact ⟨⟨h1, Eq.symm h2⟩, h3⟩

theorem peer_across {w h : Nat} {byRow : Bool} {a b : Cell} (e : across byRow a = across byRow b) (hne : a ≠ b) : Peer w h a b := by
  refine ⟨hne, ?_⟩
  cases byRow
  · exact Or.inl e
  · exact Or.inr (Or.inl e)

theorem cell_ext {byRow : Bool} {a b : Cell} (e1 : across byRow a = across byRow b) (e2 : across (!byRow) a = across (!byRow) b) : a = b := by
  cases byRow
  · exact Prod.ext e1 e2
  · exact Prod.ext e2 e1

/-- Rows in which the number is not set: take away columns with one place as long as there are any. -/
theorem fish_core (hn : Neat g t) {n : Nat} (hidle : ∀ m, 2 ≤ m → m ≤ n → Idle t (.basicFish m)) {byRow : Bool} {v : Int}
    (hv : IsNumber t.bw t.bh v) : ∀ (N : Nat) (I C : Finset Nat), I.card = N → N ≤ n → (∀ i ∈ I, i < t.bw * t.bh) → C.card ≤ I.card →
      (∀ i ∈ I, 2 ≤ (places t (along byRow) (i, i) v).card) →
      (∀ i ∈ I, ∀ a ∈ places t (along byRow) (i, i) v, across byRow a ∈ C) →
      ∀ b, InGrid t.bw t.bh b → across byRow b ∈ C → across (!byRow) b ∉ I → v ∉ t.cand b := by
  intro N
  induction N with
  | zero =>
    intro I C hI _ _ hC _ _ b _ hbC _
    have : C.card = 0 := by omega
    rw [Finset.card_eq_zero] at this
    rw [this] at hbC; cases hbC
  | succ N ih =>
    intro I C hI hNn hlt hC htwo hcols b hb hbC hbI hvb
    set B := fishBase t byRow v I with hB
    have hmemB : ∀ a, a ∈ B ↔ InGrid t.bw t.bh a ∧ across (!byRow) a ∈ I ∧ v ∈ t.cand a := by
      intro a
      rw [hB, fishBase, Finset.mem_biUnion]
      constructor
      · rintro ⟨i, hi, ha⟩
        obtain ⟨h1, h2, h3⟩ := mem_along.1 ha
        exact ⟨h1, h2 ▸ hi, h3⟩
      · rintro ⟨h1, h2, h3⟩
        exact ⟨_, h2, mem_along.2 ⟨h1, rfl, h3⟩⟩
    have himC : B.image (across byRow) ⊆ C := by
      intro x hx
      obtain ⟨a, ha, rfl⟩ := Finset.mem_image.1 hx
      obtain ⟨h1, h2, h3⟩ := (hmemB a).1 ha
      exact hcols _ h2 a (mem_along.2 ⟨h1, rfl, h3⟩)
    -- the columns of the solution
    have hpos : ∀ i ∈ I, ∃ p ∈ places t (along byRow) (i, i) v, g p = v := fun i hi => line_surj hn.cons ⟨hlt i hi, hlt i hi⟩ hv
    classical
    let pos : Nat → Cell := fun i => if hi : i ∈ I then (hpos i hi).choose else (0, 0)
    have hp1 : ∀ i ∈ I, pos i ∈ places t (along byRow) (i, i) v := by
      intro i hi; simp only [pos, dif_pos hi]; exact (hpos i hi).choose_spec.1
    have hp2 : ∀ i ∈ I, g (pos i) = v := by
      intro i hi; simp only [pos, dif_pos hi]; exact (hpos i hi).choose_spec.2
    have hsub : I.image (fun i => across byRow (pos i)) ⊆ B.image (across byRow) := by
      intro x hx
      obtain ⟨i, hi, rfl⟩ := Finset.mem_image.1 hx
      refine Finset.mem_image_of_mem _ ((hmemB _).2 ?_)
      obtain ⟨h1, h2, h3⟩ := mem_along.1 (hp1 i hi)
      exact ⟨h1, by rw [h2]; exact hi, h3⟩
    have hinj : Set.InjOn (fun i => across byRow (pos i)) (I : Set Nat) := by
      intro i hi j hj e
      obtain ⟨h1, h2, -⟩ := mem_along.1 (hp1 i hi)
      obtain ⟨h3, h4, -⟩ := mem_along.1 (hp1 j hj)
      by_contra hij
      have hne : pos i ≠ pos j := by intro e'; apply hij; rw [← h2, ← h4, e']
      have h0 : g (pos i) ≠ 0 := by rw [hp2 i hi]; have := hv.1; omega
      exact hn.cons.1.valid _ _ h1 h3 (peer_across e hne) h0 ((hp2 i hi).trans (hp2 j hj).symm)
    have hc1 : (I.image fun i => across byRow (pos i)).card = I.card := Finset.card_image_of_injOn hinj
    have hc2 := Finset.card_le_card hsub
    have heq : B.image (across byRow) = C := Finset.eq_of_subset_of_card_le himC (by omega)
    have hcover : (B.image (across byRow)).card ≤ I.card := by rw [heq]; exact hC
    have hrow : ∀ i ∈ I, (places t (along byRow) (i, i) v).card ≤ I.card := by
      intro i hi
      refine le_trans ?_ hcover
      refine Finset.card_le_card_of_injOn (across byRow) (fun a ha => ?_) ?_
      · rw [Finset.mem_coe] at ha ⊢
        obtain ⟨h1, h2, h3⟩ := mem_along.1 ha
        exact Finset.mem_image_of_mem _ ((hmemB a).2 ⟨h1, h2 ▸ hi, h3⟩)
      · intro a ha c hc e
        rw [Finset.mem_coe] at ha hc
        exact cell_ext e ((mem_along.1 ha).2.1.trans (mem_along.1 hc).2.1.symm)
    by_cases htw : ∀ x ∈ B.image (across byRow), 2 ≤ (B.filter fun a => across byRow a = x).card
    · obtain ⟨i, hi⟩ : I.Nonempty := Finset.card_pos.1 (by omega)
      have h2 := htwo i hi
      have h3 := hrow i hi
      refine hidle I.card (by omega) (by omega) byRow v I ⟨hv, hlt, rfl, fun i hi => ⟨htwo i hi, hrow i hi⟩, hcover, htw, b, ?_⟩
      rw [fishTargets, Finset.mem_filter, mem_fields]
      refine ⟨hb, ?_, fun h => hbI ((hmemB b).1 h).2.1, hvb⟩
      rw [← hB, heq]; exact hbC
    · push Not at htw
      obtain ⟨x, hx, hx2⟩ := htw
      obtain ⟨a, ha, hax⟩ := Finset.mem_image.1 hx
      obtain ⟨ha1, ha2, ha3⟩ := (hmemB a).1 ha
      have honly : ∀ c ∈ B, across byRow c = x → c = a := by
        intro c hc hcx
        have : (B.filter fun a => across byRow a = x).card ≤ 1 := by omega
        exact Finset.card_le_one.1 this c (Finset.mem_filter.2 ⟨hc, hcx⟩) a (Finset.mem_filter.2 ⟨ha, hax⟩)
      -- the other place in that row
      obtain ⟨d, hd, hda⟩ : ∃ d ∈ places t (along byRow) (across (!byRow) a, across (!byRow) a) v, d ≠ a :=
        Finset.exists_mem_ne (by have := htwo _ ha2; omega) a
      obtain ⟨hd1, hd2, hd3⟩ := mem_along.1 hd
      have hxC : x ∈ C := by rw [← heq]; exact hx
      refine ih (I.erase (across (!byRow) a)) (C.erase x) (by rw [Finset.card_erase_of_mem ha2]; omega) (by omega)
        (fun i hi => hlt i (Finset.mem_of_mem_erase hi)) ?_ (fun i hi => htwo i (Finset.mem_of_mem_erase hi)) ?_ d hd1 ?_ ?_ hd3
      · rw [Finset.card_erase_of_mem ha2, Finset.card_erase_of_mem hxC]; omega
      · intro i hi c hc
        have hi' := Finset.mem_erase.1 hi
        obtain ⟨h1, h2, h3⟩ := mem_along.1 hc
        refine Finset.mem_erase.2 ⟨fun e => ?_, hcols i hi'.2 c hc⟩
        have := honly c ((hmemB c).2 ⟨h1, h2 ▸ hi'.2, h3⟩) e
        rw [this] at h2; exact hi'.1 h2.symm
      · refine Finset.mem_erase.2 ⟨fun e => ?_, hcols _ ha2 d hd⟩
        exact hda (honly d ((hmemB d).2 ⟨hd1, hd2 ▸ ha2, hd3⟩) e)
      · intro h
        exact (Finset.mem_erase.1 h).1 hd2

theorem fish_mono (hn : Neat g t) (h2 : Idle t .hiddenSingle) {n : Nat} (hidle : ∀ m, 2 ≤ m → m ≤ n → Idle t (.basicFish m)) {byRow : Bool}
    {v : Int} (hv : IsNumber t.bw t.bh v) {I C : Finset Nat} (hIn : I.card ≤ n) (hlt : ∀ i ∈ I, i < t.bw * t.bh) (hC : C.card ≤ I.card)
    (hcols : ∀ a, InGrid t.bw t.bh a → across (!byRow) a ∈ I → v ∈ t.cand a → across byRow a ∈ C) {b : Cell} (hb : InGrid t.bw t.bh b)
    (hbC : across byRow b ∈ C) (hbI : across (!byRow) b ∉ I) : v ∉ t.cand b := by
  intro hvb
  have hv0 : v ≠ 0 := by have := hv.1; omega
  -- the rows where the number is set
  let Set' : Nat → Prop := fun i => ∃ a ∈ unitFields t (along byRow) (i, i), t.num a = v
  classical
  set D := I.filter Set' with hD
  set J := I.filter fun i => ¬ Set' i with hJ
  have hc1 : D.card + J.card = I.card := Finset.card_filter_add_card_filter_not _
  have hset : ∀ i ∈ D, ∃ a, InGrid t.bw t.bh a ∧ across (!byRow) a = i ∧ t.num a = v ∧ v ∈ t.cand a := by
    intro i hi
    obtain ⟨hi1, a, ha, ea⟩ := Finset.mem_filter.1 hi
    have h0 : t.num a ≠ 0 := by rw [ea]; exact hv0
    have hva : v ∈ t.cand a := by rw [hn.filled a (inGrid_of_unit ha) h0, ea]; simp
    have := mem_along.1 (mem_places.2 ⟨ha, hva⟩)
    exact ⟨a, this.1, this.2.1, ea, hva⟩
  let pos : Nat → Cell := fun i => if hi : i ∈ D then (hset i hi).choose else (0, 0)
  have hpos : ∀ i ∈ D, InGrid t.bw t.bh (pos i) ∧ across (!byRow) (pos i) = i ∧ t.num (pos i) = v ∧ v ∈ t.cand (pos i) := by
    intro i hi; simp only [pos, dif_pos hi]; exact (hset i hi).choose_spec
  have hDI : D ⊆ I := Finset.filter_subset _ _
  have hJI : J ⊆ I := Finset.filter_subset _ _
  have hsub : D.image (fun i => across byRow (pos i)) ⊆ C := by
    intro x hx
    obtain ⟨i, hi, rfl⟩ := Finset.mem_image.1 hx
    obtain ⟨h1, h2, h3, h4⟩ := hpos i hi
    exact hcols _ h1 (by rw [h2]; exact hDI hi) h4
  have hno : ∀ i ∈ D, ∀ a, InGrid t.bw t.bh a → a ≠ pos i → across byRow a = across byRow (pos i) → v ∉ t.cand a := by
    intro i hi a ha hne e
    obtain ⟨h1, h2, h3, h4⟩ := hpos i hi
    have := hn.peers (pos i) a h1 ha (peer_across e.symm hne.symm) (by rw [h3]; exact hv0)
    rwa [h3] at this
  have hinj : Set.InjOn (fun i => across byRow (pos i)) (D : Set Nat) := by
    intro i hi j hj e
    by_contra hij
    obtain ⟨h1, h2, h3, h4⟩ := hpos i hi
    obtain ⟨h5, h6, h7, h8⟩ := hpos j hj
    refine hno j hj (pos i) h1 (fun e' => hij ?_) e h4
    rw [← h2, ← h6, e']
  have hc2 : (D.image fun i => across byRow (pos i)).card = D.card := Finset.card_image_of_injOn hinj
  have hcard : (C \ D.image fun i => across byRow (pos i)).card ≤ J.card := by
    rw [Finset.card_sdiff_of_subset hsub, hc2]; omega
  have hout : ∀ a, InGrid t.bw t.bh a → across (!byRow) a ∉ D → v ∈ t.cand a → across byRow a ∈ C →
      across byRow a ∈ C \ D.image fun i => across byRow (pos i) := by
    intro a ha hal hva hac
    refine Finset.mem_sdiff.2 ⟨hac, fun h => ?_⟩
    obtain ⟨i, hi, e⟩ := Finset.mem_image.1 h
    refine hno i hi a ha (fun e' => hal ?_) e.symm hva
    rw [e', (hpos i hi).2.1]; exact hi
  refine fish_core hn hidle hv J.card J (C \ D.image fun i => across byRow (pos i)) rfl (by omega) (fun i hi => hlt i (hJI hi)) hcard ?_ ?_
    b hb (hout b hb (fun h => hbI (hDI h)) hvb hbC) (fun h => hbI (hJI h)) hvb
  · intro i hi
    have hi' := Finset.mem_filter.1 hi
    refine two_places hn h2 ⟨hlt i hi'.1, hlt i hi'.1⟩ hv fun a ha e => hi'.2 ⟨a, ha, e⟩
  · intro i hi a ha
    obtain ⟨h1, h2, h3⟩ := mem_along.1 ha
    have hi' := Finset.mem_filter.1 hi
    refine hout a h1 (fun h => ?_) h3 (hcols a h1 (by rw [h2]; exact hi'.1) h3)
    rw [h2] at h
    exact hi'.2 (Finset.mem_filter.1 h).2

end

end Solvers
