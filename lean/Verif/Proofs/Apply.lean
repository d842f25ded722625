import Verif.Proofs.Solvers
import Mathlib.Algebra.Order.BigOperators.Group.Finset

set_option autoImplicit false

/-! Helper lemmas: what applying a step does. -/

open Spec

namespace Solvers

theorem foldl_remove (l : List Cell) (f : Cell → Finset Int) (s : Sudoku) :
    (l.map fun a => Action.removeCandidates a (f a)).foldl Action.exec s =
      { s with cand := fun b => if b ∈ l then s.cand b \ f b else s.cand b } := by
  induction l generalizing s with
  | nil => simp
  | cons x l ih =>
    rw [List.map_cons, List.foldl_cons, ih]
    simp only [Action.exec, Sudoku.removeCandidates, List.mem_cons]
    congr 1
    funext b
    by_cases hb : b = x
    · subst hb
      by_cases hl : b ∈ l
      · simp [hl]
      · simp [hl]
    · simp [hb]

/-- What applying a found step does. -/
theorem apply_calc {st : Step} (s : Sudoku) (hk : st.kind = .calculateCandidates) {a : Cell} (ha : st.clues = [a]) :
    Step.apply s st = s.setCandidates a st.values.toFinset := by
  unfold Step.apply Step.build
  rw [hk]
  simp only [ha]
  rfl

theorem buildSingle_exec {s : Sudoku} {a : Cell} (hag : InGrid s.bw s.bh a) (v : Int) :
    (buildSingle a v s).foldl Action.exec s = { s with
      num := fun b => if b = a then v else s.num b
      cand := fun b => if b = a then {v} else if b ∈ s.surroundingOf a false then s.cand b \ {v} else s.cand b } := by
  simp only [buildSingle, List.foldl_cons]
  rw [foldl_remove _ (fun _ => {v})]
  simp only [Action.exec, Sudoku.setNumber, Sudoku.setCandidates]
  congr 1
  funext b
  simp only [List.mem_filter, Sudoku.getCandidates]
  by_cases hb : b = a
  · subst hb
    have : b ∉ s.surroundingOf b false := by
      rw [Sudoku.mem_surroundingOf_false s hag]
      exact fun h => h.2.1 rfl
    simp [this]
  · by_cases hs : b ∈ s.surroundingOf a false
    · by_cases hv : v ∈ s.cand b
      · simp [hb, hs, hv]
      · simp [hb, hs, hv, Finset.sdiff_singleton_eq_erase]
    · simp [hb, hs]

theorem apply_single {st : Step} (s : Sudoku)
    (hk : st.kind = .nakedSingle ∨ st.kind = .hiddenSingle ∨ st.kind = .bruteforce) {a : Cell} {v : Int}
    (hag : InGrid s.bw s.bh a) (ha : st.affected = [a]) (hv : st.values = [v]) :
    Step.apply s st = { s with
      num := fun b => if b = a then v else s.num b
      cand := fun b => if b = a then {v} else if b ∈ s.surroundingOf a false then s.cand b \ {v} else s.cand b } := by
  rw [← buildSingle_exec hag]
  unfold Step.apply Step.build
  rcases hk with hk | hk | hk <;> simp only [hk, ha, hv]

theorem apply_naked {st : Step} (s : Sudoku) {n : Nat} (hk : st.kind = .nakedTuple n) :
    Step.apply s st = { s with cand := fun b => if b ∈ st.affected then s.cand b \ st.values.toFinset else s.cand b } := by
  unfold Step.apply Step.build
  rw [hk]
  simp only
  rw [foldl_remove st.affected (fun a => st.values.toFinset ∩ s.getCandidates a)]
  congr 1
  funext b
  split
  · ext x; simp only [Finset.mem_sdiff, Finset.mem_inter, Sudoku.getCandidates]; tauto
  · rfl

theorem apply_hidden {st : Step} (s : Sudoku) {n : Nat} (hk : st.kind = .hiddenTuple n) :
    Step.apply s st = { s with cand := fun b => if b ∈ st.affected then s.cand b ∩ st.values.toFinset else s.cand b } := by
  unfold Step.apply Step.build
  rw [hk]
  simp only
  rw [foldl_remove st.affected (fun a => s.getCandidates a \ st.values.toFinset)]
  congr 1
  funext b
  split
  · ext x; simp only [Finset.mem_sdiff, Finset.mem_inter, Sudoku.getCandidates]; tauto
  · rfl

theorem apply_line {st : Step} (s : Sudoku) {n : Nat} (hk : st.kind = .pointingTuple n ∨ st.kind = .basicFish n) {v : Int}
    (hv : st.values = [v]) :
    Step.apply s st = { s with cand := fun b => if b ∈ st.affected then s.cand b \ {v} else s.cand b } := by
  have : Step.apply s st = (st.affected.map fun a => Action.removeCandidates a {v}).foldl Action.exec s := by
    unfold Step.apply Step.build
    rcases hk with hk | hk <;> simp only [hk, hv] <;> rfl
  rw [this, foldl_remove st.affected (fun _ => {v})]

/-- The dimensions stay. -/
theorem apply_dims (s : Sudoku) (st : Step) : (Step.apply s st).bw = s.bw ∧ (Step.apply s st).bh = s.bh := by
  unfold Step.apply
  split
  · exact ⟨rfl, rfl⟩
  · rename_i acts _
    refine foldl_inv (fun t : Sudoku => t.bw = s.bw ∧ t.bh = s.bh) _ acts ?_ s ⟨rfl, rfl⟩
    rintro t (_ | _ | _) _ ht <;> exact ht

/-- The kinds that fill a field. -/
def Kind.Fills (k : Kind) : Prop := k = .nakedSingle ∨ k = .hiddenSingle ∨ k = .bruteforce

instance (k : Kind) : Decidable k.Fills := inferInstanceAs (Decidable (_ ∨ _))

/-- The shape of the found steps. -/
def Shape (w h : Nat) (st : Step) : Prop :=
  (∀ a ∈ st.affected, InGrid w h a) ∧
  match st.kind with
  | .calculateCandidates => ∃ a, st.clues = [a] ∧ st.affected = [a]
  | .nakedSingle | .hiddenSingle | .bruteforce => ∃ a v, st.affected = [a] ∧ st.values = [v]
  | .nakedTuple _ => True
  | .pointingTuple _ | .basicFish _ => ∃ v, st.values = [v]
  | .hiddenTuple _ => True

theorem Useful.shape {s : Sudoku} {st : Step} (hu : Useful s st) : Shape s.bw s.bh st := by
  obtain ⟨hin, hu⟩ := hu
  refine ⟨hin, ?_⟩
  rcases hk : st.kind with _ | _ | _ | _ | n | n | n | n <;> rw [hk] at hu <;> simp only at hu ⊢
  · obtain ⟨a, h1, h2, -⟩ := hu; exact ⟨a, h1, h2⟩
  · obtain ⟨a, v, -, h1, h2, -⟩ := hu; exact ⟨a, v, h1, h2⟩
  · obtain ⟨a, v, -, h1, h2, -⟩ := hu; exact ⟨a, v, h1, h2⟩
  · obtain ⟨a, v, -, h1, h2, -⟩ := hu; exact ⟨a, v, h1, h2⟩
  · obtain ⟨v, h1, -⟩ := hu; exact ⟨v, h1⟩
  · obtain ⟨v, h1, -⟩ := hu; exact ⟨v, h1⟩

/-- The three things a step can do. -/
inductive Effect (s : Sudoku) (st : Step) : Prop
  | calc (a : Cell) (hk : st.kind = .calculateCandidates) (ha : InGrid s.bw s.bh a)
      (e : Step.apply s st = s.setCandidates a st.values.toFinset)
      (truth : ∀ g, TrueOf g st → g a ∈ st.values)
      (useful : Useful s st → s.cand a = ∅ ∧ st.values.length ≤ s.bw * s.bh)
  | fill (a : Cell) (v : Int) (hk : st.kind.Fills) (ha : InGrid s.bw s.bh a)
      (e : Step.apply s st = { s with
        num := fun b => if b = a then v else s.num b
        cand := fun b => if b = a then {v} else if b ∈ s.surroundingOf a false then s.cand b \ {v} else s.cand b })
      (truth : ∀ g, TrueOf g st → g a = v)
      (useful : Useful s st → s.num a = 0 ∧ (v ∈ s.cand a ∨ IsNumber s.bw s.bh v))
  | remove (R : Cell → Finset Int) (hk : st.kind ≠ .calculateCandidates ∧ ¬ st.kind.Fills)
      (e : Step.apply s st = { s with cand := fun b => s.cand b \ R b })
      (truth : ∀ g, TrueOf g st → ∀ b, g b ∉ R b)
      (useful : Useful s st → ∃ a, InGrid s.bw s.bh a ∧ ∃ v ∈ R a, v ∈ s.cand a)

theorem remove_aux (s : Sudoku) (l : List Cell) (R : Cell → Finset Int) :
    ({ s with cand := fun b => if b ∈ l then s.cand b \ R b else s.cand b } : Sudoku) =
      { s with cand := fun b => s.cand b \ (if b ∈ l then R b else ∅) } := by
  congr 1
  funext b
  split <;> simp

theorem effect {s : Sudoku} {st : Step} (hs : Shape s.bw s.bh st) : Effect s st := by
  obtain ⟨hin, hs⟩ := hs
  have hfill : ∀ a v, st.kind.Fills → st.affected = [a] → st.values = [v] → Effect s st := by
    intro a v hk h1 h2
    have ha := hin a (by rw [h1]; simp)
    refine .fill a v hk ha (apply_single s hk ha h1 h2) ?_ ?_
    · intro g hg
      unfold TrueOf at hg
      rcases hk with hk | hk | hk <;> rw [hk] at hg <;> exact hg a (by rw [h1]; simp) v (by rw [h2]; simp)
    · rintro ⟨-, hu⟩
      rcases hk with hk | hk | hk <;>
      · rw [hk] at hu
        simp only at hu
        obtain ⟨b, u, -, e1, e2, h3, h4⟩ := hu
        rw [h1, List.singleton_inj] at e1
        rw [h2, List.singleton_inj] at e2
        subst e1 e2
        exact ⟨h3, h4⟩
  rcases hk : st.kind with _ | _ | _ | _ | n | n | n | n <;> rw [hk] at hs <;> simp only at hs
  · obtain ⟨a, h1, h2⟩ := hs
    refine .calc a hk (hin a (by rw [h2]; simp)) (apply_calc s hk h1) ?_ ?_
    · intro g hg; unfold TrueOf at hg; rw [hk] at hg; exact hg a (by rw [h2]; simp)
    · rintro ⟨-, hu⟩
      rw [hk] at hu; simp only at hu
      obtain ⟨b, -, e1, h3⟩ := hu
      rw [h2, List.singleton_inj] at e1
      subst e1; exact h3
  · obtain ⟨a, v, h1, h2⟩ := hs; exact hfill a v (Or.inl hk) h1 h2
  · obtain ⟨a, v, h1, h2⟩ := hs; exact hfill a v (Or.inr (Or.inl hk)) h1 h2
  · obtain ⟨a, v, h1, h2⟩ := hs; exact hfill a v (Or.inr (Or.inr hk)) h1 h2
  · refine .remove (fun b => if b ∈ st.affected then st.values.toFinset else ∅) (by simp [hk, Kind.Fills])
      (by rw [apply_naked s hk, remove_aux]) ?_ ?_
    · intro g hg b
      unfold TrueOf at hg; rw [hk] at hg
      split
      · rename_i hb; rw [List.mem_toFinset]; exact hg b hb
      · simp
    · rintro ⟨-, hu⟩
      rw [hk] at hu; simp only at hu
      obtain ⟨a, ha, v, hv, hc⟩ := hu
      exact ⟨a, hin a ha, v, by simp only [if_pos ha, List.mem_toFinset]; exact hv, hc⟩
  · refine .remove (fun b => if b ∈ st.affected then s.cand b \ st.values.toFinset else ∅) (by simp [hk, Kind.Fills])
      ?_ ?_ ?_
    · rw [apply_hidden s hk, ← remove_aux]
      congr 1
      funext b
      split
      · ext x; simp only [Finset.mem_sdiff, Finset.mem_inter]; tauto
      · rfl
    · intro g hg b
      unfold TrueOf at hg; rw [hk] at hg
      split
      · rename_i hb
        have := hg b hb
        rw [Finset.mem_sdiff, List.mem_toFinset]; exact fun h => h.2 this
      · simp
    · rintro ⟨-, hu⟩
      rw [hk] at hu; simp only at hu
      obtain ⟨a, ha, v, hv, hc⟩ := hu
      refine ⟨a, hin a ha, v, ?_, hv⟩
      simp only [if_pos ha, Finset.mem_sdiff, List.mem_toFinset]; exact ⟨hv, hc⟩
  all_goals
    obtain ⟨v, hv⟩ := hs
    refine .remove (fun b => if b ∈ st.affected then {v} else ∅) (by simp [hk, Kind.Fills]) ?_ ?_ ?_
    · first
      | rw [apply_line s (Or.inl hk) hv, remove_aux]
      | rw [apply_line s (Or.inr hk) hv, remove_aux]
    · intro g hg b
      unfold TrueOf at hg; rw [hk] at hg
      split
      · rename_i hb
        have := hg b hb
        rw [hv] at this
        rw [Finset.mem_singleton]; exact fun e => this (by simp [e])
      · simp
    · rintro ⟨-, hu⟩
      rw [hk] at hu; simp only at hu
      obtain ⟨u, hu, a, ha, hc⟩ := hu
      rw [hv, List.singleton_inj] at hu
      subst hu
      exact ⟨a, hin a ha, v, by simp only [if_pos ha, Finset.mem_singleton], hc⟩

theorem solution_set {s : Sudoku} {g : Grid} {a : Cell} {v : Int} (hg : IsSolution s.bw s.bh s.num g) (e : g a = v) :
    IsSolution s.bw s.bh (fun b => if b = a then v else s.num b) g := by
  refine ⟨?_, hg.full, hg.valid⟩
  intro b hb hne
  simp only at hne ⊢
  split
  · rename_i h; rw [h, e]
  · rename_i h; rw [if_neg h] at hne; exact hg.keeps b hb hne

theorem mayContain_apply {s : Sudoku} {st : Step} {g : Grid} (hs : Shape s.bw s.bh st) (hg : TrueOf g st)
    (hm : MayContain s g) : MayContain (Step.apply s st) g := by
  obtain ⟨hsol, hc⟩ := hm
  rcases effect hs with ⟨a, hk, ha, e, truth, -⟩ | ⟨a, v, hk, ha, e, truth, -⟩ | ⟨R, hk, e, truth, -⟩ <;> rw [e]
  · refine ⟨hsol, fun b hb => ?_⟩
    simp only [Sudoku.setCandidates]
    split
    · rename_i e; subst e
      right; rw [List.mem_toFinset]; exact truth g hg
    · exact hc b hb
  · have hv := truth g hg
    refine ⟨solution_set hsol hv, fun b hb => ?_⟩
    simp only
    split
    · rename_i e; subst e; right; simp [hv]
    · split
      · rename_i hs
        rw [Sudoku.mem_surroundingOf_false s ha] at hs
        rcases hc b hb with h | h
        · left; rw [h]; simp
        · right
          rw [Finset.mem_sdiff, Finset.mem_singleton]
          refine ⟨h, fun e => ?_⟩
          have h0 : g a ≠ 0 := by have := (hsol.full a ha).1; omega
          exact hsol.valid a b ha hs.1 hs.2 h0 (hv.trans e.symm)
      · exact hc b hb
  · refine ⟨hsol, fun b hb => ?_⟩
    rcases hc b hb with h | h
    · left; simp only; rw [h]; simp
    · right; simp only [Finset.mem_sdiff]; exact ⟨h, truth g hg b⟩

theorem contains_apply {s : Sudoku} {st : Step} {g : Grid} (hs : Shape s.bw s.bh st) (hg : TrueOf g st)
    (hm : Contains s g) : Contains (Step.apply s st) g := by
  have h1 := mayContain_apply hs hg ⟨hm.1, fun a ha => Or.inr (hm.2 a ha)⟩
  refine ⟨h1.1, fun a ha => ?_⟩
  rcases h1.2 a ha with h | h
  · exfalso
    have hb := apply_dims s st
    have hga := hm.2 a (by rw [hb.1, hb.2] at ha; exact ha)
    have ha' : InGrid s.bw s.bh a := by rw [hb.1, hb.2] at ha; exact ha
    rcases effect hs with ⟨c, hk, hc, e, truth, -⟩ | ⟨c, v, hk, hc, e, truth, -⟩ | ⟨R, hk, e, truth, -⟩ <;> rw [e] at h
    · simp only [Sudoku.setCandidates] at h
      split at h
      · have := List.mem_toFinset.2 (truth g hg); rw [h] at this; simp at this
      · rw [h] at hga; simp at hga
    · simp only at h
      split at h
      · simp at h
      · rename_i hne
        have hv := truth g hg
        split at h
        · rename_i hsur
          rw [Sudoku.mem_surroundingOf_false s hc] at hsur
          have h0 : g c ≠ 0 := by have := (hm.1.full c hc).1; omega
          have : g a ∈ s.cand a \ {v} := by
            rw [Finset.mem_sdiff, Finset.mem_singleton]
            exact ⟨hga, fun e => hm.1.valid c a hc hsur.1 hsur.2 h0 (hv.trans e.symm)⟩
          rw [h] at this; simp at this
        · rw [h] at hga; simp at hga
    · have : g a ∈ s.cand a \ R a := Finset.mem_sdiff.2 ⟨hga, truth g hg a⟩
      simp only at h
      rw [h] at this; simp at this
  · exact h

/-! ### the measure -/

/-- The weight of a field. -/
def weight (s : Sudoku) (a : Cell) : Nat :=
  (if s.cand a = ∅ then s.bw * s.bh + 1 else (s.cand a).card) + if s.num a = 0 then 1 else 0

def measure (s : Sudoku) : Nat := ∑ a ∈ (s.cells.toFinset : Finset Cell), weight s a

theorem cells_congr {s t : Sudoku} (hw : s.bw = t.bw) (hh : s.bh = t.bh) : s.cells = t.cells := by
  unfold Sudoku.cells Sudoku.indices Sudoku.n; rw [hw, hh]

theorem measure_lt {s t : Sudoku} (hw : t.bw = s.bw) (hh : t.bh = s.bh)
    (hle : ∀ a, InGrid s.bw s.bh a → weight t a ≤ weight s a) (a : Cell) (ha : InGrid s.bw s.bh a)
    (hlt : weight t a < weight s a) : measure t < measure s := by
  unfold measure
  rw [cells_congr hw hh]
  refine Finset.sum_lt_sum ?_ ⟨a, ?_, hlt⟩
  · intro b hb; rw [List.mem_toFinset, Sudoku.mem_cells] at hb; exact hle b hb
  · rw [List.mem_toFinset, Sudoku.mem_cells]; exact ha

theorem weight_sdiff_le {S R : Finset Int} {g : Int} (N : Nat) (h : S = ∅ ∨ g ∈ S) (hg : g ∉ R) :
    (if S \ R = ∅ then N + 1 else (S \ R).card) ≤ (if S = ∅ then N + 1 else S.card) := by
  rcases h with h | h
  · subst h; simp
  · have h1 : S ≠ ∅ := by rintro rfl; simp at h
    have h2 : g ∈ S \ R := Finset.mem_sdiff.2 ⟨h, hg⟩
    have h3 : S \ R ≠ ∅ := by intro e; rw [e] at h2; simp at h2
    rw [if_neg h1, if_neg h3]
    exact Finset.card_le_card Finset.sdiff_subset

theorem weight_sdiff_lt {S R : Finset Int} {g v : Int} (N : Nat) (h : S = ∅ ∨ g ∈ S) (hg : g ∉ R) (hv : v ∈ S) (hr : v ∈ R) :
    (if S \ R = ∅ then N + 1 else (S \ R).card) < (if S = ∅ then N + 1 else S.card) := by
  have h1 : S ≠ ∅ := by rintro rfl; simp at hv
  have h : g ∈ S := h.resolve_left h1
  have h2 : g ∈ S \ R := Finset.mem_sdiff.2 ⟨h, hg⟩
  have h3 : S \ R ≠ ∅ := by intro e; rw [e] at h2; simp at h2
  rw [if_neg h1, if_neg h3]
  apply Finset.card_lt_card
  refine ⟨Finset.sdiff_subset, fun hh => ?_⟩
  have := hh hv
  rw [Finset.mem_sdiff] at this
  exact this.2 hr

/-- A useful step that is true of a possible solution makes the measure smaller. -/
theorem measure_apply {s : Sudoku} {st : Step} {g : Grid} (hu : Useful s st) (hg : TrueOf g st) (hm : MayContain s g) :
    measure (Step.apply s st) < measure s := by
  have hd := apply_dims s st
  rcases effect (Useful.shape hu) with ⟨c, hk, hc, e, truth, hus⟩ | ⟨c, v, hk, hc, e, truth, hus⟩ | ⟨R, hk, e, truth, hus⟩
  · obtain ⟨h0, hl⟩ := hus hu
    have hne : st.values.toFinset ≠ ∅ := by
      intro h; have := List.mem_toFinset.2 (truth g hg); rw [h] at this; simp at this
    have hcard : st.values.toFinset.card ≤ s.bw * s.bh := le_trans (List.toFinset_card_le _) hl
    have key : weight (Step.apply s st) c < weight s c := by
      rw [e]; simp only [weight, Sudoku.setCandidates, if_true, h0, if_neg hne]
      exact Nat.add_lt_add_right (by omega) _
    refine measure_lt hd.1 hd.2 ?_ c hc key
    intro a ha
    by_cases hac : a = c
    · subst hac; exact key.le
    · rw [e]; simp only [weight, Sudoku.setCandidates, if_neg hac]; exact le_refl _
  · obtain ⟨h0, -⟩ := hus hu
    have hv := truth g hg
    have hv0 : v ≠ 0 := by rw [← hv]; have := (hm.1.full c hc).1; omega
    have key : weight (Step.apply s st) c < weight s c := by
      rw [e]; simp only [weight, if_true, h0, if_neg hv0, Finset.singleton_ne_empty, if_false, Finset.card_singleton]
      split
      · omega
      · rename_i hne
        have := Finset.card_pos.2 (Finset.nonempty_iff_ne_empty.2 hne)
        omega
    refine measure_lt hd.1 hd.2 ?_ c hc key
    intro a ha
    by_cases hac : a = c
    · subst hac; exact key.le
    · rw [e]
      simp only [weight, if_neg hac]
      refine Nat.add_le_add_right ?_ _
      by_cases hs : a ∈ s.surroundingOf c false
      · rw [if_pos hs]
        rw [Sudoku.mem_surroundingOf_false s hc] at hs
        refine weight_sdiff_le _ (hm.2 a ha) ?_
        rw [Finset.mem_singleton]
        have h0 : g c ≠ 0 := by omega
        exact fun e => hm.1.valid c a hc hs.1 hs.2 h0 (hv.trans e.symm)
      · rw [if_neg hs]
  · obtain ⟨a, ha, v, hvR, hv⟩ := hus hu
    have key : weight (Step.apply s st) a < weight s a := by
      rw [e]
      simp only [weight]
      refine Nat.add_lt_add_right ?_ _
      exact weight_sdiff_lt _ (hm.2 a ha) (truth g hg a) hv hvR
    refine measure_lt hd.1 hd.2 ?_ a ha key
    intro b hb
    rw [e]
    simp only [weight]
    exact Nat.add_le_add_right (weight_sdiff_le _ (hm.2 b hb) (truth g hg b)) _

end Solvers
