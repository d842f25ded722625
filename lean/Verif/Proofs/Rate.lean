import Verif.Proofs.Silent
import Verif.Proofs.ApplyAll
import Verif.RateSpec

set_option autoImplicit false

/-! Helper lemmas: no order of solving needs an easier class than another. -/

open Spec

namespace Solvers

/-! ### nothing listed -/

theorem exists_describes (k : Kind) (C A : Finset Cell) (V : Finset Int) : ∃ st, Describes st k C A V := by
  refine ⟨Step.mkSet k C.toList A.toList V, ?_⟩
  have := describes_mkSet (k := k) (values := V) C.nodup_toList A.nodup_toList
  rwa [Finset.toList_toFinset, Finset.toList_toFinset] at this

theorem idle_of_nil {s : Sudoku} {k : Kind} (hc : Complete s k []) : Idle s k := by
  cases k with
  | calculateCandidates => trivial
  | bruteforce => trivial
  | nakedSingle =>
    intro a v ha h0 e
    exact absurd ((hc.2 (Step.single .nakedSingle a v)).2 ⟨a, v, ha, h0, e, describes_single⟩) (by simp)
  | hiddenSingle =>
    intro a k v ha h0 e
    obtain ⟨st, h, -⟩ := hc.2.2 a k v ha h0 e
    simp at h
  | nakedTuple n =>
    intro k e F he h0 hp
    let P : Line → Prop := fun k => ∃ e, InGrid s.bw s.bh e ∧ s.get e = 0 ∧ NakedPattern s n k e F
    have hmin : ∃ k, P k ∧ ∀ k', k'.rank < k.rank → ¬ P k' := by
      by_cases h1 : P .row
      · exact ⟨.row, h1, fun k' h => by cases k' <;> simp [Line.rank] at h⟩
      by_cases h2 : P .column
      · refine ⟨.column, h2, fun k' h => ?_⟩
        cases k' <;> simp [Line.rank] at h
        exact h1
      · have h3 : P .box := by
          have : P k := ⟨e, he, h0, hp⟩
          cases k
          · exact absurd this h1
          · exact absurd this h2
          · exact this
        refine ⟨.box, h3, fun k' h => ?_⟩
        cases k' <;> simp [Line.rank] at h
        · exact h1
        · exact h2
    obtain ⟨k, ⟨e, he, h0, hp⟩, hmin⟩ := hmin
    obtain ⟨st, hst⟩ := exists_describes (.nakedTuple n) F (nakedTargets s k e F) (F.biUnion s.getCandidates)
    exact absurd ((hc.2 st).2 ⟨k, e, F, he, h0, hp, fun k' hk' e' he' h0' hp' => hmin k' hk' ⟨e', he', h0', hp'⟩, hst⟩) (by simp)
  | hiddenTuple n =>
    intro k e V he h0 hp
    obtain ⟨st, hst⟩ := exists_describes (.hiddenTuple n) (unitFields s k e) (hiddenTargets s k e V) V
    exact absurd ((hc.1 st).2 ⟨k, e, V, he, h0, hp, hst⟩) (by simp)
  | pointingTuple n =>
    intro k k' e f v hkk hp
    obtain ⟨st, hst⟩ := exists_describes (.pointingTuple n) (places s k e v) (pointingTargets s k' f (places s k e v) v) {v}
    exact absurd ((hc.2 st).2 ⟨k, k', e, f, v, hkk, hp, hst⟩) (by simp)
  | basicFish n =>
    intro byRow v I hp
    obtain ⟨st, hst⟩ := exists_describes (.basicFish n) (fishBase s byRow v I) (fishTargets s byRow v I) {v}
    exact absurd ((hc.2 st).2 ⟨byRow, v, I, hp, hst⟩) (by simp)

theorem solvers_pointing : ∀ k ∈ solvers, ∀ n, k = .pointingTuple n → 2 ≤ n := by
  intro k hk n e
  subst e
  by_contra hn
  have : n = 0 ∨ n = 1 := by omega
  rcases this with rfl | rfl <;> revert hk <;> decide

/-- `solve` found nothing with this class. -/
theorem idle_of_silent {π : Orders Run} (hπ : π.Ok) (fuel : Nat) {k : Kind} (hks : k ∈ solvers) {w w' : Run}
    (h : find Prod.fst consume π fuel k w = .ok w') (hl : ¬ w'.2.length > w.2.length) : Idle w.1 k := by
  by_cases hk : k = .calculateCandidates
  · subst hk; trivial
  by_cases hb : k = .bruteforce
  · subst hb; trivial
  let π₂ : Orders Watch := ⟨fun _ => π.hidden w, fun _ => π.fish w, fun _ => π.dlx w⟩
  have hπ₂ : π₂.Ok := ⟨fun _ => hπ.hidden w, fun _ => hπ.fish w, fun _ => hπ.dlx w⟩
  obtain ⟨y₁, y₂, e1, e2, e3⟩ := find_out (v₁ := Prod.fst) (v₂ := Prod.fst) (κ₁ := consume) (κ₂ := watch leave) (π₁ := π) (π₂ := π₂)
    (x₁ := w) (x₂ := (w.1, [])) (D₁ := fun y => w.2.length < y.2.length) (D₂ := fun y => y.2 ≠ []) rfl rfl rfl
    (by
      rintro x st (rfl | hx)
      · exact consume_longer _ _
      · exact lt_trans hx (consume_longer _ _))
    (by intro x st _; simp [watch]) fuel 0 hk hb
  rw [h] at e1
  cases e1
  rcases e3 with ⟨-, e3⟩ | ⟨e3, -⟩
  · obtain ⟨L, h1, h2⟩ := complete_find hπ₂ w.1 [] k hb (solvers_pointing k hks)
    rw [e2, e3] at h1
    have : L = [] := by
      have := congrArg (fun x : Except PyErr Watch => (x.toOption.map fun y => y.2)) h1
      simp only [Except.toOption, Option.map_some, List.nil_append, Option.some.injEq] at this
      simpa using this.symm
    rw [this] at h2
    exact idle_of_nil h2
  · exact absurd e3 hl

/-! ### sudokus below others -/

/-- `t` has all the numbers of `s` and at most the candidates of `s`. -/
structure Below (t s : Sudoku) : Prop where
  bw : t.bw = s.bw
  bh : t.bh = s.bh
  num : ∀ a, InGrid s.bw s.bh a → s.num a ≠ 0 → t.num a = s.num a
  cand : ∀ a, InGrid s.bw s.bh a → t.cand a ⊆ s.cand a

theorem Below.refl (s : Sudoku) : Below s s := ⟨rfl, rfl, fun _ _ _ => rfl, fun _ _ _ h => h⟩

theorem Below.trans {t u s : Sudoku} (h : Below t u) (h' : Below u s) : Below t s :=
  ⟨h.bw.trans h'.bw, h.bh.trans h'.bh,
    fun a ha h0 => (h.num a (by rw [h'.bw, h'.bh]; exact ha) (by rw [h'.num a ha h0]; exact h0)).trans (h'.num a ha h0),
    fun a ha => (h.cand a (by rw [h'.bw, h'.bh]; exact ha)).trans (h'.cand a ha)⟩

/-- What the step does is already done in `t`. -/
def TrueOn (t : Sudoku) (st : Step) : Prop :=
  match st.kind with
  | .calculateCandidates => False
  | .nakedSingle | .hiddenSingle | .bruteforce => ∀ a ∈ st.affected, ∀ v ∈ st.values, t.num a = v
  | .nakedTuple _ | .pointingTuple _ | .basicFish _ => ∀ a ∈ st.affected, ∀ v ∈ st.values, v ∉ t.cand a
  | .hiddenTuple _ => ∀ a ∈ st.affected, t.cand a ⊆ st.values.toFinset

/-- The classes a step of this class may become a step of. -/
def needs : Kind → List Kind
  | .nakedSingle => [.nakedSingle]
  | .hiddenSingle => [.hiddenSingle]
  | .nakedTuple n => .nakedSingle :: (List.range (n - 1)).map fun j => .nakedTuple (j + 2)
  | .hiddenTuple n => .hiddenSingle :: (List.range (n - 1)).map fun j => .hiddenTuple (j + 2)
  | .pointingTuple n => .hiddenSingle :: (List.range (n - 1)).map fun j => .pointingTuple (j + 2)
  | .basicFish n => .hiddenSingle :: (List.range (n - 1)).map fun j => .basicFish (j + 2)
  | _ => []

theorem mem_needs {f : Nat → Kind} {k : Kind} {n m : Nat} (h2 : 2 ≤ m) (hn : m ≤ n) : f m ∈ k :: (List.range (n - 1)).map fun j => f (j + 2) := by
  refine List.mem_cons_of_mem _ (List.mem_map.2 ⟨m - 2, ?_, ?_⟩)
  · rw [List.mem_range]; omega
  · rw [show m - 2 + 2 = m by omega]

theorem unitFields_congr {s t : Sudoku} (hw : t.bw = s.bw) (hh : t.bh = s.bh) (k : Line) (e : Cell) : unitFields t k e = unitFields s k e := by
  unfold unitFields; rw [hw, hh]

theorem isLine_unit {s : Sudoku} {k : Line} {U : List Cell} (h : IsLine s.bw s.bh k U) :
    ∃ e, InGrid s.bw s.bh e ∧ ∀ a, a ∈ U ↔ a ∈ unitFields s k e := by
  obtain ⟨e, he, hk⟩ := h
  exact ⟨e, he, fun a => by rw [hk, mem_unitFields]⟩

theorem justified_trueOn {g : Grid} {s t : Sudoku} {st : Step} (hs : Neat g s) (ht : Neat g t) (hb : Below t s)
    (hk : st.kind ≠ .calculateCandidates) (hk' : st.kind ≠ .bruteforce) (hi : ∀ k ∈ needs st.kind, Idle t k) (hj : Justified s st) :
    TrueOn t st := by
  have hg : ∀ a, InGrid s.bw s.bh a ↔ InGrid t.bw t.bh a := fun a => by rw [hb.bw, hb.bh]
  unfold Justified at hj
  unfold TrueOn
  rcases hkind : st.kind with _ | _ | _ | _ | n | n | n | n <;> rw [hkind] at hj hi <;> simp only at hj ⊢
  · exact hk hkind
  · obtain ⟨a, v, e1, e2, ha, e3⟩ := hj
    rw [e1, e2]
    simp only [List.mem_singleton]
    intro a' ea v' ev
    rw [ea, ev]
    clear ea ev a' v'
    have h1 := hb.cand a ha
    rw [e3] at h1
    have h2 := ht.cons.2 _ ((hg _).1 ha)
    have h3 : g a = v := Finset.mem_singleton.1 (h1 h2)
    by_cases h0 : t.num a = 0
    · refine absurd (Finset.Subset.antisymm h1 ?_) (hi .nakedSingle (by simp [needs]) _ _ ((hg _).1 ha) h0)
      rw [Finset.singleton_subset_iff, ← h3]; exact h2
    · rw [ht.num ((hg _).1 ha) h0, h3]
  · obtain ⟨a, v, k, e1, e2, ha, hp⟩ := hj
    rw [e1, e2]
    simp only [List.mem_singleton]
    intro a' ea v' ev
    rw [ea, ev]
    clear ea ev a' v'
    have h3 : g a = v := by
      obtain ⟨p, hp1, hp2⟩ := line_surj hs.cons (k := k) ha hp.1
      by_contra hne
      obtain ⟨hp3, hp4⟩ := mem_places.1 hp1
      refine hp.2 p hp3 ?_ hp4
      rintro rfl; exact hne hp2
    by_cases h0 : t.num a = 0
    · refine absurd ⟨by rw [hb.bw, hb.bh]; exact hp.1, fun b hbu hne hv => ?_⟩
        (hi .hiddenSingle (by simp [needs]) _ k _ ((hg _).1 ha) h0)
      rw [unitFields_congr hb.bw hb.bh] at hbu
      exact hp.2 b hbu hne (hb.cand b (inGrid_of_unit hbu) hv)
    · rw [ht.num ((hg _).1 ha) h0, h3]
  · exact absurd hkind hk'
  · obtain ⟨k, U, F, hU, hFU, hnd, hlen, hc, hcard, haff⟩ := hj
    obtain ⟨e, he, hU⟩ := isLine_unit hU
    intro b hb' v hv
    obtain ⟨hbU, hbF⟩ := haff b hb'
    have hcF : F.toFinset.card = n := by rw [List.toFinset_card_of_nodup hnd, hlen]
    refine naked_mono (k := k) (e := e) (F := F.toFinset) (U := st.values.toFinset) (n := n) ht (hi _ (by simp [needs])) (fun m h2 hm => hi _ (mem_needs h2 hm)) ?_ (by omega) (by omega) ?_ ?_ ?_ ?_
    · intro a ha
      rw [unitFields_congr hb.bw hb.bh, ← hU]; exact hFU (List.mem_toFinset.1 ha)
    · intro a ha
      have ha' := List.mem_toFinset.1 ha
      exact (hb.cand a (inGrid_of_unit ((hU a).1 (hFU ha')))).trans (hc a ha')
    · rw [unitFields_congr hb.bw hb.bh, ← hU]; exact hbU
    · rw [List.mem_toFinset]; exact hbF
    · rw [List.mem_toFinset]; exact hv
  · obtain ⟨k, U, M, hU, hnd, hlen, hv, hcard, haff⟩ := hj
    obtain ⟨e, he, hU⟩ := isLine_unit hU
    intro b hb'
    have hcV : st.values.toFinset.card = n := by rw [List.toFinset_card_of_nodup hnd, hlen]
    refine hidden_mono (k := k) (e := e) (M := M) (n := n) ht (hi _ (by simp [needs])) (fun m h2 hm => hi _ (mem_needs h2 hm)) ((hg e).1 he) ?_ (by omega) (by omega) ?_ (haff b hb')
    · intro v hv'
      rw [hb.bw, hb.bh]; exact (hv v (List.mem_toFinset.1 hv')).1
    · intro v hv' a ha
      obtain ⟨h1, h2⟩ := mem_places.1 ha
      rw [unitFields_congr hb.bw hb.bh] at h1
      exact (hv v (List.mem_toFinset.1 hv')).2 a ((hU a).2 h1) (hb.cand a (inGrid_of_unit h1) h2)
  · obtain ⟨k, k', U, V, v, hkk, hU, hUn, hV, hv, ev, hlen, hsub, haff⟩ := hj
    obtain ⟨e, he, hU⟩ := isLine_unit hU
    obtain ⟨f, hf, hV⟩ := isLine_unit hV
    rw [ev]
    simp only [List.mem_singleton]
    intro b hb' v' ev' hvb
    rw [ev'] at hvb
    clear ev' v'
    obtain ⟨hbV, hbU⟩ := haff b hb'
    have hbs := hb.cand b (inGrid_of_unit ((hV b).1 hbV)) hvb
    refine pointing_mono (k := k) (k' := k') (e := e) (f := f) (n := n) ht (hi _ (by simp [needs])) (fun m h2 hm => hi _ (mem_needs h2 hm)) hkk ((hg e).1 he) (by rw [hb.bw, hb.bh]; exact hv) ?_ ?_ ?_ ?_ hvb
    · rw [← hlen, ← List.toFinset_card_of_nodup (l := having s U v) (hUn.filter _)]
      refine Finset.card_le_card fun a ha => ?_
      obtain ⟨h1, h2⟩ := mem_places.1 ha
      rw [unitFields_congr hb.bw hb.bh] at h1
      rw [List.mem_toFinset]
      exact mem_having.2 ⟨(hU a).2 h1, hb.cand a (inGrid_of_unit h1) h2⟩
    · intro a ha
      obtain ⟨h1, h2⟩ := mem_places.1 ha
      rw [unitFields_congr hb.bw hb.bh] at h1 ⊢
      exact (hV a).1 (hsub a ((hU a).2 h1) (hb.cand a (inGrid_of_unit h1) h2))
    · rw [unitFields_congr hb.bw hb.bh]; exact (hV b).1 hbV
    · rw [unitFields_congr hb.bw hb.bh]
      exact fun h => hbU ⟨(hU b).2 h, hbs⟩
  · obtain ⟨byRow, v, I, C, ev, hv, hnd, hlen, hlt, hcard, hcols, haff⟩ := hj
    rw [ev]
    simp only [List.mem_singleton]
    rintro b hb' _ rfl hvb
    obtain ⟨hbg, hbC, hbI⟩ := haff b hb'
    have hbs := hb.cand b hbg hvb
    have hcI : I.toFinset.card = n := by rw [List.toFinset_card_of_nodup hnd, hlen]
    refine fish_mono (byRow := byRow) (I := I.toFinset) (C := C) (n := n) ht (hi _ (by simp [needs])) (fun m h2 hm => hi _ (mem_needs h2 hm)) (by rw [hb.bw, hb.bh]; exact hv) (by omega) ?_ (by omega) ?_ ((hg b).1 hbg) hbC ?_ hvb
    · intro i hi'
      rw [hb.bw, hb.bh]; exact hlt i (List.mem_toFinset.1 hi')
    · intro a ha hal hva
      have ha' := (hg a).2 ha
      exact hcols a ha' (List.mem_toFinset.1 hal) (hb.cand a ha' hva)
    · rw [List.mem_toFinset]
      exact fun h => hbI ⟨h, hbs⟩

theorem neat_apply {g : Grid} {s : Sudoku} {st : Step} (hs : Neat g s) (hsh : Shape s.bw s.bh st) (hk : st.kind ≠ .calculateCandidates)
    (htr : TrueOf g st) : Neat g (Step.apply s st) := by
  have hc := contains_apply hsh htr hs.cons
  refine ⟨hc, ?_, ?_⟩
  · rcases effect hsh with ⟨c, hk', -⟩ | ⟨c, v, hk', hcg, e, truth, -⟩ | ⟨R, hk', e, truth, -⟩
    · exact absurd hk' hk
    · rw [e]
      intro a ha h0
      simp only at ha h0 ⊢
      split
      · rfl
      · rename_i hac
        rw [if_neg hac] at h0
        rw [hs.filled a ha h0]
        split
        · rename_i hsur
          rw [Sudoku.mem_surroundingOf_false s hcg] at hsur
          rw [Finset.sdiff_eq_self_iff_disjoint, Finset.disjoint_singleton, hs.num ha h0, ← truth g htr]
          have hn : g c ≠ 0 := by have := (hs.cons.1.full c hcg).1; omega
          exact fun e => hs.cons.1.valid c a hcg ha hsur.2 hn e.symm
        · rfl
    · rw [e]
      intro a ha h0
      simp only at ha h0 ⊢
      rw [hs.filled a ha h0, Finset.sdiff_eq_self_iff_disjoint, Finset.disjoint_singleton_left, hs.num ha h0]
      exact truth g htr a
  · rcases effect hsh with ⟨c, hk', -⟩ | ⟨c, v, hk', hcg, e, truth, -⟩ | ⟨R, hk', e, truth, -⟩
    · exact absurd hk' hk
    · rw [e]
      intro a b ha hb hp h0
      simp only at ha hb hp h0 ⊢
      have hv := truth g htr
      by_cases hac : a = c
      · subst hac
        rw [if_pos rfl, if_neg (fun e => hp.1 e.symm), if_pos ((Sudoku.mem_surroundingOf_false s hcg).2 ⟨hb, hp⟩)]
        simp
      · rw [if_neg hac] at h0 ⊢
        split
        · rename_i hbc
          subst hbc
          rw [Finset.mem_singleton, ← hv, hs.num ha h0]
          have hn : g a ≠ 0 := by have := (hs.cons.1.full a ha).1; omega
          exact hs.cons.1.valid a b ha hb hp hn
        · have := hs.peers a b ha hb hp h0
          split
          · exact fun h => this (Finset.mem_sdiff.1 h).1
          · exact this
    · rw [e]
      intro a b ha hb hp h0
      exact fun h => hs.peers a b ha hb hp h0 (Finset.mem_sdiff.1 h).1

theorem below_apply {g : Grid} {s t : Sudoku} {st : Step} (ht : Neat g t) (hb : Below t s) (hsh : Shape s.bw s.bh st)
    (hto : TrueOn t st) (hv0 : st.kind.Fills → ∀ v ∈ st.values, v ≠ 0) : Below t (Step.apply s st) := by
  have hd := apply_dims s st
  have hg : ∀ a, InGrid s.bw s.bh a ↔ InGrid t.bw t.bh a := fun a => by rw [hb.bw, hb.bh]
  have hin := hsh.1
  have hfill : ∀ a v, st.kind.Fills → st.affected = [a] → st.values = [v] → t.num a = v → Below t (Step.apply s st) := by
    intro a v hk h1 h2 hav
    have ha := hin a (by rw [h1]; simp)
    have hv := hv0 hk v (by rw [h2]; simp)
    have h0 : t.num a ≠ 0 := by rw [hav]; exact hv
    rw [apply_single s hk ha h1 h2]
    refine ⟨hb.bw, hb.bh, ?_, ?_⟩
    · intro b hbg hne
      simp only at hbg hne ⊢
      split at hne
      · rename_i e; rw [e, if_pos rfl]; exact hav
      · rename_i e; rw [if_neg e]; exact hb.num b hbg hne
    · intro b hbg
      simp only at hbg ⊢
      split
      · rename_i e; rw [e, ht.filled a ((hg a).1 ha) h0, hav]
      · split
        · rename_i hsur
          rw [Sudoku.mem_surroundingOf_false s ha] at hsur
          intro u hu
          rw [Finset.mem_sdiff, Finset.mem_singleton]
          refine ⟨hb.cand b hbg hu, ?_⟩
          rintro rfl
          refine ht.peers a b ((hg a).1 ha) ((hg b).1 hbg) (by rw [hb.bw, hb.bh]; exact hsur.2) h0 ?_
          rw [hav]; exact hu
        · exact hb.cand b hbg
  obtain ⟨-, hsh⟩ := hsh
  unfold TrueOn at hto
  have hrem : ∀ (C : Cell → Finset Int), Step.apply s st = { s with cand := C } → (∀ b, InGrid s.bw s.bh b → t.cand b ⊆ C b) →
      Below t (Step.apply s st) := by
    intro C e h
    rw [e]
    exact ⟨hb.bw, hb.bh, hb.num, h⟩
  rcases hkind : st.kind with _ | _ | _ | _ | n | n | n | n <;> rw [hkind] at hto hsh <;> simp only at hto hsh
  · obtain ⟨a, v, h1, h2⟩ := hsh
    exact hfill a v (Or.inl hkind) h1 h2 (hto a (by rw [h1]; simp) v (by rw [h2]; simp))
  · obtain ⟨a, v, h1, h2⟩ := hsh
    exact hfill a v (Or.inr (Or.inl hkind)) h1 h2 (hto a (by rw [h1]; simp) v (by rw [h2]; simp))
  · obtain ⟨a, v, h1, h2⟩ := hsh
    exact hfill a v (Or.inr (Or.inr hkind)) h1 h2 (hto a (by rw [h1]; simp) v (by rw [h2]; simp))
  · refine hrem _ (apply_naked s hkind) fun b hbg u hu => ?_
    split
    · rename_i hba
      rw [Finset.mem_sdiff, List.mem_toFinset]
      exact ⟨hb.cand b hbg hu, fun h => hto b hba u h hu⟩
    · exact hb.cand b hbg hu
  · refine hrem _ (apply_hidden s hkind) fun b hbg u hu => ?_
    split
    · rename_i hba
      exact Finset.mem_inter.2 ⟨hb.cand b hbg hu, hto b hba hu⟩
    · exact hb.cand b hbg hu
  · obtain ⟨v, ev⟩ := hsh
    refine hrem _ (apply_line s (Or.inl hkind) ev) fun b hbg u hu => ?_
    split
    · rename_i hba
      rw [Finset.mem_sdiff, Finset.mem_singleton]
      exact ⟨hb.cand b hbg hu, fun e => hto b hba u (by rw [ev, e]; simp) hu⟩
    · exact hb.cand b hbg hu
  · obtain ⟨v, ev⟩ := hsh
    refine hrem _ (apply_line s (Or.inr hkind) ev) fun b hbg u hu => ?_
    split
    · rename_i hba
      rw [Finset.mem_sdiff, Finset.mem_singleton]
      exact ⟨hb.cand b hbg hu, fun e => hto b hba u (by rw [ev, e]; simp) hu⟩
    · exact hb.cand b hbg hu

/-- A step that is true of the solution leads below. -/
theorem apply_below {g : Grid} {s : Sudoku} {st : Step} (hs : Neat g s) (hu : Useful s st) (hk : st.kind ≠ .calculateCandidates)
    (htr : TrueOf g st) : Below (Step.apply s st) s := by
  rcases effect (Useful.shape hu) with ⟨c, hk', -⟩ | ⟨c, v, hk', hcg, e, truth, hus⟩ | ⟨R, hk', e, truth, -⟩
  · exact absurd hk' hk
  · obtain ⟨h0, -⟩ := hus hu
    have hv := truth g htr
    rw [e]
    refine ⟨rfl, rfl, fun a ha hne => ?_, fun a ha => ?_⟩
    · simp only
      split
      · rename_i h; rw [h] at hne; exact absurd h0 hne
      · rfl
    · simp only
      split
      · rename_i h
        subst h
        rw [Finset.singleton_subset_iff, ← hv]; exact hs.cons.2 a ha
      · split
        · exact Finset.sdiff_subset
        · exact fun _ h => h
  · rw [e]
    exact ⟨rfl, rfl, fun a _ _ => rfl, fun a _ => Finset.sdiff_subset⟩

end Solvers
