import Verif.Proofs.CallsGrid

set_option autoImplicit false

/-! Helper lemmas: the solve steps for naked and hidden singles are idle iff no number is forced. -/

open Spec

namespace Solvers

/-- The sudoku with other numbers and the candidates that follow from them. -/
def fresh (s : Sudoku) (t : Grid) : Sudoku := Solve.initCandidates { s with num := t } false

theorem fresh_dims (s : Sudoku) (t : Grid) : (fresh s t).bw = s.bw ∧ (fresh s t).bh = s.bh ∧ (fresh s t).num = t :=
  init_dims { s with num := t }

theorem init_cand {s : Sudoku} {a : Cell} (ha : InGrid s.bw s.bh a) :
    (Solve.initCandidates s false).cand a = Solve.calcCandidates s a := by
  rw [Solve.initCandidates_eq]
  simp only
  rw [if_pos ⟨ha, Or.inl trivial⟩]

theorem init_fits {s : Sudoku} {a : Cell} {v : Int} (ha : InGrid s.bw s.bh a) (h0 : s.num a = 0) :
    v ∈ (Solve.initCandidates s false).cand a ↔ Fits s.bw s.bh s.num a v := by
  rw [init_cand ha, Solve.mem_calc_empty ha h0]
  exact ⟨fun h => ⟨ha, h0, h.1, h.2⟩, fun h => ⟨h.2.2.1, h.2.2.2⟩⟩

theorem fresh_fits {s : Sudoku} {t : Grid} {a : Cell} {v : Int} (ha : InGrid s.bw s.bh a) (h0 : t a = 0) :
    v ∈ (fresh s t).cand a ↔ Fits s.bw s.bh t a v := init_fits (s := { s with num := t }) ha h0

variable {s : Sudoku} {t g : Grid}

theorem between_solution (hg : IsSolution s.bw s.bh s.num g) (hb : Between s.bw s.bh s.num t g) : IsSolution s.bw s.bh t g :=
  ⟨fun a ha h0 => ((hb a ha).2.resolve_left h0).symm, hg.full, hg.valid⟩

theorem fresh_neat (hg : IsSolution s.bw s.bh s.num g) (hb : Between s.bw s.bh s.num t g) : Neat g (fresh s t) := by
  have := between_solution hg hb
  exact neat_init (s := { s with num := t }) this

theorem fresh_below (hg : IsSolution s.bw s.bh s.num g) (hb : Between s.bw s.bh s.num t g) :
    Below (fresh s t) (Solve.initCandidates s false) := by
  have e := fresh_dims s t
  have e' := init_dims s
  refine ⟨e.1.trans e'.1.symm, e.2.1.trans e'.2.1.symm, fun a ha h0 => ?_, fun a ha v hv => ?_⟩
  · rw [e'.1, e'.2.1] at ha
    rw [e'.2.2] at h0 ⊢
    rw [e.2.2]
    exact (hb a ha).1 h0
  · have ha' := ha
    rw [e'.1, e'.2.1] at ha
    by_cases ht : t a = 0
    · have hs : s.num a = 0 := by
        by_contra hs
        rw [(hb a ha).1 hs] at ht
        exact hs ht
      rw [fresh_fits ha ht] at hv
      rw [init_fits ha hs]
      refine ⟨ha, hs, hv.2.2.1, fun b hbb hp e => ?_⟩
      refine hv.2.2.2 b hbb hp ?_
      have h0 : s.num b ≠ 0 := by have := hv.2.2.1.1; omega
      rw [(hb b hbb).1 h0, e]
    · have h1 := (fresh_neat hg hb).filled a (by rw [e.1, e.2.1]; exact ha) (by rw [e.2.2]; exact ht)
      rw [h1, Finset.mem_singleton, e.2.2, (hb a ha).2.resolve_left ht] at hv
      rw [hv]
      exact (neat_init hg).cons.2 a ha'

/-- Without forced numbers, both classes find nothing. -/
theorem idle_naked (h1 : ¬ OneNumber s.bw s.bh t) : Idle (fresh s t) .nakedSingle := by
  have e := fresh_dims s t
  intro a v ha h0 hv
  rw [e.1, e.2.1] at ha
  rw [e.2.2] at h0
  refine h1 ⟨a, v, ?_, fun u hu => ?_⟩
  · rw [← fresh_fits ha h0, hv]; simp
  · rw [← fresh_fits ha h0, hv, Finset.mem_singleton] at hu
    exact hu

theorem idle_hidden (hg : IsSolution s.bw s.bh s.num g) (hb : Between s.bw s.bh s.num t g) (h1 : ¬ OneFits s.bw s.bh t) :
    Idle (fresh s t) .hiddenSingle := by
  have e := fresh_dims s t
  intro a k v ha h0 ⟨hv, hno⟩
  obtain ⟨p, hp, -⟩ := line_surj (k := k) (fresh_neat hg hb).cons ha hv
  obtain ⟨hp1, hp2⟩ := mem_places.1 hp
  have hpa : p = a := by
    by_contra hne
    exact hno p hp1 hne hp2
  subst hpa
  rw [e.1, e.2.1] at ha
  rw [e.2.2] at h0
  refine h1 ⟨p, v, (fresh_fits ha h0).1 hp2, k, fun b hs hf => ?_⟩
  by_contra hne
  refine hno b (mem_unitFields.2 ?_) hne ((fresh_fits hf.1 hf.2.1).2 hf)
  rw [e.1, e.2.1]
  exact ⟨hf.1, hs⟩

/-- Conversely, in the sudokus met while solving. -/
theorem cand_fits {T : Sudoku} (hn : Neat g T) (hb : Below T (Solve.initCandidates s false)) {a : Cell} {v : Int} (ha : InGrid s.bw s.bh a)
    (h0 : T.num a = 0) (hv : v ∈ T.cand a) : Fits s.bw s.bh T.num a v := by
  have e := init_dims s
  have ha' := ha
  rw [← e.1, ← e.2.1] at ha'
  have hs : s.num a = 0 := by
    by_contra hs
    have := hb.num a ha' (by rw [e.2.2]; exact hs)
    rw [h0, e.2.2] at this
    exact hs this.symm
  have h1 := (init_fits ha hs).1 (hb.cand a ha' hv)
  have ew : T.bw = s.bw := hb.bw.trans e.1
  have eh : T.bh = s.bh := hb.bh.trans e.2.1
  refine ⟨ha, h0, h1.2.2.1, fun b hbb hp e' => ?_⟩
  have h2 : T.num b ≠ 0 := by have := h1.2.2.1.1; omega
  have hp' : Peer s.bw s.bh b a := ⟨fun h => hp.1 h.symm, by
    rcases hp.2 with h | h | h
    · exact Or.inl (Eq.symm h)
    · exact Or.inr (Or.inl (Eq.symm h))
    · exact Or.inr (Or.inr ⟨h.1.symm, h.2.symm⟩)⟩
  refine hn.peers b a (by rw [ew, eh]; exact hbb) (by rw [ew, eh]; exact ha) (by rw [ew, eh]; exact hp') h2 ?_
  rw [e']; exact hv

theorem stuck_naked {T : Sudoku} (hn : Neat g T) (hb : Below T (Solve.initCandidates s false)) (h1 : Idle T .nakedSingle) :
    ¬ OneNumber s.bw s.bh T.num := by
  rintro ⟨a, v, hf, hu⟩
  have e := init_dims s
  have ew : T.bw = s.bw := hb.bw.trans e.1
  have eh : T.bh = s.bh := hb.bh.trans e.2.1
  have h2 := two_cands hn h1 (a := a) (by rw [ew, eh]; exact hf.1) hf.2.1
  obtain ⟨x, hx, y, hy, hne⟩ := Finset.one_lt_card.1 h2
  exact hne ((hu x (cand_fits hn hb hf.1 hf.2.1 hx)).trans (hu y (cand_fits hn hb hf.1 hf.2.1 hy)).symm)

theorem stuck_hidden {T : Sudoku} (hn : Neat g T) (hb : Below T (Solve.initCandidates s false)) (h1 : Idle T .hiddenSingle) :
    ¬ OneFits s.bw s.bh T.num := by
  rintro ⟨a, v, hf, k, hu⟩
  have e := init_dims s
  have ew : T.bw = s.bw := hb.bw.trans e.1
  have eh : T.bh = s.bh := hb.bh.trans e.2.1
  have hv0 : v ≠ 0 := by have := hf.2.2.1.1; omega
  have hno : ∀ b ∈ unitFields T k a, T.num b ≠ v := by
    intro b hb' hbv
    obtain ⟨h2, h3⟩ := mem_unitFields.1 hb'
    rw [ew, eh] at h2 h3
    by_cases hne : a = b
    · subst hne
      exact hv0 (hbv.symm.trans hf.2.1)
    · exact hf.2.2.2 b h2 (peer_of_share h3 hne) hbv
  have h2 := two_places hn h1 (k := k) (e := a) (by rw [ew, eh]; exact hf.1) (v := v) (by rw [ew, eh]; exact hf.2.2.1) hno
  have key : ∀ x ∈ places T k a v, x = a := by
    intro x hx
    obtain ⟨h3, h4⟩ := mem_places.1 hx
    have h5 := hno x h3
    obtain ⟨h6, h7⟩ := mem_unitFields.1 h3
    have h0 : T.num x = 0 := by
      by_contra h0
      have h8 : v ∈ T.cand x := h4
      rw [hn.filled x h6 h0, Finset.mem_singleton] at h8
      exact h5 h8.symm
    rw [ew, eh] at h6 h7
    exact hu x h7 (cand_fits hn hb h6 h0 h4)
  obtain ⟨x, hx, y, hy, hne⟩ := Finset.one_lt_card.1 h2
  exact hne ((key x hx).trans (key y hy).symm)

theorem below_between {T : Sudoku} (hn : Neat g T) (hb : Below T (Solve.initCandidates s false)) :
    IsSolution s.bw s.bh s.num g ∧ Between s.bw s.bh s.num T.num g := by
  have e := init_dims s
  have ew : T.bw = s.bw := hb.bw.trans e.1
  have eh : T.bh = s.bh := hb.bh.trans e.2.1
  refine ⟨?_, fun a ha => ⟨fun h0 => ?_, ?_⟩⟩
  · have := hb.solution hn.cons.1
    rwa [e.1, e.2.1, e.2.2] at this
  · have := hb.num a (by rw [e.1, e.2.1]; exact ha) (by rw [e.2.2]; exact h0)
    rwa [e.2.2] at this
  · by_cases h0 : T.num a = 0
    · exact Or.inl h0
    · exact Or.inr (hn.num (by rw [ew, eh]; exact ha) h0)

theorem notFull_empty {T : Sudoku} (he : T.empty ≠ []) : NotFull T.bw T.bh T.num := by
  by_contra hno
  refine he (empty_full fun a ha h0 => hno ⟨a, ha, h0⟩)

/-- Blocked for all classes after the singles. -/
theorem blocked_singles {k : Kind} (h1 : Earlier k .nakedSingle) (h2 : Earlier k .hiddenSingle) (hbl : Blocked (Solve.initCandidates s false) k) :
    ∃ g t, IsSolution s.bw s.bh s.num g ∧ Between s.bw s.bh s.num t g ∧ NotFull s.bw s.bh t ∧
      ¬ (OneNumber s.bw s.bh t ∨ OneFits s.bw s.bh t) := by
  obtain ⟨g, T, hn, hb, he, hi⟩ := hbl
  have e := init_dims s
  have ew : T.bw = s.bw := hb.bw.trans e.1
  have eh : T.bh = s.bh := hb.bh.trans e.2.1
  have h3 := below_between hn hb
  refine ⟨g, T.num, h3.1, h3.2, ?_, ?_⟩
  · have := notFull_empty he
    rwa [ew, eh] at this
  · rintro (h | h)
    · exact stuck_naked hn hb (hi _ h1) h
    · exact stuck_hidden hn hb (hi _ h2) h

theorem blocked_pair (hg : IsSolution s.bw s.bh s.num g) (hb : Between s.bw s.bh s.num t g) (hnf : NotFull s.bw s.bh t)
    (hst : ¬ (OneNumber s.bw s.bh t ∨ OneFits s.bw s.bh t)) : Blocked (Solve.initCandidates s false) (.nakedTuple 2) := by
  have e := fresh_dims s t
  refine ⟨g, fresh s t, fresh_neat hg hb, fresh_below hg hb, fun he => ?_, fun j hj => ?_⟩
  · obtain ⟨a, ha, h0⟩ := hnf
    refine full_num he (a := a) (by rw [e.1, e.2.1]; exact ha) ?_
    rw [e.2.2]; exact h0
  · have h3 : j = .calculateCandidates ∨ j = .nakedSingle ∨ j = .hiddenSingle := by
      obtain ⟨h1, h2⟩ := hj
      revert h2
      revert j
      decide
    rcases h3 with rfl | rfl | rfl
    · trivial
    · exact idle_naked fun h => hst (Or.inl h)
    · exact idle_hidden hg hb fun h => hst (Or.inr h)

/-- Forced numbers leave only one solution. -/
theorem forced_unique {g' : Grid} (hg : IsSolution s.bw s.bh s.num g) (hg' : IsSolution s.bw s.bh s.num g')
    (hF : ∀ t, Between s.bw s.bh s.num t g → NotFull s.bw s.bh t → OneNumber s.bw s.bh t ∨ OneFits s.bw s.bh t) : SameGrid s.bw s.bh g g' := by
  by_contra hne
  unfold SameGrid at hne
  push Not at hne
  obtain ⟨a0, ha0, hne⟩ := hne
  let t : Grid := fun a => if g a = g' a then g a else 0
  have hcase : ∀ b, t b ≠ 0 → t b = g b ∧ t b = g' b := by
    intro b hb
    by_cases e : g b = g' b
    · have : t b = g b := by simp only [t]; rw [if_pos e]
      exact ⟨this, this.trans e⟩
    · exact absurd (by simp only [t]; rw [if_neg e]) hb
  have hb : Between s.bw s.bh s.num t g := by
    intro a ha
    refine ⟨fun h0 => ?_, ?_⟩
    · have e1 := hg.keeps a ha h0
      have e2 := hg'.keeps a ha h0
      simp only [t]
      rw [if_pos (e1.trans e2.symm), e1]
    · by_cases h0 : t a = 0
      · exact Or.inl h0
      · exact Or.inr (hcase a h0).1
  have hfit : ∀ x a, (x = g ∨ x = g') → InGrid s.bw s.bh a → t a = 0 → Fits s.bw s.bh t a (x a) := by
    intro x a hx ha h0
    have hxs : IsSolution s.bw s.bh s.num x := by rcases hx with rfl | rfl <;> assumption
    refine ⟨ha, h0, hxs.full a ha, fun b hbb hp e => ?_⟩
    have hn := (hxs.full a ha).1
    have hb0 : t b ≠ 0 := by omega
    have : t b = x b := by
      rcases hx with rfl | rfl
      · exact (hcase b hb0).1
      · exact (hcase b hb0).2
    rw [this] at e
    exact hxs.valid a b ha hbb hp (by omega) e.symm
  have hend : ∀ a v, InGrid s.bw s.bh a → t a = 0 → g a = v → g' a = v → False := by
    intro a v ha h0 e1 e2
    simp only [t] at h0
    rw [if_pos (e1.trans e2.symm)] at h0
    have := (hg.full a ha).1
    omega
  rcases hF t hb ⟨a0, ha0, by simp only [t]; rw [if_neg hne]⟩ with ⟨a, v, hf, hu⟩ | ⟨a, v, hf, k, hu⟩
  · exact hend a v hf.1 hf.2.1 (hu _ (hfit g a (Or.inl rfl) hf.1 hf.2.1)) (hu _ (hfit g' a (Or.inr rfl) hf.1 hf.2.1))
  · have key : ∀ x, (x = g ∨ x = g') → x a = v := by
      intro x hx
      have hxs : IsSolution s.bw s.bh s.num x := by rcases hx with rfl | rfl <;> assumption
      obtain ⟨p, hp, e⟩ := unit_surj hxs.full hxs.valid (unit_of s (lineIdx k) hf.1) hf.2.2.1
      obtain ⟨hp1, hp2⟩ := mem_unitFields.1 ((mem_unitOf hf.1).1 hp)
      have h0 : t p = 0 := by
        by_contra h0
        have h1 : t p = v := by
          rcases hx with rfl | rfl
          · exact (hcase p h0).1.trans e
          · exact (hcase p h0).2.trans e
        have hpa : a ≠ p := by
          rintro rfl
          exact h0 hf.2.1
        exact hf.2.2.2 p hp1 (peer_of_share hp2 hpa) h1
      have := hfit x p hx hp1 h0
      rw [e] at this
      rw [← hu p hp2 this, e]
    exact hend a v hf.1 hf.2.1 (key g (Or.inl rfl)) (key g' (Or.inr rfl))

end Solvers
