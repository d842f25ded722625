import Verif.Proofs.CallsRate
import Verif.Proofs.Solve

set_option autoImplicit false

/-! Helper lemmas: how many calls the bruteforce search makes. -/

open Spec

namespace Solve

/-- Forgetting the number. -/
def forget {α β : Type} (r : Option (α × β × Nat)) : Option (α × β) := r.map fun p => (p.1, p.2.1)

theorem bfLoopN_same {rec : List (Cell × Int) → Sudoku → Option (List Sudoku × Sudoku × Nat)}
    {rec' : List (Cell × Int) → Sudoku → Option (List Sudoku × Sudoku)} (hrec : ∀ p s, forget (rec p s) = rec' p s)
    (path : List (Cell × Int)) (a : Cell) (cs : List Int) : ∀ s, forget (bfLoopN rec path a cs s) = bfLoop rec' path a cs s := by
  induction cs with
  | nil => intro s; rfl
  | cons c cs ih =>
    intro s
    unfold bfLoopN bfLoop
    simp only
    rw [← hrec]
    cases rec ((a, c) :: path) (saveAndRemove c ((s.setNumber a c).surroundingOf a false) (s.setNumber a c)
      [(a, (s.setNumber a c).getCandidates a)]).1 with
    | none => rfl
    | some q =>
      obtain ⟨sols, s2, n⟩ := q
      simp only [forget, Option.map]
      rw [← ih]
      unfold forget
      cases bfLoopN rec path a cs _ with
      | none => rfl
      | some q => rfl

theorem doBruteforceN_same (π : SetOrder) (fuel : Nat) : ∀ path s, forget (doBruteforceN π fuel path s) = doBruteforce π fuel path s := by
  induction fuel with
  | zero => intro path s; rfl
  | succ fuel ih =>
    intro path s
    unfold doBruteforceN doBruteforce
    cases pickEmpty s with
    | none => rfl
    | some a =>
      simp only
      rw [← bfLoopN_same ih]
      unfold forget
      cases bfLoopN (doBruteforceN π fuel) path a (π path (s.getCandidates a)) s with
      | none => rfl
      | some q => rfl

theorem bruteforceN_same (π : SetOrder) (fuel : Nat) (s : Sudoku) : (bruteforceN π fuel s).map Prod.fst = bruteforce π fuel s := by
  unfold bruteforceN bruteforce
  split
  · rfl
  · simp only
    rw [← doBruteforceN_same]
    unfold forget
    cases doBruteforceN π fuel [] (initCandidates s.copy) with
    | none => rfl
    | some q => rfl

theorem bfLoopN_cons {rec : List (Cell × Int) → Sudoku → Option (List Sudoku × Sudoku × Nat)} {path : List (Cell × Int)} {a : Cell}
    {c : Int} {cs : List Int} {s : Sudoku} (ha : InGrid s.bw s.bh a) (h0 : s.num a = 0)
    (hrec : ∀ sols s' n, rec ((a, c) :: path) (place s a c) = some (sols, s', n) → s' = place s a c) :
    bfLoopN rec path a (c :: cs) s = match rec ((a, c) :: path) (place s a c) with
      | none => none
      | some (sols, _, n) => match bfLoopN rec path a cs s with
        | none => none
        | some (sols', s', n') => some (sols ++ sols', s', n + n') := by
  have hsur : (s.setNumber a c).surroundingOf a false = s.surroundingOf a false := rfl
  have hnd := Sudoku.nodup_surroundingOf_false s (a := a) ha
  have hna : a ∉ s.surroundingOf a false := fun h => ((Sudoku.mem_surroundingOf_false s ha).1 h).2.1 rfl
  have hsave : saveAndRemove c (s.surroundingOf a false) (s.setNumber a c) [(a, s.cand a)] =
      (place s a c, (a :: s.surroundingOf a false).map fun b => (b, s.cand b)) :=
    saveAndRemove_eq c (s.surroundingOf a false) (s.setNumber a c) [(a, s.cand a)] hnd (by
    intro b hb; simp only [List.map_cons, List.map_nil, List.mem_singleton]; rintro rfl; exact hna hb)
  have hres : (restore (place s a c) ((a :: s.surroundingOf a false).map
      fun b => (b, s.cand b))).setNumber a 0 = s := by
    rw [restore_eq]
    ext1
    · rfl
    · rfl
    · funext b
      simp only [place, Sudoku.setNumber]
      by_cases hb : b = a
      · subst hb; simp [h0]
      · simp [hb]
    · funext b
      simp only [place, Sudoku.setNumber]
      by_cases hb : b ∈ a :: s.surroundingOf a false
      · rw [if_pos hb]
      · rw [if_neg hb, if_neg (fun h => hb (List.mem_cons_of_mem _ h))]
  conv_lhs => unfold bfLoopN
  simp only [hsur, show (s.setNumber a c).getCandidates a = s.cand a from rfl]
  rw [hsave]
  simp only
  cases e : rec ((a, c) :: path) (place s a c) with
  | none => rfl
  | some q =>
    obtain ⟨sols, s', n⟩ := q
    have := hrec _ _ _ e
    subst this
    simp only
    rw [hres]
    cases bfLoopN rec path a cs s <;> rfl

theorem bfLoopN_spec {rec : List (Cell × Int) → Sudoku → Option (List Sudoku × Sudoku × Nat)} {path : List (Cell × Int)} {a : Cell}
    {s : Sudoku} (ha : InGrid s.bw s.bh a) (h0 : s.num a = 0) {P : Int → Nat → Prop} (cs : List Int) :
    (∀ c ∈ cs, ∀ sols s' n, rec ((a, c) :: path) (place s a c) = some (sols, s', n) → s' = place s a c ∧ P c n) →
    ∀ sols s' n, bfLoopN rec path a cs s = some (sols, s', n) → ∃ ns : List Nat, List.Forall₂ P cs ns ∧ n = ns.sum := by
  induction cs with
  | nil =>
    intro _ sols s' n e
    cases e
    exact ⟨[], .nil, rfl⟩
  | cons c cs ih =>
    intro hrec sols s' n e
    rw [bfLoopN_cons ha h0 (fun sols s' n h => (hrec c (by simp) sols s' n h).1)] at e
    cases e1 : rec ((a, c) :: path) (place s a c) with
    | none => rw [e1] at e; cases e
    | some q =>
      obtain ⟨sols1, s1, n1⟩ := q
      rw [e1] at e
      simp only at e
      have p1 := (hrec c (by simp) _ _ _ e1).2
      cases e2 : bfLoopN rec path a cs s with
      | none => rw [e2] at e; cases e
      | some q =>
        obtain ⟨sols2, s2, n2⟩ := q
        rw [e2] at e
        cases e
        obtain ⟨ns, p2, rfl⟩ := ih (fun d hd => hrec d (by simp [hd])) _ _ _ e2
        exact ⟨n1 :: ns, .cons p1 p2, by simp⟩

theorem pickEmpty_min {s : Sudoku} {a : Cell} (h : pickEmpty s = some a) {b : Cell} (hb : InGrid s.bw s.bh b) (h0 : s.num b = 0) :
    (s.cand a).card ≤ (s.cand b).card := by
  unfold pickEmpty at h
  have hm : b ∈ s.empty := by simp [Sudoku.empty, Sudoku.mem_cells, hb, Sudoku.get, h0]
  let r : Cell → Cell → Prop := fun a b => (s.getCandidates a).card ≤ (s.getCandidates b).card
  let : DecidableRel r := fun a b => (s.getCandidates a).card.decLe (s.getCandidates b).card
  have : Std.Total r := ⟨fun a b => le_total _ _⟩
  have : IsTrans Cell r := ⟨fun a b c h1 h2 => le_trans (α := Nat) h1 h2⟩
  have hs : (s.empty.insertionSort r).Pairwise r := List.pairwise_insertionSort r s.empty
  have h' : (s.empty.insertionSort r).head? = some a := h
  have hm' : b ∈ s.empty.insertionSort r := (List.mem_insertionSort r).2 hm
  cases hl : s.empty.insertionSort r with
  | nil => rw [hl] at hm'; cases hm'
  | cons x l =>
    rw [hl] at h' hs hm'
    simp only [List.head?_cons, Option.some.injEq] at h'
    subst h'
    rcases List.mem_cons.1 hm' with rfl | hm'
    · exact le_rfl
    · exact (List.pairwise_cons.1 hs).1 b hm'

/-- The number of calls, in terms of the numbers. -/
structure Count (s : Sudoku) (n : Nat) : Prop where
  pos : 1 ≤ n
  ge : ∀ g, IsSolution s.bw s.bh s.num g → s.empty.length + 1 ≤ n
  forced : ∀ g, IsSolution s.bw s.bh s.num g →
    (∀ t, Between s.bw s.bh s.num t g → NotFull s.bw s.bh t → OneNumber s.bw s.bh t) → n = s.empty.length + 1
  stuck : ∀ g, IsSolution s.bw s.bh s.num g → ∀ t, Between s.bw s.bh s.num t g → NotFull s.bw s.bh t →
    ¬ OneNumber s.bw s.bh t → s.empty.length + 2 ≤ n

theorem doBruteforceN_count {π : SetOrder} (hπ : π.Ok) (fuel : Nat) : ∀ (path : List (Cell × Int)) (s : Sudoku) sols s' n, Inv s →
    doBruteforceN π fuel path s = some (sols, s', n) → s' = s ∧ Count s n := by
  induction fuel with
  | zero => intro path s sols s' n _ e; cases e
  | succ fuel ih =>
    intro path s sols s' n inv e
    have hs' : s' = s := by
      have h1 := doBruteforceN_same π (fuel + 1) path s
      rw [e] at h1
      rcases doBruteforce_spec hπ (fuel + 1) path s inv with ⟨sols', h2, -⟩ | ⟨h2, -⟩
      · rw [h2] at h1
        simp only [forget, Option.map_some, Option.some.injEq, Prod.mk.injEq] at h1
        exact h1.2
      · rw [h2] at h1; cases h1
    refine ⟨hs', ?_⟩
    unfold doBruteforceN at e
    cases hp : pickEmpty s with
    | none =>
      rw [hp] at e
      cases e
      have hfull := (pickEmpty_none s).1 hp
      have hemp : s.empty = [] := by
        rw [List.eq_nil_iff_forall_not_mem]
        intro a ha
        simp only [Sudoku.empty, List.mem_filter, Sudoku.mem_cells, Sudoku.get, beq_iff_eq] at ha
        exact hfull a ha.1 ha.2
      refine ⟨by omega, fun g hg => by rw [hemp]; simp, fun g hg _ => by rw [hemp]; simp, ?_⟩
      rintro g hg t ht ⟨a, ha, h0⟩
      rw [(ht a ha).1 (hfull a ha)] at h0
      exact absurd h0 (hfull a ha)
    | some a =>
      obtain ⟨ha, h0⟩ := pickEmpty_some hp
      rw [hp] at e
      simp only at e
      obtain ⟨pn, pm⟩ := hπ path (s.getCandidates a)
      cases e1 : bfLoopN (doBruteforceN π fuel) path a (π path (s.getCandidates a)) s with
      | none => rw [e1] at e; cases e
      | some q =>
        obtain ⟨sols1, s1, m⟩ := q
        rw [e1] at e
        cases e
        obtain ⟨ns, hns, rfl⟩ := bfLoopN_spec (rec := doBruteforceN π fuel) ha h0 (P := fun c n => Count (place s a c) n) _
          (fun c hc sols s' n h => ih _ _ _ _ _ (inv.place ha h0 ((pm c).1 hc)) h) _ _ _ e1
        obtain ⟨hlen, hpick⟩ := Dlx.Cover.pick_sum (fun r n h => h.pos) hns
        -- the number of the solution in this field
        have hsol : ∀ g, IsSolution s.bw s.bh s.num g → g a ∈ π path (s.getCandidates a) ∧ IsSolution s.bw s.bh (place s a (g a)).num g ∧
            (place s a (g a)).empty.length + 1 = s.empty.length := by
          intro g hg
          have hn := hg.full a ha
          have hg0 : g a ≠ 0 := by have := hn.1; omega
          have hk : IsSolution s.bw s.bh (place s a (g a)).num g := by
            refine ⟨fun b hb hb0 => ?_, hg.full, hg.valid⟩
            simp only [place] at hb0 ⊢
            split
            · rename_i e; rw [e]
            · rename_i e
              rw [if_neg e] at hb0
              exact hg.keeps b hb hb0
          refine ⟨(pm _).2 ((inv.cand a ha h0 _).2 ⟨hn, fun b hb hp' e' => ?_⟩), hk, empty_place ha h0 hg0⟩
          have hb0 : s.num b ≠ 0 := by rw [e']; exact hg0
          exact hg.valid a b ha hb hp' hg0 (by rw [hg.keeps b hb hb0, e'])
        have hcard : (π path (s.getCandidates a)).length = (s.cand a).card := by
          rw [← List.toFinset_card_of_nodup pn]
          congr 1
          ext x
          rw [List.mem_toFinset]
          exact pm x
        refine ⟨by omega, fun g hg => ?_, fun g hg hF => ?_, fun g hg t ht hnf hst => ?_⟩
        · obtain ⟨h1, h2, h3⟩ := hsol g hg
          obtain ⟨n0, h4, h5⟩ := hpick _ h1
          have := h4.ge g h2
          omega
        · obtain ⟨h1, h2, h3⟩ := hsol g hg
          have hle : (s.cand a).card ≤ 1 := by
            obtain ⟨b, v, hf, hu⟩ := hF s.num (fun x hx => ⟨fun _ => rfl, by
              by_cases hx0 : s.num x = 0
              · exact Or.inl hx0
              · exact Or.inr (hg.keeps x hx hx0).symm⟩) ⟨a, ha, h0⟩
            refine (pickEmpty_min hp hf.1 hf.2.1).trans ?_
            rw [Finset.card_le_one]
            intro x hx y hy
            rw [inv.cand b hf.1 hf.2.1] at hx hy
            rw [hu x ⟨hf.1, hf.2.1, hx.1, hx.2⟩, hu y ⟨hf.1, hf.2.1, hy.1, hy.2⟩]
          obtain ⟨c, e'⟩ : ∃ c, π path (s.getCandidates a) = [c] := List.length_eq_one_iff.1 (by
            have := List.length_pos_of_mem h1; omega)
          rw [e', List.mem_singleton] at h1
          subst h1
          rw [e'] at hns
          cases hns with
          | cons h4 h5 =>
            cases h5
            have := h4.forced g h2 (fun t ht hnf => hF t (fun x hx => ⟨fun hx0 => ?_, (ht x hx).2⟩) hnf)
            · simp only [List.sum_cons, List.sum_nil]
              omega
            · have hxa : x ≠ a := by rintro rfl; exact hx0 h0
              have h6 := (ht x hx).1 (by simp only [place]; rw [if_neg hxa]; exact hx0)
              simp only [place] at h6
              rwa [if_neg hxa] at h6
        · obtain ⟨h1, h2, h3⟩ := hsol g hg
          obtain ⟨n0, h4, h5⟩ := hpick _ h1
          by_cases hle : (s.cand a).card ≤ 1
          · have hga : g a ∈ s.cand a := (pm _).1 h1
            have hta : t a = g a := by
              refine (ht a ha).2.resolve_left fun ht0 => hst ⟨a, g a, ⟨ha, ht0, hg.full a ha, fun b hb hp' e' => ?_⟩, fun u hu => ?_⟩
              · have hn := (hg.full a ha).1
                have hb0 : t b ≠ 0 := by omega
                rw [(ht b hb).2.resolve_left hb0] at e'
                exact hg.valid a b ha hb hp' (by omega) e'.symm
              · refine Finset.card_le_one.1 hle u ?_ (g a) hga
                rw [inv.cand a ha h0]
                refine ⟨hu.2.2.1, fun b hb hp' e' => hu.2.2.2 b hb hp' ?_⟩
                have hb0 : s.num b ≠ 0 := by have := hu.2.2.1.1; omega
                rw [(ht b hb).1 hb0, e']
            have := h4.stuck g h2 t (fun x hx => ⟨fun hx0 => ?_, (ht x hx).2⟩) hnf hst
            · omega
            · simp only [place] at hx0 ⊢
              split
              · rename_i e'; rw [e']; exact hta
              · rename_i e'
                rw [if_neg e'] at hx0
                exact (ht x hx).1 hx0
          · have := h4.ge g h2
            omega

theorem bruteforceN_count {π : SetOrder} (hπ : π.Ok) {fuel : Nat} {s : Sudoku} {sols : List Sudoku} {n : Nat} (hs : NoConflict s.bw s.bh s.num)
    (h : bruteforceN π fuel s = some (sols, n)) : Count s n := by
  unfold bruteforceN at h
  rw [if_neg (by rw [hasConflict_iff, not_not]; exact hs)] at h
  simp only at h
  cases e : doBruteforceN π fuel [] (initCandidates s.copy) with
  | none => rw [e] at h; cases h
  | some q =>
    obtain ⟨sols1, s1, m⟩ := q
    rw [e] at h
    cases h
    have hc := (doBruteforceN_count hπ fuel _ _ _ _ _ (inv_init hs) e).2
    have hw : (initCandidates s.copy).bw = s.bw := by rw [initCandidates_eq, Sudoku.copy_eq]
    have hh : (initCandidates s.copy).bh = s.bh := by rw [initCandidates_eq, Sudoku.copy_eq]
    have he : ∀ a, InGrid s.bw s.bh a → (initCandidates s.copy).num a = s.num a := by
      intro a ha
      rw [initCandidates_eq, Sudoku.copy_eq]; simp [ha]
    have hemp : (initCandidates s.copy).empty = s.empty := by
      have hcells : (initCandidates s.copy).cells = s.cells := by rw [initCandidates_eq, Sudoku.copy_eq]; rfl
      unfold Sudoku.empty
      rw [hcells]
      refine List.filter_congr fun a ha => ?_
      have := he a ((Sudoku.mem_cells s).1 ha)
      simp [Sudoku.get, this]
    have hsol : ∀ g, IsSolution s.bw s.bh s.num g →
        IsSolution (initCandidates s.copy).bw (initCandidates s.copy).bh (initCandidates s.copy).num g := by
      intro g hg
      rw [hw, hh]
      exact ⟨fun a ha h0 => by rw [he a ha] at h0 ⊢; exact hg.keeps a ha h0, hg.full, hg.valid⟩
    have hbet : ∀ t g, Between (initCandidates s.copy).bw (initCandidates s.copy).bh (initCandidates s.copy).num t g ↔
        Between s.bw s.bh s.num t g := by
      intro t g
      unfold Between
      rw [hw, hh]
      refine forall_congr' fun a => forall_congr' fun ha => ?_
      rw [he a ha]
    refine ⟨hc.pos, fun g hg => ?_, fun g hg hF => ?_, fun g hg t ht => ?_⟩
    · have := hc.ge g (hsol g hg)
      rwa [hemp] at this
    · have := hc.forced g (hsol g hg) (fun t ht => by rw [hw, hh]; exact hF t ((hbet t g).1 ht))
      rwa [hemp] at this
    · have := hc.stuck g (hsol g hg) t ((hbet t g).2 ht)
      rwa [hemp, hw, hh] at this

end Solve
