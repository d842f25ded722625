import Verif.Props.Rate

set_option autoImplicit false

/-! # C90: entering right numbers -/

open Spec Solvers Solve

namespace Props

/-- `t` has the numbers of `s` and perhaps more. -/
structure More (s t : Sudoku) : Prop where
  bw : t.bw = s.bw
  bh : t.bh = s.bh
  keeps : Extends s.bw s.bh s.get t.get

private theorem more_solution {s t : Sudoku} (hm : More s t) {g : Grid} (hg : IsSolution t.bw t.bh t.get g) : IsSolution s.bw s.bh s.get g := by
  rw [hm.bw, hm.bh] at hg
  refine ⟨fun a ha h0 => ?_, hg.full, hg.valid⟩
  have := hm.keeps a ha h0
  rw [← this]
  exact hg.keeps a ha (by rw [this]; exact h0)

private theorem more_calc {s t : Sudoku} (hm : More s t) {g : Grid} (hg : IsSolution t.bw t.bh t.get g) {a : Cell} (ha : InGrid s.bw s.bh a) :
    calcCandidates t a ⊆ calcCandidates s a := by
  intro v hv
  have hat : InGrid t.bw t.bh a := by rw [hm.bw, hm.bh]; exact ha
  by_cases ht : t.num a = 0
  · rw [mem_calc_empty hat ht] at hv
    have hs0 : s.num a = 0 := by
      by_contra h0
      exact h0 ((hm.keeps a ha h0).symm.trans ht)
    rw [mem_calc_empty ha hs0]
    obtain ⟨h1, h2⟩ := hv
    rw [hm.bw, hm.bh] at h1
    refine ⟨h1, fun b hb hp e => ?_⟩
    have h0 : s.num b ≠ 0 := by
      rw [e]
      have := h1.1
      omega
    refine h2 b (by rw [hm.bw, hm.bh]; exact hb) (by rw [hm.bw, hm.bh]; exact hp) ?_
    exact (hm.keeps b hb h0).trans e
  · rw [calc_filled ht, Finset.mem_singleton] at hv
    rw [hv, ← show g a = t.num a from hg.keeps a hat ht]
    exact mem_calc (more_solution hm hg) ha

/-- **C90** The candidates of a solvable sudoku become fewer when numbers are entered that keep it solvable. -/
theorem C90_candidates (s t : Sudoku) (hm : More s t) (ht : Solvable t.bw t.bh t.get) (a : Cell) (ha : InGrid s.bw s.bh a) :
    calcCandidates t a ⊆ calcCandidates s a := by
  obtain ⟨g, hg⟩ := ht
  exact more_calc hm hg ha

/-- **C90** Entering numbers never adds solutions. -/
theorem C90_solutions (s t : Sudoku) (hm : More s t) (π π' : Dlx.Orders) (hπ : π.Ok) (hπ' : π'.Ok)
    (fuel fuel' : Nat) (hf : s.empty.length < fuel) (hf' : t.empty.length < fuel') :
    ∃ X Y, Dlx.dlx π fuel s = .ok X ∧ Dlx.dlx π' fuel' t = .ok Y ∧ Y.Subperm X := by
  obtain ⟨X, h1, h2, h3⟩ := Dlx.dlx_spec hπ s fuel hf
  obtain ⟨Y, h1', h2', h3'⟩ := Dlx.dlx_spec hπ' t fuel' hf'
  refine ⟨X, Y, h1, h1', List.subperm_of_subset h2' fun x hx => ?_⟩
  obtain ⟨h4, h5⟩ := (h3' x).1 hx
  rw [hm.bw, hm.bh] at h4
  exact (h3 x).2 ⟨h4, more_solution hm h5⟩

/-- **C90** Entering numbers of the solution keeps a sudoku uniquely solvable. -/
theorem C90_unique (s t : Sudoku) (hm : More s t) (ht : Solvable t.bw t.bh t.get) (π π' : Dlx.Orders) (hπ : π.Ok) (hπ' : π'.Ok)
    (fuel fuel' : Nat) (hf : s.empty.length < fuel) (hf' : t.empty.length < fuel') (hu : Dlx.isUnique π fuel s = .ok true) :
    Dlx.isUnique π' fuel' t = .ok true := by
  obtain ⟨b, h1, h2⟩ := C22_is_unique π hπ fuel s hf
  rw [hu] at h1
  cases h1
  obtain ⟨g, hg, hu'⟩ := h2.1 rfl
  obtain ⟨c, h3, h4⟩ := C22_is_unique π' hπ' fuel' t hf'
  rw [h3]
  congr 1
  rw [h4]
  obtain ⟨g', hg'⟩ := ht
  refine ⟨g', hg', fun g'' hg'' a ha => ?_⟩
  rw [hm.bw, hm.bh] at ha
  rw [← hu' g' (more_solution hm hg') a ha, ← hu' g'' (more_solution hm hg'') a ha]

/-- **C90** Entering right numbers never makes a sudoku more difficult: `rate` does not increase. -/
theorem C90_rate (s t : Sudoku) (hm : More s t) (ht : Solvable t.bw t.bh t.get) (π π' : Orders Run) (hπ : π.Ok) (hπ' : π'.Ok)
    (fuel fuel' rounds rounds' : Nat) (hf : s.empty.length < fuel) (hf' : t.empty.length < fuel') (r q : Nat)
    (hr : rate π fuel rounds s = .ok (some r)) (hq : rate π' fuel' rounds' t = .ok (some q)) : q ≤ r := by
  obtain ⟨g, hg⟩ := ht
  refine rate_le_of_blocked (fun k hb => ?_) hπ hπ' ⟨g, more_solution hm hg⟩ ⟨g, hg⟩ hf hf' hr hq
  obtain ⟨g', T, h1, h2, h3, h4⟩ := hb
  refine ⟨g', T, h1, h2.trans ⟨?_, ?_, fun a ha h0 => ?_, fun a ha => ?_⟩, h3, h4⟩
  · rw [(init_dims s).1, (init_dims t).1]; exact hm.bw
  · rw [(init_dims s).2.1, (init_dims t).2.1]; exact hm.bh
  · rw [(init_dims s).1, (init_dims s).2.1] at ha
    rw [(init_dims s).2.2] at h0 ⊢
    rw [(init_dims t).2.2]
    exact hm.keeps a ha h0
  · rw [(init_dims s).1, (init_dims s).2.1] at ha
    have hat : InGrid t.bw t.bh a := by rw [hm.bw, hm.bh]; exact ha
    rw [initCandidates_eq, initCandidates_eq]
    simp only [ha, hat, true_and, true_or, if_true]
    exact more_calc hm hg ha

/-! Case: `pz` (two clues, rating 10) and `easy4` (rating 1). -/

example : More pz easy4 ∧ Solvable easy4.bw easy4.bh easy4.get :=
  ⟨⟨rfl, rfl, by unfold Extends; decide +kernel⟩, solved4.get, by decide +kernel⟩

end Props
