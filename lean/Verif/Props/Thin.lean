import Verif.Proofs.Thin
import Verif.Props.RateScore
import Verif.Props.Generate
import Verif.Props.Store

set_option autoImplicit false

/-! # Sudokus with few empty fields (C117) -/

open Spec Solvers Generate

namespace Props

/-- The empty fields can be filled one after the other, each being the last one of a row, column or box: in each nonempty set of empty
fields there is one that is the only one of the set in its row, in its column or in its box. -/
def Thin (w h : Nat) (s : Grid) : Prop :=
  ∀ D : Finset Cell, D.Nonempty → (∀ a ∈ D, InGrid w h a ∧ s a = 0) → ∃ a ∈ D, ∃ k, ∀ b ∈ D, Share w h k a b → b = a

/-- **C117** At most three empty fields are always thin. -/
theorem C117_three (s : Sudoku) (hs : s.empty.length ≤ 3) : Thin s.bw s.bh s.get :=
  thin_three s.empty.toFinset (fun a ha h0 => by
    rw [List.mem_toFinset, Sudoku.empty, List.mem_filter, Sudoku.mem_cells]
    exact ⟨ha, by rw [h0]; rfl⟩) ((List.toFinset_card_le _).trans hs)

/-- **C117** So are empty fields in different rows, in different columns or in different boxes. -/
theorem C117_line (w h : Nat) (s : Grid) (k : Line)
    (hk : ∀ a b, InGrid w h a → InGrid w h b → s a = 0 → s b = 0 → Share w h k a b → a = b) : Thin w h s := thin_line k hk

/-- **C117** A sudoku with thin empty fields that has a solution has only one, and `is_unique` says so. -/
theorem C117_unique (π : Dlx.Orders) (hπ : π.Ok) (fuel : Nat) (s : Sudoku) (hf : s.empty.length < fuel) (hs : Solvable s.bw s.bh s.get)
    (ht : Thin s.bw s.bh s.get) : UniqueSolution s.bw s.bh s.get ∧ Dlx.isUnique π fuel s = .ok true := by
  obtain ⟨g, hg⟩ := hs
  have hu : UniqueSolution s.bw s.bh s.get := ⟨g, hg, fun g' hg' => thin_unique ht hg hg'⟩
  obtain ⟨b, h1, h2⟩ := C22_is_unique π hπ fuel s hf
  rw [h2.2 hu] at h1
  exact ⟨hu, h1⟩

private theorem thin_log {π : Orders Run} (hπ : π.Ok) {s : Sudoku} (hs : Solvable s.bw s.bh s.get) (ht : Thin s.bw s.bh s.get) {fuel rounds : Nat}
    (hf : s.empty.length < fuel) {w : Run} (hw : solve π fuel rounds s = .ok (some w)) (hk : ∀ st ∈ w.2, st.kind ∈ solvers) :
    ∀ st ∈ w.2, st.kind = .calculateCandidates ∨ st.kind = .nakedSingle := by
  intro st hst
  by_contra hno
  push Not at hno
  obtain ⟨g, T, h1, h2, h3, h4⟩ := (solve_blocked hπ hs hf hw st hst).resolve_left hno.1
  have he : Earlier st.kind .nakedSingle := by
    have h5 := hk st hst
    obtain ⟨k1, k2⟩ := hno
    revert h5 k1 k2
    generalize st.kind = k
    intro h5 k1 k2
    have h6 : k = .nakedSingle ∨ k = .calculateCandidates ∨ k ∈ solvers.drop 2 := by
      revert k; decide
    rcases h6 with h6 | h6 | h6
    · exact absurd h6 k2
    · exact absurd h6 k1
    · unfold Earlier
      revert k; decide
  have e := init_dims s
  have hbw : T.bw = s.bw := h2.bw.trans e.1
  have hbh : T.bh = s.bh := h2.bh.trans e.2.1
  refine thin_single h1 (fun a ha v hv => ?_) ?_ h3 (h4 _ he)
  · rw [hbw, hbh] at ha ⊢
    have := h2.cand a (by rw [e.1, e.2.1]; exact ha) hv
    rw [Solve.initCandidates_eq] at this
    simp only [ha, true_or, and_self, if_true] at this
    obtain ⟨g', hg⟩ := hs
    by_cases h0 : s.num a = 0
    · rw [Solve.mem_calc_empty ha h0] at this
      exact this.1
    · rw [Solve.calc_filled h0, Finset.mem_singleton, show s.num a = g' a from (hg.keeps a ha h0).symm] at this
      rw [this]
      exact hg.full a ha
  · rw [hbw, hbh]
    refine ThinSet.mono ht fun a ha h0 => ?_
    by_contra h5
    have := h2.num a (by rw [e.1, e.2.1]; exact ha) (by rw [e.2.2]; exact h5)
    rw [e.2.2] at this
    exact h5 (this.symm.trans h0)

/-- **C117** It is solved with `CalculateCandidates` and `NakedSingle` alone; its rate is 1 (0 if nothing is empty), and its score is
the number of empty fields. -/
theorem C117_singles (π π' π'' : Orders Run) (hπ : π.Ok) (hπ' : π'.Ok) (hπ'' : π''.Ok) (s : Sudoku) (hs : Solvable s.bw s.bh s.get) (ht : Thin s.bw s.bh s.get)
    (fuel rounds : Nat) (hf : s.empty.length < fuel) (hr : s.empty.length * (s.bw * s.bh + 1) < rounds) :
    (∃ w, solve π fuel rounds s = .ok (some w) ∧ (∀ st ∈ w.2, st.kind = .calculateCandidates ∨ st.kind = .nakedSingle) ∧ w.1.empty = []) ∧
    rate π' fuel rounds s = .ok (some (if s.empty = [] then 0 else 1)) ∧ score π'' fuel rounds s = .ok (some s.empty.length) := by
  have key : rate π' fuel rounds s = .ok (some (if s.empty = [] then 0 else 1)) := by
    obtain ⟨r, t, steps, h1, h2, -, h3, -⟩ := C32_rate π' hπ' s hs fuel rounds hf hr
    have hk : ∀ st ∈ steps, st.kind ∈ solvers := by
      obtain ⟨w, k1, -, -, -, -, k2, -⟩ := solve_spec hπ' s hs fuel rounds hf hr
      rw [h1] at k1
      cases k1
      exact k2
    have hlog := thin_log hπ' hs ht hf h1 hk
    have hle : r ≤ 1 := by
      have hr' : rate π' fuel rounds s = .ok (some (if steps.map points = [] then 0 else maxList (steps.map points))) := by
        unfold rate; rw [h1]; simp only; rw [ratings_ok steps hk]
      rw [h2] at hr'
      obtain rfl := Option.some.inj (Except.ok.inj hr')
      split
      · omega
      · rename_i hne
        obtain ⟨st, hst, e⟩ := List.mem_map.1 (maxList_mem hne)
        rw [← e]
        rcases hlog st hst with e | e <;> (unfold points; rw [e]; decide)
    rw [h2]
    have hfull : Full s ↔ s.empty = [] := by
      unfold Full Sudoku.empty
      rw [List.filter_eq_nil_iff]
      refine forall_congr' fun a => ?_
      rw [Sudoku.mem_cells]
      simp
    rw [hfull] at h3
    split
    · rename_i h; rw [h3.2 h]
    · rename_i h
      have : r ≠ 0 := fun e => h (h3.1 e)
      rw [show r = 1 by omega]
  refine ⟨?_, key, ?_⟩
  · obtain ⟨w, h1, h2, h3, h4, -, h5, -⟩ := solve_spec hπ s hs fuel rounds hf hr
    refine ⟨w, h1, thin_log hπ hs ht hf h1 h5, ?_⟩
    unfold Sudoku.empty
    rw [List.filter_eq_nil_iff]
    intro a ha
    rw [Sudoku.mem_cells, h3, h4] at ha
    have := (h2.full a ha).1
    show ¬ (w.1.num a == 0) = true
    simp
    omega
  · obtain ⟨w, h1, -, -, -, -, h5, -⟩ := solve_spec hπ'' s hs fuel rounds hf hr
    have hq' : score π'' fuel rounds s = .ok (some (w.2.map points).sum) := by
      unfold score; rw [h1]; simp only; rw [ratings_ok w.2 h5]
    have := (C114_rate_score π' π'' hπ' hπ'' s hs fuel fuel rounds rounds hf hf _ _ key hq').2.1.2 (by split <;> omega)
    rw [hq', this]

/-- **C117** Every sudoku made by `generate` without symmetry has at least three empty fields, unless it has
exactly `min_count` clues (or none at all). -/
theorem C117_generate {w h : Nat} (e : Env w h) (minCount : Int) (t : Sudoku) (ht : e.generate minCount none = .ok (some t)) :
    3 ≤ t.empty.length ∨ t.count = minCount ∨ t.count = 0 := by
  have h1 := C36_min_count e minCount none t ht
  obtain ⟨⟨hbw, hbh, -, -⟩, sol, -, hsol, -⟩ := C35_unique e minCount none t ht
  by_contra hno
  push Not at hno
  obtain ⟨h2, h3, h4⟩ := hno
  have hirr := C38_min_count e minCount none t ht (by simp only [groupSize, if_true]; omega)
  obtain ⟨a, ha⟩ : ∃ a, a ∈ t.filled := by
    have := (C08_count t).1
    exact List.exists_mem_of_length_pos (by omega)
  obtain ⟨ha1, ha0⟩ : InGrid w h a ∧ t.get a ≠ 0 := by
    have := List.mem_filter.1 ha
    rw [Sudoku.mem_cells, hbw, hbh] at this
    exact ⟨this.1, by simpa using this.2⟩
  refine hirr (fun b => decide (b = a)) (by simp [Symmetric]) ⟨a, ha1, by simp, ha0⟩ ?_
  have hth : Thin w h fun b => if decide (b = a) = true then 0 else t.get b := by
    refine thin_three (insert a t.empty.toFinset) (fun b hb h0 => ?_) ?_
    · by_cases e : b = a
      · rw [e]; exact Finset.mem_insert_self _ _
      · simp only [e, decide_false, Bool.false_eq_true, if_false] at h0
        refine Finset.mem_insert_of_mem ?_
        rw [List.mem_toFinset, Sudoku.empty, List.mem_filter, Sudoku.mem_cells, hbw, hbh]
        exact ⟨hb, by rw [h0]; rfl⟩
    · have := Finset.card_insert_le a t.empty.toFinset
      have := List.toFinset_card_le t.empty
      omega
  have hs : IsSolution w h (fun b => if decide (b = a) = true then 0 else t.get b) sol.get := by
    refine ⟨fun b hb h0 => ?_, hsol.full, hsol.valid⟩
    by_cases e : b = a
    · simp [e] at h0
    · simp only [e, decide_false, Bool.false_eq_true, if_false] at h0 ⊢
      exact hsol.keeps b hb h0
  exact ⟨sol.get, hs, fun g' hg' => thin_unique hth hs hg'⟩

/-- **C117** For a template with thin empty fields, `generate_from_template` succeeds at the first try. -/
theorem C117_template (template : Sudoku) (e : TryEnv template) (rounds : Nat) (tries : Int) (ht : Thin template.bw template.bh template.get)
    (h0 : tries ≠ 0) (hr : 0 < rounds) :
    ∃ s, generateFromTemplate e.fuel rounds e.f template tries = .ok (some s) := by
  by_cases hneg : tries < 0
  all_goals
    refine C40_success template e rounds tries 0 (by omega) (by simp) ?_ hr
    rintro ⟨sol, hsol, hno⟩
    obtain ⟨sol', h1, -, h2⟩ := createSolution_spec (e.hcreate 0) (e.hchoices 0) e.hf
    rw [hsol] at h1
    cases h1
    refine hno ⟨sol.get, ⟨fun a ha h0 => ?_, h2.full, h2.valid⟩, fun g' hg' => ?_⟩
    · by_cases h : template.get a = 0
      · simp [h] at h0
      · simp [h]
    · refine thin_unique (ThinSet.mono ht fun a ha h0 => ?_) ⟨fun a ha h0 => ?_, h2.full, h2.valid⟩ hg'
      · by_contra h
        simp only [h, if_false] at h0
        have := (h2.full a ha).1
        omega
      · by_cases h : template.get a = 0
        · simp [h] at h0
        · simp [h]

/-- The two solutions of the empty sudoku with boxes of width 2 and height 1. -/
def oneWay : Sudoku := Sudoku.new 2 1 |>.setNumber (0, 0) 1 |>.setNumber (0, 1) 2 |>.setNumber (1, 0) 2 |>.setNumber (1, 1) 1
def otherWay : Sudoku := Sudoku.new 2 1 |>.setNumber (0, 0) 2 |>.setNumber (0, 1) 1 |>.setNumber (1, 0) 1 |>.setNumber (1, 1) 2

/-- **C117** Four empty fields may leave two solutions, and then something has to be tried: three is the best possible. -/
theorem C117_four : ∃ s : Sudoku, s.empty.length = 4 ∧ Solvable s.bw s.bh s.get ∧ ¬ UniqueSolution s.bw s.bh s.get ∧
    (rate (plainWatch Run) 9 30 s).toOption = some (some 10) := by
  refine ⟨Sudoku.new 2 1, by decide, ⟨oneWay.get, by decide +kernel⟩, ?_, by decide +kernel⟩
  rintro ⟨g, -, hg⟩
  have h1 := hg oneWay.get (by decide +kernel) (0, 0) (by decide)
  have h2 := hg otherWay.get (by decide +kernel) (0, 0) (by decide)
  rw [h1] at h2
  revert h2
  decide

/-! ## Samples -/

/-- Three empty fields, two of them in one row and two in one column. -/
def corner : Sudoku := Sudoku.new 2 1 |>.setNumber (0, 1) 1
example : corner.empty.length = 3 ∧ Solvable corner.bw corner.bh corner.get :=
  ⟨by decide, ((corner.setNumber (0, 0) 2).setNumber (1, 0) 1 |>.setNumber (1, 1) 2).get, by decide +kernel⟩
example : (rate (plainWatch Run) 5 30 corner).toOption = some (some 1) ∧ (score (plainWatch Run) 5 30 corner).toOption = some (some 3) := by
  decide +kernel

/-- More than three fields that are still thin: one row of a 4x4 sudoku. -/
def lastRow : Sudoku := { Sudoku.new 2 2 with num := fun a => if a.1 = 3 then 0 else ((2 * a.1 + a.1 / 2 + a.2) % 4 + 1 : Nat) }
example : lastRow.empty = [(3, 0), (3, 1), (3, 2), (3, 3)] ∧ Thin 2 2 lastRow.get := by
  refine ⟨by decide, C117_line 2 2 lastRow.get .column fun a b _ _ ha hb hs => ?_⟩
  have key : ∀ a, lastRow.get a = 0 → a.1 = 3 := by
    intro a h
    by_contra h3
    have : lastRow.get a = ((2 * a.1 + a.1 / 2 + a.2) % 4 + 1 : Nat) := by simp [lastRow, Sudoku.get, h3]
    omega
  exact Prod.ext ((key a ha).trans (key b hb).symm) hs

/-- The converse does not hold: the rate is 1, but each of the four empty fields shares its row, its column and its box with another one. -/
def ring4 : Sudoku := { Sudoku.new 2 2 with num := fun a => if a.1 ≤ 1 ∧ (a.2 = 0 ∨ a.2 = 3) then 0 else ((2 * a.1 + a.1 / 2 + a.2) % 4 + 1 : Nat) }
example : (rate (plainWatch Run) 5 30 ring4).toOption = some (some 1) ∧ ¬ Thin 2 2 ring4.get := by
  refine ⟨by decide +kernel, fun h => ?_⟩
  obtain ⟨a, ha, k, hk⟩ := h {(0, 0), (0, 3), (1, 0), (1, 3)} (by decide) (by decide)
  revert a
  cases k <;> decide

/-- `generate` (C117_generate) and `generate_from_template` (C117_template) with the samples of Props/Generate. -/
example : (((plainEnv 2 1 (by decide) (by decide)).generate 0 none).toOption.map fun t => t.map fun t => t.empty.length) =
    some (some 3) := by decide +kernel
example : Thin dot.bw dot.bh dot.get := C117_three dot (by decide)

end Props
