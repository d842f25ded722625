import Verif.Proofs.ApplyAll
import Verif.Props.Solve
import Verif.Props.Solvers

set_option autoImplicit false

/-! # C75, C76: `apply_all` -/

open Spec

namespace Props

open Solvers

/-! ## C75 -/

/-- **C75** `CalculateCandidates.apply_all` leaves the numbers and all fields with candidates alone; the other fields get the numbers
that are possible there. -/
theorem C75_calculate (π : Orders Sudoku) (fuel : Nat) (s : Sudoku) : ∃ t, applyAll π fuel .calculateCandidates s = .ok t ∧
    t.bw = s.bw ∧ t.bh = s.bh ∧ (∀ a, t.get a = s.get a) ∧
    ∀ a, InGrid s.bw s.bh a →
      (s.getCandidates a ≠ ∅ → t.getCandidates a = s.getCandidates a) ∧
      (s.getCandidates a = ∅ → ∀ v, v ∈ t.getCandidates a ↔ if s.get a = 0
        then IsNumber s.bw s.bh v ∧ ∀ b, InGrid s.bw s.bh b → Peer s.bw s.bh a b → s.get b ≠ v
        else v = s.get a) := by
  refine ⟨_, applyAll_calc π fuel s, rfl, rfl, fun _ => rfl, fun a ha => ⟨fun h => ?_, fun h v => ?_⟩⟩
  · simp only [Sudoku.getCandidates] at h ⊢
    rw [if_neg (by simp [h])]
  · simp only [Sudoku.getCandidates] at h ⊢
    rw [if_pos ⟨ha, h⟩]
    by_cases h0 : s.get a = 0
    · rw [if_pos h0]; exact C13_empty s a ha h0 v
    · rw [if_neg h0]; exact C13_filled s a h0 v

/-- **C75** For a sudoku without candidates it does the same as `init_candidates`. -/
theorem C75_init (π : Orders Sudoku) (fuel : Nat) (s : Sudoku) (hs : ∀ a, InGrid s.bw s.bh a → s.getCandidates a = ∅) :
    applyAll π fuel .calculateCandidates s = .ok (Solve.initCandidates s) := by
  rw [applyAll_calc, Solve.initCandidates_eq]
  congr 2
  funext a
  by_cases ha : InGrid s.bw s.bh a
  · have := hs a ha
    simp only [Sudoku.getCandidates] at this
    simp [ha, this]
  · simp [ha]

/-- **C75** Doing it twice is doing it once. -/
theorem C75_idempotent (π : Orders Sudoku) (fuel : Nat) (s t : Sudoku) (h : applyAll π fuel .calculateCandidates s = .ok t) :
    applyAll π fuel .calculateCandidates t = .ok t := by
  rw [applyAll_calc] at h
  obtain rfl := Except.ok.inj h
  rw [applyAll_calc]
  congr 2
  funext a
  simp only
  have hc := Solve.calc_congr (s := { s with cand := fun a => if InGrid s.bw s.bh a ∧ s.cand a = ∅ then Solve.calcCandidates s a else s.cand a })
    (t := s) rfl rfl rfl a
  rw [hc]
  by_cases h1 : InGrid s.bw s.bh a ∧ s.cand a = ∅
  · simp only [h1, and_self, if_true, true_and]
    split <;> rfl
  · simp [h1]

/-- A number was set; the candidates around it are out of date. -/
def outdated : Sudoku := (Solve.initCandidates (Sudoku.new 2 2)).setNumber (0, 0) 1

/-- **C75** For other sudokus it does not do the same. -/
theorem C75_not_init (π : Orders Sudoku) (fuel : Nat) : ∃ t, applyAll π fuel .calculateCandidates outdated = .ok t ∧
    t.getCandidates (0, 1) = {1, 2, 3, 4} ∧ (Solve.initCandidates outdated).getCandidates (0, 1) = {2, 3, 4} := by
  refine ⟨_, applyAll_calc π fuel outdated, ?_, ?_⟩ <;> decide +kernel

example : ∀ a, InGrid sample.bw sample.bh a → sample.getCandidates a = ∅ := fun _ _ => rfl

/-! ## C76 -/

/-- **C76** `apply_all` of any class but `Bruteforce`: no exception, no number is changed, and no solution contained in the candidates is
lost.  For all sudokus, solvable or not. -/
theorem C76_class (π : Orders Sudoku) (hπ : π.Ok) (fuel : Nat) (k : Kind) (hk : k ≠ .bruteforce) (s : Sudoku) :
    ∃ t, applyAll π fuel k s = .ok t ∧ t.bw = s.bw ∧ t.bh = s.bh ∧ (∀ a, s.get a ≠ 0 → t.get a = s.get a) ∧
      ∀ g, Contains s g → Contains t g := by
  obtain ⟨t, h1, h2⟩ := applyAll_inv hπ fuel hk s
  exact ⟨t, h1, h2.bw, h2.bh, h2.num, h2.cons⟩

/-- **C76** `Bruteforce.apply_all` fills in a solution, whatever the candidates are, or does nothing if there is none. -/
theorem C76_bruteforce (π : Orders Sudoku) (hπ : π.Ok) (fuel : Nat) (s : Sudoku) (hf : s.empty.length < fuel) :
    ∃ t, applyAll π fuel .bruteforce s = .ok t ∧ t.bw = s.bw ∧ t.bh = s.bh ∧
      (Solvable s.bw s.bh s.get → IsSolution s.bw s.bh s.get t.get) ∧ (¬ Solvable s.bw s.bh s.get → t = s) := by
  by_cases hs : Solvable s.bw s.bh s.num
  · obtain ⟨t, h1, h2, h3, h4⟩ := applyAll_brute hπ s hf hs
    exact ⟨t, h1, h2, h3, fun _ => h4, fun h => absurd hs h⟩
  · exact ⟨s, applyAll_brute_none hπ s hf hs, rfl, rfl, fun h => absurd h hs, fun _ => rfl⟩

/-- **C76** A single pass over all classes solves every solvable sudoku without candidates, or with candidates not excluding all of its
solutions. -/
theorem C76_pass (π : Orders Sudoku) (hπ : π.Ok) (fuel : Nat) (s : Sudoku) (hf : s.empty.length < fuel) (hs : ∃ g, MayContain s g) :
    ∃ t, applyPass π fuel solvers s = .ok t ∧ t.bw = s.bw ∧ t.bh = s.bh ∧ IsSolution s.bw s.bh s.get t.get := by
  obtain ⟨g, hg⟩ := hs
  have e : solvers = .calculateCandidates :: ((solvers.tail.dropLast) ++ [.bruteforce]) := by decide
  rw [e, applyPass, applyAll_calc]
  simp only
  rw [applyPass_append]
  set s1 : Sudoku := { s with cand := fun a => if InGrid s.bw s.bh a ∧ s.cand a = ∅ then Solve.calcCandidates s a else s.cand a }
  have hg1 : Contains s1 g := by
    refine ⟨hg.1, fun a ha => ?_⟩
    show g a ∈ if InGrid s.bw s.bh a ∧ s.cand a = ∅ then Solve.calcCandidates s a else s.cand a
    by_cases h0 : s.cand a = ∅
    · rw [if_pos ⟨ha, h0⟩]; exact mem_calc hg.1 ha
    · rw [if_neg (by simp [h0])]; exact (hg.2 a ha).resolve_left h0
  obtain ⟨t, h1, h2⟩ := applyPass_inv hπ fuel solvers.tail.dropLast (by decide) s1
  rw [h1]
  simp only [applyPass]
  have hbw : t.bw = s.bw := h2.bw
  have hbh : t.bh = s.bh := h2.bh
  have hempty : t.empty.length ≤ s.empty.length := by
    have hc : t.cells = s.cells := cells_congr hbw hbh
    unfold Sudoku.empty
    rw [hc]
    refine (List.monotone_filter_right _ ?_).length_le
    intro a ha
    simp only [beq_iff_eq, Sudoku.get] at ha ⊢
    by_contra hne
    exact hne ((h2.num a hne).symm.trans ha)
  have hct := (h2.cons g hg1).1
  obtain ⟨u, h3, h4, h5, h6⟩ := applyAll_brute hπ t (by omega : t.empty.length < fuel) ⟨g, hct⟩
  rw [h3]
  refine ⟨u, rfl, h4.trans hbw, h5.trans hbh, ?_⟩
  rw [hbw, hbh] at h6
  refine ⟨fun a ha h0 => ?_, h6.full, h6.valid⟩
  have := h2.num a h0
  show u.num a = _
  rw [h6.keeps a ha (by rw [this]; exact h0), this]; rfl

/-- **C76** In particular (`test_apply_all`): the loop `while list(sudoku.empty())` ends after one pass with the solution, if there is only
one. -/
theorem C76_unique (π : Orders Sudoku) (hπ : π.Ok) (fuel : Nat) (s : Sudoku) (hf : s.empty.length < fuel)
    (hc : ∀ a, InGrid s.bw s.bh a → s.getCandidates a = ∅) (g : Grid) (hg : IsSolution s.bw s.bh s.get g)
    (hu : ∀ g', IsSolution s.bw s.bh s.get g' → SameGrid s.bw s.bh g g') :
    ∃ t, applyPass π fuel solvers s = .ok t ∧ t.empty = [] ∧ SameGrid s.bw s.bh g t.get := by
  obtain ⟨t, h1, h2, h3, h4⟩ := C76_pass π hπ fuel s hf ⟨g, hg, fun a ha => Or.inl (hc a ha)⟩
  refine ⟨t, h1, ?_, hu _ h4⟩
  rw [List.eq_nil_iff_forall_not_mem]
  intro a ha
  simp only [Sudoku.empty, List.mem_filter, beq_iff_eq, Sudoku.mem_cells, h2, h3] at ha
  have := (h4.full a ha.1).1
  omega

/-- Wrong candidates. -/
def misled : Sudoku := ((Sudoku.new 2 1).setNumber (0, 0) 1).setCandidates (0, 1) {1}

/-- **C76** With candidates that exclude the solution the sudoku may be spoilt: a solvable sudoku ends with a conflict. -/
theorem C76_misled : Solvable misled.bw misled.bh misled.get ∧ ∃ t, applyPass (plainWatch Sudoku) 5 solvers misled = .ok t ∧
    t.get (0, 0) = 1 ∧ t.get (0, 1) = 1 := by
  refine ⟨⟨fun a => if a.1 = a.2 then 1 else 2, by decide +kernel, by decide +kernel, by decide +kernel⟩, ?_⟩
  have key : ((applyPass (plainWatch Sudoku) 5 solvers misled).toOption.map fun t => (t.get (0, 0), t.get (0, 1))) = some (1, 1) := by
    decide +kernel
  cases h : applyPass (plainWatch Sudoku) 5 solvers misled with
  | error e => rw [h] at key; cases key
  | ok t =>
    rw [h] at key
    simp only [Except.toOption, Option.map_some, Option.some.injEq, Prod.mk.injEq] at key
    exact ⟨t, rfl, key.1, key.2⟩

/-- A sudoku with a solution. -/
example : ∃ t, applyPass (plainWatch Sudoku) 30 solvers sample = .ok t ∧ t.bw = 2 ∧ t.bh = 2 ∧ IsSolution 2 2 sample.get t.get :=
  C76_pass (plainWatch Sudoku) (plainWatch_ok _) 30 sample (by decide +kernel)
    ⟨fun a => ([[1, 2, 3, 4], [4, 3, 2, 1], [2, 4, 1, 3], [3, 1, 4, 2]].getD a.1 []).getD a.2 0,
      ⟨by decide +kernel, by decide +kernel, by decide +kernel⟩, fun _ _ => Or.inl rfl⟩

end Props
