import Verif.Proofs.GroupCount

set_option autoImplicit false

/-!
# C120: the calls of `is_unique` made by `generate`
-/

open Spec Generate

namespace Props

/-- The number of groups of fields that belong together, of a grid with `N` rows. -/
def groupCount (symmetry : Option String) (N : Nat) : Nat :=
  if symmetry = none then N * N
  else if symmetry = some "rotate-90" then (N * N + 3) / 4
  else if symmetry = some "rotate-180" then (N * N + 1) / 2
  else if symmetry = some "mirror-xy" then ((N + 1) / 2) * ((N + 1) / 2)
  else N * ((N + 1) / 2)

/-- The calls answered with `True`. -/
def accepted (calls : List (Sudoku × Bool)) : List Sudoku := (calls.filter fun p => p.2).map Prod.fst

/-- **C120** The model with the calls gives the same result as the one without. -/
theorem C120_same {w h : Nat} (e : Env w h) (minCount : Int) (symmetry : Option String) :
    (e.generateT minCount symmetry).map (Option.map Prod.fst) = e.generate minCount symmetry :=
  generateT_fst _ _ _ _ _ _ _ _ _ _

theorem groups_eq {symmetry : Option String} {sym : Sym} (hs : Sym.lookup symmetry = some sym) (w h : Nat) :
    groups w h sym (Sudoku.new w h).cells = groupCount symmetry (w * h) := by
  rw [groups_cells]
  generalize w * h = N
  have hN : ∃ k, N = 2 * k ∨ N = 2 * k + 1 := ⟨N / 2, by omega⟩
  obtain ⟨k, hk⟩ := hN
  have sq : N * N = 4 * (k * k) ∨ N * N = 4 * (k * k) + 4 * k + 1 := by
    rcases hk with rfl | rfl
    · left; rw [Nat.mul_mul_mul_comm]
    · right
      rw [Nat.mul_add, Nat.add_mul, Nat.mul_mul_mul_comm]; omega
  unfold Sym.lookup at hs
  split at hs <;> simp only [Option.some.injEq, reduceCtorEq] at hs <;> subst hs <;>
    simp only [groupCount, Option.some.injEq, reduceCtorEq, if_true, if_false, String.reduceEq]
  · have h2 : N / 2 = k := by omega
    rw [h2]
    rcases hk with rfl | rfl
    · rw [show (2 * k + 1) / 2 = k by omega]
      rw [Nat.mul_mul_mul_comm]; omega
    · rw [show (2 * k + 1 + 1) / 2 = k + 1 by omega, Nat.mul_add, Nat.mul_add, Nat.add_mul, Nat.mul_mul_mul_comm]; omega
  · have h2 : N / 2 = k := by omega
    rw [h2]
    rcases hk with rfl | rfl
    · rw [Nat.mul_mul_mul_comm, Nat.mul_left_comm k 2 k, show 2 * k % 2 = 0 by omega, Nat.zero_mul]; omega
    · rw [show (2 * k + 1) % 2 = 1 by omega, show (2 * k + 1 + 1) / 2 = k + 1 by omega, Nat.mul_add, Nat.mul_add (2 * k + 1),
        Nat.add_mul, Nat.mul_mul_mul_comm, Nat.mul_left_comm k 2 k]; omega
  · rw [Nat.mul_comm]

/-- The calls of a run. -/
theorem calls_spec {w h : Nat} (e : Env w h) {minCount : Int} {symmetry : Option String} {t : Sudoku} {calls : List (Sudoku × Bool)}
    (ht : e.generateT minCount symmetry = .ok (some (t, calls))) :
    ∃ sol sym coords' count', Sym.lookup symmetry = some sym ∧ createSolution e.π e.fuel e.c w h = .ok sol ∧
      IsSolution w h (fun _ => 0) sol.get ∧ Inv w h sym minCount sol.get coords' count' t ∧
      Trace w h sym minCount sol.get e.coords ((w * h) ^ 2 : Nat) sol coords' count' t calls ∧
      (coords' = [] ∨ ∃ a l, coords' = a :: l ∧ count' - (sym.fields w h a).dedup.length < minCount) := by
  unfold Env.generateT Generate.generateT at ht
  simp only at ht
  by_cases hmin : minCount ≤ (w ^ 2 * h ^ 2 : Nat)
  · rw [if_neg (not_lt.2 hmin)] at ht
    cases hs : Sym.lookup symmetry with
    | none => rw [hs] at ht; cases ht
    | some sym =>
      obtain ⟨sol, h1, h2, h3⟩ := createSolution_spec e.hπ e.hc e.hf
      have hl : e.coords.length = (w * h) ^ 2 := by
        rw [e.hcoords.length_eq, length_cells]
        unfold Sudoku.len
        simp [Nat.mul_pow]
      obtain ⟨t', calls', coords', count', h4, h5, h6, h7⟩ := reduceT_spec e.hρ e.hf h3 e.rounds e.coords _ _
        (by rw [hl]; exact e.hr) (start_inv (sym := sym) h2 h3 e.hcoords hmin)
      rw [hs] at ht
      simp only [h1] at ht
      rw [h4] at ht
      cases ht
      refine ⟨sol, sym, coords', count', rfl, h1, h3, h5, ?_, h7⟩
      have hlen : (sol.copy).len = (w * h) ^ 2 := by
        rw [copy_plain h2]; unfold Sudoku.len; rw [h2.1, h2.2.1, Nat.mul_pow]
      rw [hlen, copy_plain h2] at h6
      exact h6
  · rw [if_pos (not_le.1 hmin)] at ht; cases ht

/-- **C120** For valid arguments `generate` ends with a result. -/
theorem C120_ends {w h : Nat} (e : Env w h) (minCount : Int) (hm : minCount ≤ (w ^ 2 * h ^ 2 : Nat)) (symmetry : Option String)
    (hs : symmetry ∈ symmetries) : ∃ t calls, e.generateT minCount symmetry = .ok (some (t, calls)) := by
  obtain ⟨sym, hs⟩ := (lookup_iff symmetry).2 hs
  obtain ⟨sol, t, -, -, h1, -⟩ := generate_spec e.hπ e.hρ e.hf e.hr e.hc e.hcoords hm hs
  have := C120_same e minCount symmetry
  unfold Env.generate at this
  rw [h1] at this
  cases hr : e.generateT minCount symmetry with
  | error x => rw [hr] at this; cases this
  | ok r =>
    rw [hr] at this
    cases r with
    | none => cases this
    | some p => exact ⟨p.1, p.2, rfl⟩

/-- **C120** `is_unique` is called at most once for each group of fields. -/
theorem C120_at_most {w h : Nat} (e : Env w h) (minCount : Int) (symmetry : Option String) (t : Sudoku)
    (calls : List (Sudoku × Bool)) (ht : e.generateT minCount symmetry = .ok (some (t, calls))) :
    calls.length ≤ groupCount symmetry (w * h) := by
  obtain ⟨sol, sym, coords', count', hs, -, -, -, tr, -⟩ := calls_spec e ht
  rw [← groups_eq hs, show groups w h sym (Sudoku.new w h).cells = groups w h sym e.coords from
    ((e.hcoords.filter _).length_eq).symm, ← tr.length]
  omega

/-- **C120** Without a minimum (`min_count <= 0`) it is called exactly once for each group. -/
theorem C120_exactly {w h : Nat} (e : Env w h) (minCount : Int) (hm : minCount ≤ 0) (symmetry : Option String) (t : Sudoku)
    (calls : List (Sudoku × Bool)) (ht : e.generateT minCount symmetry = .ok (some (t, calls))) :
    calls.length = groupCount symmetry (w * h) := by
  obtain ⟨sol, sym, coords', count', hs, -, -, inv, tr, hc⟩ := calls_spec e ht
  rw [← groups_eq hs, show groups w h sym (Sudoku.new w h).cells = groups w h sym e.coords from
    ((e.hcoords.filter _).length_eq).symm, ← tr.length]
  rcases hc with rfl | ⟨a, l, rfl, hlt⟩
  · rfl
  · exfalso
    have hcc := count_cleared (s := t) (l := (sym.fields w h a).dedup) (List.nodup_dedup _) (by
      intro c hc
      have hc' := inv.closed a List.mem_cons_self c (List.mem_dedup.1 hc)
      rw [inv.bw, inv.bh]
      exact ⟨inv.grid c hc', inv.todo c hc'⟩)
    have := inv.countEq
    omega

/-- **C120** Every sudoku that is tested consists of numbers of the solution made at the beginning, has at least `min_count` of them, and
the answer is right. -/
theorem C120_tested {w h : Nat} (e : Env w h) (minCount : Int) (symmetry : Option String) (t : Sudoku)
    (calls : List (Sudoku × Bool)) (ht : e.generateT minCount symmetry = .ok (some (t, calls))) :
    ∃ sol, createSolution e.π e.fuel e.c w h = .ok sol ∧ ∀ p ∈ calls, Plain w h p.1 ∧ IsSolution w h p.1.get sol.get ∧
      minCount ≤ p.1.count ∧ (p.2 = true ↔ UniqueSolution w h p.1.get) := by
  obtain ⟨sol, sym, coords', count', -, h1, h2, -, tr, -⟩ := calls_spec e ht
  refine ⟨sol, h1, fun p hp => ?_⟩
  have k := tr.tested p hp
  exact ⟨k.plain, ⟨fun a ha h0 => (k.clues a ha h0).symm, h2.full, h2.valid⟩, k.count, k.answer⟩

/-- **C120** The result is the last sudoku that was found to be unique, or the full grid if there is none. -/
theorem C120_last {w h : Nat} (e : Env w h) (minCount : Int) (symmetry : Option String) (t : Sudoku)
    (calls : List (Sudoku × Bool)) (ht : e.generateT minCount symmetry = .ok (some (t, calls))) :
    ∃ sol, createSolution e.π e.fuel e.c w h = .ok sol ∧ t = (accepted calls).getLastD sol := by
  obtain ⟨sol, sym, coords', count', -, h1, -, -, tr, -⟩ := calls_spec e ht
  exact ⟨sol, h1, tr.last⟩

private theorem sizes {symmetry : Option String} {sym : Sym} (hs : Sym.lookup symmetry = some sym) (w h : Nat) (a : Cell) :
    1 ≤ (sym.fields w h a).dedup.length ∧ (sym.fields w h a).dedup.length ≤ groupSize symmetry ∧
      (sym.fields w h (0, 0)).length = groupSize symmetry := by
  refine ⟨List.length_pos_of_mem (List.mem_dedup.2 (fields_self w h a sym)), le_trans (List.dedup_sublist _).length_le ?_, ?_⟩ <;>
  · unfold Sym.lookup at hs
    split at hs <;> simp only [Option.some.injEq, reduceCtorEq] at hs <;> subst hs <;> simp [Sym.fields, groupSize]

/-- **C120** The number of calls answered with `True` compared with the number of cleared fields. -/
theorem C120_accepted {w h : Nat} (e : Env w h) (minCount : Int) (symmetry : Option String) (t : Sudoku)
    (calls : List (Sudoku × Bool)) (ht : e.generateT minCount symmetry = .ok (some (t, calls))) :
    (accepted calls).length + t.count ≤ (w * h) ^ 2 ∧ (w * h) ^ 2 ≤ groupSize symmetry * (accepted calls).length + t.count := by
  obtain ⟨sol, sym, coords', count', hs, -, -, inv, tr, -⟩ := calls_spec e ht
  obtain ⟨k1, k2⟩ := tr.size 1 (groupSize symmetry) fun a _ => ⟨(sizes hs w h a).1, (sizes hs w h a).2.1⟩
  have := inv.countEq
  unfold accepted
  rw [List.length_map]
  omega

/-- **C120** Without symmetry, or if the number of rows is even, all groups have the same size, and each call answered with `True` stands
for one cleared group. -/
theorem C120_accepted_even {w h : Nat} (e : Env w h) (minCount : Int) (symmetry : Option String)
    (heven : symmetry = none ∨ w * h % 2 = 0) (t : Sudoku) (calls : List (Sudoku × Bool))
    (ht : e.generateT minCount symmetry = .ok (some (t, calls))) :
    groupSize symmetry * (accepted calls).length + t.count = (w * h) ^ 2 := by
  obtain ⟨sol, sym, coords', count', hs, -, -, inv, tr, -⟩ := calls_spec e ht
  have hsz : ∀ a, InGrid w h a → (sym.fields w h a).dedup.length = groupSize symmetry := by
    intro a ha
    rcases heven with rfl | he
    · cases hs; rfl
    · rw [size_even he ha, (sizes hs w h a).2.2]
  obtain ⟨k1, k2⟩ := tr.size (groupSize symmetry) (groupSize symmetry) fun a ha => ⟨(hsz a ha).ge, (hsz a ha).le⟩
  have := inv.countEq
  unfold accepted
  rw [List.length_map]
  omega

/-- **C120** Without symmetry and minimum: `N²` calls, and as many of them answered with `False` as the result has clues. -/
theorem C120_rejected {w h : Nat} (e : Env w h) (minCount : Int) (hm : minCount ≤ 0) (t : Sudoku) (calls : List (Sudoku × Bool))
    (ht : e.generateT minCount none = .ok (some (t, calls))) :
    calls.length = (w * h) ^ 2 ∧ (calls.filter fun p => !p.2).length = t.count := by
  have h1 := C120_exactly e minCount hm none t calls ht
  have h2 := C120_accepted_even e minCount none (Or.inl rfl) t calls ht
  have h3 : calls.length = (w * h) ^ 2 := by rw [h1, Nat.pow_two]; rfl
  refine ⟨h3, ?_⟩
  have h4 := List.length_eq_length_filter_add (l := calls) fun p => p.2
  unfold accepted at h2
  rw [List.length_map, show groupSize none = 1 from rfl] at h2
  omega

/-! ## Samples -/

/-- The filled fields of the result and of the tested sudokus. -/
private def shown (r : Except PyErr (Option (Sudoku × List (Sudoku × Bool)))) : List (Nat × Nat) × List (List (Nat × Nat) × Bool) :=
  match r with
  | .ok (some (t, calls)) => (t.filled, calls.map fun q => (q.1.filled, q.2))
  | _ => ([], [])

/-- The number of calls for a 9x9 sudoku. -/
example : symmetries.map (fun s => groupCount s 9) = [81, 21, 41, 45, 45, 25] := by decide

/-- A run with 4 calls, one of them answered with `False`, the result has one clue. -/
example : shown ((plainEnv 2 1 (by decide) (by decide)).generateT 0 none) =
    ([(1, 1)], [([(0, 1), (1, 0), (1, 1)], true), ([(1, 0), (1, 1)], true), ([(1, 1)], true), ([], false)]) := by decide +kernel
example : shown ((plainEnv 2 1 (by decide) (by decide)).generateT 0 (some "rotate-180")) =
    ([(0, 1), (1, 0)], [([(0, 1), (1, 0)], true), ([], false)]) := by decide +kernel
/-- With a minimum fewer calls are made. -/
example : shown ((plainEnv 2 1 (by decide) (by decide)).generateT 3 none) =
    ([(0, 1), (1, 0), (1, 1)], [([(0, 1), (1, 0), (1, 1)], true)]) := by decide +kernel

end Props
