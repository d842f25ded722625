import Verif.Proofs.CallsMore
import Verif.Props.Calls
import Verif.Props.Divisible

set_option autoImplicit false

/-! # Each solution costs a call (C124) -/

open Spec

namespace Props

/-- The sudoku with the numbers of a grid, as the searches yield it. -/
private def filled (w h : Nat) (g : Grid) : Sudoku :=
  ⟨w, h, fun a => if a.1 < w * h ∧ a.2 < w * h then g a else 0, fun _ => ∅⟩

private theorem filled_num {w h : Nat} {g : Grid} {a : Cell} (ha : InGrid w h a) : (filled w h g).num a = g a := if_pos ha

private theorem filled_canon (w h : Nat) (g : Grid) : Solve.Canon w h (filled w h g) :=
  ⟨rfl, rfl, fun _ ha => if_neg ha, fun _ => rfl⟩

private theorem filled_solution {w h : Nat} {s g : Grid} (hg : IsSolution w h s g) : IsSolution w h s (filled w h g).num := by
  refine ⟨fun a ha h0 => ?_, fun a ha => ?_, fun a b ha hb => ?_⟩
  · rw [filled_num ha]; exact hg.keeps a ha h0
  · rw [filled_num ha]; exact hg.full a ha
  · rw [filled_num ha, filled_num hb]; exact hg.valid a b ha hb

private theorem filled_length {w h : Nat} {gs : List Grid} {sols : List Sudoku} (hd : gs.Pairwise fun g g' => ¬ SameGrid w h g g')
    (hm : ∀ g ∈ gs, filled w h g ∈ sols) : gs.length ≤ sols.length := by
  have hnd : (gs.map (filled w h)).Nodup := by
    rw [List.Nodup, List.pairwise_map]
    refine hd.imp fun {g g'} hne e => hne fun a ha => ?_
    have e1 : (filled w h g).num a = (filled w h g').num a := by rw [e]
    rwa [filled_num ha, filled_num ha] at e1
  have hsub : gs.map (filled w h) ⊆ sols := by
    intro t ht
    obtain ⟨g, hg, rfl⟩ := List.mem_map.1 ht
    exact hm g hg
  have := (List.subperm_of_subset hnd hsub).length_le
  rwa [List.length_map] at this

/-- **C124** `dlx` calls its function `solve` at least once for each empty field and once for each solution: if there are the
solutions `gs`, at least one and all different, then at least `E + |gs|` times. -/
theorem C124_dlx (π : Dlx.Orders) (hπ : π.Ok) (fuel : Nat) (s : Sudoku) (sols : List Sudoku) (n : Nat) (h : Dlx.dlxN π fuel s = .ok (sols, n))
    (gs : List Grid) (hne : gs ≠ []) (hs : ∀ g ∈ gs, IsSolution s.bw s.bh s.get g) (hd : gs.Pairwise fun g g' => ¬ SameGrid s.bw s.bh g g') :
    s.empty.length + gs.length ≤ n := by
  obtain ⟨g, hg⟩ := List.exists_mem_of_ne_nil _ hne
  have h1 := (Dlx.dlxN_more hπ h).2 g (hs g hg)
  have h2 : Dlx.dlx π fuel s = .ok sols := by rw [← Dlx.dlxN_same, h]; rfl
  have h3 : gs.length ≤ sols.length := by
    rcases Dlx.dlx_result hπ s fuel with ⟨sols', e, -, m, -⟩ | ⟨e, -⟩
    · rw [h2] at e
      cases e
      exact filled_length hd fun g hg => (m _).2 ⟨filled_canon _ _ g, filled_solution (hs g hg)⟩
    · rw [h2] at e; cases e
  omega

/-- **C124** The same for `_do_bruteforce`. -/
theorem C124_bruteforce (π : Solve.SetOrder) (hπ : π.Ok) (fuel : Nat) (s : Sudoku) (sols : List Sudoku) (n : Nat)
    (h : Solve.bruteforceN π fuel s = some (sols, n))
    (gs : List Grid) (hne : gs ≠ []) (hs : ∀ g ∈ gs, IsSolution s.bw s.bh s.get g) (hd : gs.Pairwise fun g g' => ¬ SameGrid s.bw s.bh g g') :
    s.empty.length + gs.length ≤ n := by
  obtain ⟨g, hg⟩ := List.exists_mem_of_ne_nil _ hne
  have h1 := (Solve.bruteforceN_more hπ h).2 g (hs g hg)
  have h2 : Solve.bruteforce π fuel s = some sols := by rw [← Solve.bruteforceN_same, h]; rfl
  have h3 : gs.length ≤ sols.length := by
    rcases Solve.bruteforce_result hπ s fuel with ⟨sols', e, -, m, -⟩ | ⟨e, -⟩
    · rw [h2] at e
      cases e
      refine filled_length hd fun g hg => (m _).2 ⟨filled_canon _ _ g, ?_⟩
      have := filled_solution (hs g hg)
      exact ⟨this.keeps, fun a ha _ => this.full a ha, this.valid⟩
    · rw [h2] at e; cases e
  omega

/-- **C124** So there is only one solution if one of the searches needs at most `E + 1` calls. -/
theorem C124_unique (π : Dlx.Orders) (π' : Solve.SetOrder) (hπ : π.Ok) (hπ' : π'.Ok) (fuel fuel' : Nat) (s : Sudoku)
    (hs : Solvable s.bw s.bh s.get) (sols sols' : List Sudoku) (n n' : Nat)
    (h : Dlx.dlxN π fuel s = .ok (sols, n)) (h' : Solve.bruteforceN π' fuel' s = some (sols', n'))
    (hn : n ≤ s.empty.length + 1 ∨ n' ≤ s.empty.length + 1) : UniqueSolution s.bw s.bh s.get := by
  obtain ⟨g, hg⟩ := hs
  refine ⟨g, hg, fun g' hg' => ?_⟩
  by_contra hne
  have hall : ∀ x ∈ [g, g'], IsSolution s.bw s.bh s.get x := by
    intro x hx
    simp only [List.mem_cons, List.not_mem_nil, or_false] at hx
    rcases hx with rfl | rfl
    · exact hg
    · exact hg'
  have hd : [g, g'].Pairwise fun g g' => ¬ SameGrid s.bw s.bh g g' := by simpa using hne
  have h1 := C124_dlx π hπ fuel s sols n h _ (by simp) hall hd
  have h2 := C124_bruteforce π' hπ' fuel' s sols' n' h' _ (by simp) hall hd
  simp only [List.length_cons, List.length_nil] at h1 h2
  omega

/-- **C124** If `m` numbers do not occur among the clues there are `m!` solutions at least, so that both searches need `E + m!` calls. -/
theorem C124_missing (π : Dlx.Orders) (π' : Solve.SetOrder) (hπ : π.Ok) (hπ' : π'.Ok) (fuel fuel' : Nat) (s : Sudoku)
    (hs : Solvable s.bw s.bh s.get) (sols sols' : List Sudoku) (n n' : Nat)
    (h : Dlx.dlxN π fuel s = .ok (sols, n)) (h' : Solve.bruteforceN π' fuel' s = some (sols', n')) :
    s.empty.length + (missingNumbers s.bw s.bh s.get).card.factorial ≤ n ∧ s.empty.length + (missingNumbers s.bw s.bh s.get).card.factorial ≤ n' := by
  obtain ⟨g, hg⟩ := hs
  have h1 : Dlx.dlx π fuel s = .ok sols := by rw [← Dlx.dlxN_same, h]; rfl
  have h2 : Solve.bruteforce π' fuel' s = some sols' := by rw [← Solve.bruteforceN_same, h']; rfl
  have hm := C113_dlx π hπ fuel s sols h1
  have ha := Divisible.dlx_all hπ h1
  have hmem : filled s.bw s.bh g ∈ sols := (ha.mem _).2 ⟨filled_canon _ _ g, filled_solution hg⟩
  have hle := Nat.le_of_dvd (List.length_pos_of_mem hmem) hm.numbers
  have h3 := (Dlx.dlxN_more hπ h).2 g hg
  have h4 := (Solve.bruteforceN_more hπ' h').2 g hg
  have h5 : sols.length ≤ sols'.length := by
    refine (List.subperm_of_subset ha.nodup fun t ht => ?_).length_le
    rcases Solve.bruteforce_result hπ' s fuel' with ⟨l, e, -, m, -⟩ | ⟨e, -⟩
    · rw [h2] at e
      cases e
      obtain ⟨hc, ht⟩ := (ha.mem t).1 ht
      exact (m t).2 ⟨hc, ht.keeps, fun a ha _ => ht.full a ha, ht.valid⟩
    · rw [h2] at e; cases e
  omega

/-- **C124** So for the empty sudoku with `N > 0` rows both need at least `N² + N!` calls. -/
theorem C124_empty (π : Dlx.Orders) (π' : Solve.SetOrder) (hπ : π.Ok) (hπ' : π'.Ok) (fuel fuel' w h : Nat) (hw : 0 < w) (hh : 0 < h)
    (sols sols' : List Sudoku) (n n' : Nat) (hn : Dlx.dlxN π fuel (Sudoku.new w h) = .ok (sols, n))
    (hn' : Solve.bruteforceN π' fuel' (Sudoku.new w h) = some (sols', n')) :
    (w * h) ^ 2 + (w * h).factorial ≤ n ∧ (w * h) ^ 2 + (w * h).factorial ≤ n' := by
  let e := plainEnv w h hw hh
  obtain ⟨t, -, -, ht⟩ := Generate.createSolution_spec e.hπ e.hc e.hf
  have h1 := C124_missing π π' hπ hπ' fuel fuel' (Sudoku.new w h) ⟨t.get, ⟨fun a _ h0 => absurd rfl h0, ht.full, ht.valid⟩⟩ sols sols' n n' hn hn'
  have h2 : (Sudoku.new w h).empty.length = (w * h) ^ 2 := by
    have h3 := Dlx.length_clues (Sudoku.new w h)
    have h4 : Dlx.clues (Sudoku.new w h) (Sudoku.new w h).cells = [] := by
      rw [List.eq_nil_iff_forall_not_mem]
      intro i hi
      exact absurd rfl (Dlx.mem_clues.1 hi).2.1
    rw [h4, List.length_nil] at h3
    have h5 : (Sudoku.new w h).len = w ^ 2 * h ^ 2 := rfl
    rw [Nat.mul_pow]
    omega
  have h3 : (missingNumbers (Sudoku.new w h).bw (Sudoku.new w h).bh (Sudoku.new w h).get).card = w * h := by
    have e : missingNumbers (Sudoku.new w h).bw (Sudoku.new w h).bh (Sudoku.new w h).get = Finset.Icc 1 ((w * h : Nat) : Int) := by
      unfold missingNumbers
      refine Finset.filter_true_of_mem fun v hv a _ e => ?_
      have := (Finset.mem_Icc.1 hv).1
      have e' : v = 0 := e.symm
      omega
    rw [e, Int.card_Icc]
    omega
  rw [h2, h3] at h1
  exact h1

/-! ## Samples -/

/-- Two solutions, four empty fields: nine calls are made, at least six are needed. -/
example : (Sudoku.new 2 1).empty.length = 4 ∧ (Dlx.dlxN plainOrders 5 (Sudoku.new 2 1)).toOption.map (fun q => (q.1.length, q.2)) = some (2, 9) ∧
    (Solve.bruteforceN upwards 5 (Sudoku.new 2 1)).map (fun q => (q.1.length, q.2)) = some (2, 9) := by decide +kernel

/-- The bound is reached for one solution (and for a full grid). -/
example : corner.empty.length + 1 = 4 ∧ (Dlx.dlxN plainOrders 5 corner).toOption.map (fun q => (q.1.length, q.2)) = some (1, 4) ∧
    (Solve.bruteforceN upwards 5 corner).map (fun q => (q.1.length, q.2)) = some (1, 4) := by decide +kernel

/-- At least so many calls for an empty 9x9 sudoku. -/
example : (3 * 3) ^ 2 + (3 * 3).factorial = 362961 := by decide
example : missingNumbers 2 1 (Sudoku.new 2 1).get = {1, 2} ∧ (2 * 1) ^ 2 + (2 * 1).factorial = 6 := by decide +kernel

/-- It need not be reached if the only solution is found by guessing. -/
example : hidden5.empty.length + 1 < 23 := by decide +kernel

end Props
