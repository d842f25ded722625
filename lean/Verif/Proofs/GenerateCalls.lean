import Verif.Model.GenerateCalls
import Verif.Props.Generate

set_option autoImplicit false

/-! Helper lemmas for C120. -/

open Spec

namespace Generate

theorem push_fst (u : Sudoku) (b : Bool) (r : Except PyErr (Option (Sudoku × List (Sudoku × Bool)))) :
    (push u b r).map (Option.map Prod.fst) = r.map (Option.map Prod.fst) := by
  rcases r with e | _ | ⟨t, l⟩ <;> rfl

theorem reduceT_fst (ρ : List Cell → RoundOrders) (fuel : Nat) (sym : Sym) (minCount : Int) (sol : Sudoku) :
    ∀ (rounds : Nat) (coords : List Cell) (count : Int) (s : Sudoku),
      (reduceT ρ fuel sym minCount sol rounds coords count s).map (Option.map Prod.fst) =
        reduce ρ fuel sym minCount sol rounds coords count s := by
  intro rounds
  induction rounds with
  | zero => intro _ _ _; rfl
  | succ rounds ih =>
    intro coords count s
    cases coords with
    | nil => rfl
    | cons a l =>
      unfold reduceT reduce
      simp only
      cases removeFields ((ρ (a :: l)).remove (sym.fields s.bw s.bh a).dedup) (a :: l) with
      | error e => rfl
      | ok coords =>
        simp only
        split
        · rfl
        · cases Dlx.isUnique (ρ (a :: l)).dlx fuel (((ρ (a :: l)).clear (sym.fields s.bw s.bh a).dedup).foldl
              (fun (p : Sudoku × Int) b => (p.1.setNumber b 0, p.2 - 1)) (s, count)).1 with
          | error e => rfl
          | ok b =>
            cases b with
            | true => simp only; rw [push_fst, ih]
            | false => simp only; rw [push_fst, ih]

theorem generateT_fst (π : Dlx.Orders) (ρ : List Cell → RoundOrders) (fuel rounds : Nat) (c : Choices) (coords : List Cell)
    (minCount : Int) (symmetry : Option String) (w h : Nat) :
    (generateT π ρ fuel rounds c coords minCount symmetry w h).map (Option.map Prod.fst) =
      generate π ρ fuel rounds c coords minCount symmetry w h := by
  unfold generateT generate
  simp only
  split
  · rfl
  · cases Sym.lookup symmetry with
    | none => rfl
    | some sym =>
      simp only
      cases createSolution π fuel c w h with
      | error e => rfl
      | ok sol => exact reduceT_fst _ _ _ _ _ _ _ _ _

/-! ## One field of each group -/

/-- A field chosen from each group of fields that belong together. -/
def Sym.rep (N : Nat) (a : Cell) : Sym → Bool
  | .none => true
  | .rotate90 => decide (2 * a.1 + 1 < N ∧ 2 * a.2 + 1 ≤ N ∨ (2 * a.1 + 1 = N ∧ 2 * a.2 + 1 = N))
  | .rotate180 => decide (2 * a.1 + 1 < N ∨ (2 * a.1 + 1 = N ∧ 2 * a.2 + 1 ≤ N))
  | .mirrorX => decide (2 * a.1 + 1 ≤ N)
  | .mirrorY => decide (2 * a.2 + 1 ≤ N)
  | .mirrorXY => decide (2 * a.1 + 1 ≤ N ∧ 2 * a.2 + 1 ≤ N)

theorem exists_rep {w h : Nat} {a : Cell} (ha : InGrid w h a) (sym : Sym) : ∃ b ∈ sym.fields w h a, sym.rep (w * h) b = true := by
  obtain ⟨r, c⟩ := a
  have h1 : r < w * h := ha.1
  have h2 : c < w * h := ha.2
  revert h1 h2
  generalize hN : w * h = N
  intro h1 h2
  cases sym <;> simp only [Sym.fields, Sym.rep, hN, List.mem_cons, List.not_mem_nil, or_false, exists_eq_or_imp, exists_eq_left,
    decide_eq_true_eq] <;> omega

theorem rep_eq {w h : Nat} {a b : Cell} (ha : InGrid w h a) (sym : Sym) (hb : b ∈ sym.fields w h a)
    (h1 : sym.rep (w * h) a = true) (h2 : sym.rep (w * h) b = true) : b = a := by
  obtain ⟨r, c⟩ := a
  obtain ⟨r', c'⟩ := b
  have k1 : r < w * h := ha.1
  have k2 : c < w * h := ha.2
  revert k1 k2 h1 h2 hb
  generalize hN : w * h = N
  intro hb h1 h2 k1 k2
  rw [Prod.mk.injEq]
  cases sym <;> simp only [Sym.fields, Sym.rep, hN, List.mem_cons, List.not_mem_nil, or_false, Prod.mk.injEq,
    decide_eq_true_eq] at * <;> omega

theorem length_rep {w h : Nat} {a : Cell} (ha : InGrid w h a) (sym : Sym) :
    ((sym.fields w h a).dedup.filter fun b => sym.rep (w * h) b).length = 1 := by
  obtain ⟨b, hb, hr⟩ := exists_rep ha sym
  have : ((sym.fields w h a).dedup.filter fun b => sym.rep (w * h) b).Perm [b] := by
    rw [List.perm_ext_iff_of_nodup ((List.nodup_dedup _).filter _) (List.nodup_singleton b)]
    intro c
    rw [List.mem_filter, List.mem_dedup, List.mem_singleton]
    constructor
    · rintro ⟨h1, h2⟩
      exact rep_eq (fields_inGrid ha hb) sym ((fields_eq ha hb c).2 h1) hr h2
    · rintro rfl; exact ⟨hb, hr⟩
  rw [this.length_eq]; rfl

/-- The number of groups in a list of fields. -/
def groups (w h : Nat) (sym : Sym) (coords : List Cell) : Nat := (coords.filter fun b => sym.rep (w * h) b).length

theorem groups_diff {w h : Nat} {sym : Sym} {coords : List Cell} (hn : coords.Nodup) {a : Cell} (ha : InGrid w h a)
    (hc : ∀ b ∈ sym.fields w h a, b ∈ coords) :
    groups w h sym (coords.diff (sym.fields w h a).dedup) + 1 = groups w h sym coords := by
  have hp : (coords.diff (sym.fields w h a).dedup ++ (sym.fields w h a).dedup).Perm coords := by
    rw [List.perm_ext_iff_of_nodup ?_ hn]
    · intro b
      rw [List.mem_append, hn.mem_sdiff_iff, List.mem_dedup]
      constructor
      · rintro (h1 | h1)
        · exact h1.1
        · exact hc b h1
      · intro h1
        by_cases h2 : b ∈ sym.fields w h a
        · exact Or.inr h2
        · exact Or.inl ⟨h1, h2⟩
    · refine List.Nodup.append hn.diff (List.nodup_dedup _) ?_
      intro b h1 h2
      rw [hn.mem_sdiff_iff] at h1
      exact h1.2 h2
  unfold groups
  rw [← (hp.filter _).length_eq, List.filter_append, List.length_append, length_rep ha]

/-! ## The loop -/

/-- What is known about the sudokus handed to `is_unique`. -/
structure Tested (w h : Nat) (minCount : Int) (sol : Grid) (u : Sudoku) (b : Bool) : Prop where
  plain : Props.Plain w h u
  clues : ∀ a, InGrid w h a → u.num a ≠ 0 → u.num a = sol a
  count : minCount ≤ u.count
  answer : b = true ↔ UniqueSolution w h u.num

/-- What is known about the calls made from a state of the loop on. -/
structure Trace (w h : Nat) (sym : Sym) (minCount : Int) (sol : Grid) (coords : List Cell) (count : Int) (s : Sudoku)
    (coords' : List Cell) (count' : Int) (t : Sudoku) (calls : List (Sudoku × Bool)) : Prop where
  length : calls.length + groups w h sym coords' = groups w h sym coords
  tested : ∀ p ∈ calls, Tested w h minCount sol p.1 p.2
  last : t = ((calls.filter fun p => p.2).map Prod.fst).getLastD s
  size : ∀ lo hi : Nat, (∀ a, InGrid w h a → lo ≤ (sym.fields w h a).dedup.length ∧ (sym.fields w h a).dedup.length ≤ hi) →
    (lo * (calls.filter fun p => p.2).length : Nat) ≤ count - count' ∧
      count - count' ≤ (hi * (calls.filter fun p => p.2).length : Nat)

theorem getLastD_cons' {α : Type} (l : List α) (a d : α) : (a :: l).getLastD d = l.getLastD a := by
  cases l <;> rfl

theorem reduceT_spec {ρ : List Cell → RoundOrders} (hρ : ∀ l, (ρ l).Ok) {fuel w h : Nat} (hf : (w * h) ^ 2 < fuel) {sym : Sym}
    {minCount : Int} {sol : Sudoku} (hsol : IsSolution w h (fun _ => 0) sol.get) :
    ∀ (rounds : Nat) (coords : List Cell) (count : Int) (s : Sudoku), coords.length < rounds →
      Inv w h sym minCount sol.get coords count s →
      ∃ t calls coords' count', reduceT ρ fuel sym minCount sol rounds coords count s = .ok (some (t, calls)) ∧
        Inv w h sym minCount sol.get coords' count' t ∧
        Trace w h sym minCount sol.get coords count s coords' count' t calls ∧
        (coords' = [] ∨ ∃ a l, coords' = a :: l ∧ count' - (sym.fields w h a).dedup.length < minCount) := by
  intro rounds
  induction rounds with
  | zero => intro coords _ _ h; exact absurd h (Nat.not_lt_zero _)
  | succ rounds ih =>
    intro coords count s hlen inv
    have trivial : Trace w h sym minCount sol.get coords count s coords count s [] :=
      ⟨by simp, by simp, rfl, by simp⟩
    cases coords with
    | nil => exact ⟨s, [], [], count, rfl, inv, trivial, Or.inl rfl⟩
    | cons a l =>
      have ha := inv.grid a List.mem_cons_self
      have hρa := hρ (a :: l)
      have hpr := hρa.remove (sym.fields w h a).dedup
      have hpc := hρa.clear (sym.fields w h a).dedup
      have hpv := hρa.revert (sym.fields w h a).dedup
      unfold reduceT
      simp only
      rw [inv.bw, inv.bh, removeFields_eq _ _ (hpr.nodup_iff.2 (List.nodup_dedup _)) inv.nodup (by
        intro b hb
        exact inv.closed a List.mem_cons_self b (List.mem_dedup.1 (hpr.mem_iff.1 hb)))]
      simp only
      by_cases hbreak : count - (sym.fields w h a).dedup.length < minCount
      · rw [if_pos hbreak]
        exact ⟨s, [], a :: l, count, rfl, inv, trivial, Or.inr ⟨a, l, rfl, hbreak⟩⟩
      · rw [if_neg hbreak]
        obtain ⟨k1, k2⟩ := inv.step hsol (not_lt.1 hbreak)
        have hclear : ((ρ (a :: l)).clear (sym.fields w h a).dedup).foldl
            (fun (p : Sudoku × Int) b => (p.1.setNumber b 0, p.2 - 1)) (s, count) =
            ({ s with num := cleared (sym.fields w h a) s.num }, count - (sym.fields w h a).dedup.length) := by
          have := clear_fold (fun _ => 0) (-1) ((ρ (a :: l)).clear (sym.fields w h a).dedup) s count
          simp only [← Int.sub_eq_add_neg] at this
          rw [this, hpc.length_eq]
          simp only [Prod.mk.injEq, Sudoku.mk.injEq, true_and, and_true]
          constructor
          · funext b; unfold cleared; simp only [hpc.mem_iff, List.mem_dedup]
          · omega
        rw [hclear]
        simp only
        have hdiff : (a :: l).diff ((ρ (a :: l)).remove (sym.fields w h a).dedup) = (a :: l).diff (sym.fields w h a).dedup :=
          List.Perm.diff_left _ hpr
        have hlt : ((a :: l).diff (sym.fields w h a).dedup).length < rounds := by
          have hsub : (a :: l).diff (sym.fields w h a).dedup ⊆ l := by
            intro b hb
            rw [inv.nodup.mem_sdiff_iff, List.mem_dedup] at hb
            rcases List.mem_cons.1 hb.1 with rfl | hb'
            · exact absurd (fields_self w h b sym) hb.2
            · exact hb'
          have := (List.subperm_of_subset (inv.nodup.diff) hsub).length_le
          rw [List.length_cons] at hlen
          omega
        rw [hdiff]
        obtain ⟨b, hb, hbu⟩ := Props.C22_is_unique (ρ (a :: l)).dlx hρa.dlx fuel
          { s with num := cleared (sym.fields w h a) s.num } (by
            refine lt_of_le_of_lt (length_empty_le _) ?_
            simp only [inv.bw, inv.bh]; exact hf)
        have hbu : b = true ↔ UniqueSolution w h (cleared (sym.fields w h a) s.num) := by
          rw [hbu]; simp only [inv.bw, inv.bh]; rfl
        have hgr := groups_diff (sym := sym) inv.nodup ha (inv.closed a List.mem_cons_self)
        have htest : Tested w h minCount sol.get { s with num := cleared (sym.fields w h a) s.num } b := by
          refine ⟨⟨inv.bw, inv.bh, ?_, inv.cand⟩, ?_, ?_, hbu⟩
          · intro c hc; simp only [cleared]; split
            · rfl
            · exact inv.out c hc
          · intro c hc; simp only [cleared]; split
            · intro h0; exact absurd rfl h0
            · exact inv.clues c hc
          · have hcc := count_cleared (s := s) (l := (sym.fields w h a).dedup) (List.nodup_dedup _) (by
              intro c hc
              have hc' := inv.closed a List.mem_cons_self c (List.mem_dedup.1 hc)
              rw [inv.bw, inv.bh]
              exact ⟨inv.grid c hc', inv.todo c hc'⟩)
            have e : cleared (sym.fields w h a).dedup s.num = cleared (sym.fields w h a) s.num := by
              funext c; simp [cleared]
            rw [e] at hcc
            have := inv.countEq
            omega
        rw [hb]
        cases b with
        | true =>
          simp only
          obtain ⟨t, calls, coords', count', e1, i1, t1, d1⟩ := ih _ _ _ hlt (k1 (hbu.1 rfl))
          rw [e1]
          refine ⟨t, _, coords', count', rfl, i1, ⟨?_, ?_, ?_, ?_⟩, d1⟩
          · have := t1.length; rw [List.length_cons]; omega
          · intro p hp
            rcases List.mem_cons.1 hp with rfl | hp
            · exact htest
            · exact t1.tested p hp
          · rw [List.filter_cons_of_pos rfl, List.map_cons, getLastD_cons']; exact t1.last
          · intro lo hi hs
            obtain ⟨s1, s2⟩ := t1.size lo hi hs
            obtain ⟨s3, s4⟩ := hs a ha
            rw [List.filter_cons_of_pos rfl, List.length_cons, Nat.mul_succ, Nat.mul_succ]
            omega
        | false =>
          simp only
          have hno : ¬ UniqueSolution w h (cleared (sym.fields w h a) s.num) := fun h => absurd (hbu.2 h) (by simp)
          have hrevert : ((ρ (a :: l)).revert (sym.fields w h a).dedup).foldl
              (fun (p : Sudoku × Int) b => (p.1.setNumber b (sol.get b), p.2 + 1))
              ({ s with num := cleared (sym.fields w h a) s.num }, count - (sym.fields w h a).dedup.length) = (s, count) := by
            rw [clear_fold sol.get 1, hpv.length_eq]
            refine Prod.ext ?_ (by simp)
            refine Sudoku.ext rfl rfl ?_ rfl
            funext b
            simp only [hpv.mem_iff, List.mem_dedup]
            by_cases h1 : b ∈ sym.fields w h a
            · rw [if_pos h1]
              have := inv.closed a List.mem_cons_self b h1
              exact (inv.clues b (inv.grid b this) (inv.todo b this)).symm
            · rw [if_neg h1]; unfold cleared; rw [if_neg h1]
          rw [hrevert]
          obtain ⟨t, calls, coords', count', e1, i1, t1, d1⟩ := ih _ _ _ hlt (k2 hno)
          rw [e1]
          refine ⟨t, _, coords', count', rfl, i1, ⟨?_, ?_, ?_, ?_⟩, d1⟩
          · have := t1.length; rw [List.length_cons]; omega
          · intro p hp
            rcases List.mem_cons.1 hp with rfl | hp
            · exact htest
            · exact t1.tested p hp
          · rw [List.filter_cons_of_neg (by simp)]; exact t1.last
          · intro lo hi hs
            rw [List.filter_cons_of_neg (by simp)]
            exact t1.size lo hi hs

end Generate
