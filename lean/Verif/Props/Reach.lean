import Verif.Props.Generate
import Verif.Proofs.Reach
import Verif.Proofs.Redraw
import Mathlib.Data.List.Permutation
import Mathlib.Logic.Equiv.Basic

set_option autoImplicit false

/-!
# C93, C94: which sudokus can be returned

C93: if chance and the iteration orders of sets are arbitrary.  C94: if the iteration orders are determined by the values in the
sets, only the shuffled numbers count.
-/

open Spec Generate

namespace Props

/-! ## C93 -/

/-- **C93** `create_solution` can return every full sudoku without conflicts (and nothing else). -/
theorem C93_create_solution (w h : Nat) (hw : 0 < w) (hh : 0 < h) (t : Sudoku) :
    (∃ π : Dlx.Orders, π.Ok ∧ ∃ c : Choices, c.Ok w h ∧ ∃ fuel, (w * h) ^ 2 < fuel ∧ createSolution π fuel c w h = .ok t) ↔
    Plain w h t ∧ IsSolution w h (fun _ => 0) t.get := by
  constructor
  · rintro ⟨π, hπ, c, hc, fuel, hf, ht⟩
    obtain ⟨t', h1, h2⟩ := C34_create_solution π hπ w h c hc fuel hf
    rw [ht] at h1
    cases h1
    exact h2
  · rintro ⟨h1, h2⟩
    obtain ⟨h3, h4⟩ := create_reach h1 h2 hh hw (Nat.lt_succ_self ((w * h) ^ 2))
    exact ⟨_, Dlx.favour_ok _, _, h3, _, Nat.lt_succ_self _, h4⟩

/-- Some smallest symmetric group of filled fields cannot be cleared, as less than `min_count` clues would be left. -/
def TooFew (symmetry : Option String) (w h : Nat) (minCount : Int) (t : Sudoku) : Prop :=
  ∃ D : Finset Cell, D.Nonempty ∧ (∀ a ∈ D, InGrid w h a ∧ t.get a ≠ 0) ∧ Symmetric symmetry (w * h) (fun a => a ∈ D) ∧
    (∀ E ⊆ D, E.Nonempty → Symmetric symmetry (w * h) (fun a => a ∈ E) → E = D) ∧ (t.count : Int) - D.card < minCount

private theorem fields_symmetric {symmetry : Option String} {sym : Sym} (hs : Sym.lookup symmetry = some sym) {w h : Nat} {a : Cell}
    (ha : InGrid w h a) : Symmetric symmetry (w * h) (fun b => b ∈ (sym.fields w h a).toFinset) := by
  refine symmetric_of hs fun b _ c hc hb' => ?_
  rw [List.mem_toFinset] at hb' ⊢
  exact (fields_eq ha hb' c).1 hc

private theorem tooFew_iff {symmetry : Option String} {sym : Sym} (hs : Sym.lookup symmetry = some sym) {w h : Nat} {minCount : Int}
    {t : Sudoku} : TooFew symmetry w h minCount t ↔ ∃ a, InGrid w h a ∧ (∀ b ∈ sym.fields w h a, t.num b ≠ 0) ∧
      (t.count : Int) - (sym.fields w h a).dedup.length < minCount := by
  have hcard : ∀ a, (sym.fields w h a).toFinset.card = (sym.fields w h a).dedup.length := fun a => List.card_toFinset _
  constructor
  · rintro ⟨D, ⟨a, ha⟩, h1, h2, h3, h4⟩
    have hag := (h1 a ha).1
    have hsub : (sym.fields w h a).toFinset ⊆ D := fun b hb =>
      closed_fields hs (P := fun a => a ∈ D) h2 hag ha b (List.mem_toFinset.1 hb)
    have he := h3 _ hsub ⟨a, List.mem_toFinset.2 (fields_self w h a sym)⟩ (fields_symmetric hs hag)
    refine ⟨a, hag, fun b hb => (h1 b (hsub (List.mem_toFinset.2 hb))).2, ?_⟩
    rw [← hcard, he]; exact h4
  · rintro ⟨a, ha, h1, h2⟩
    refine ⟨(sym.fields w h a).toFinset, ⟨a, List.mem_toFinset.2 (fields_self w h a sym)⟩, ?_, fields_symmetric hs ha, ?_, ?_⟩
    · intro b hb
      rw [List.mem_toFinset] at hb
      exact ⟨fields_inGrid ha hb, h1 b hb⟩
    · rintro E hE ⟨b, hb⟩ hsym
      refine Finset.Subset.antisymm hE fun c hc => ?_
      have hb' := List.mem_toFinset.1 (hE hb)
      have := closed_fields hs (P := fun a => a ∈ E) hsym (fields_inGrid ha hb') hb c
      exact this ((fields_eq ha hb' c).2 (List.mem_toFinset.1 hc))
    · rw [hcard]; exact h2

/-- **C93** Exactly these sudokus can be returned by `generate`: one solution, the wanted symmetry, at least `min_count` clues, and
no symmetric set of clues can be left out, except that some group of clues may be needed to have `min_count` clues. -/
theorem C93_generate (w h : Nat) (hw : 0 < w) (hh : 0 < h) (minCount : Int) (symmetry : Option String) (hsym : symmetry ∈ symmetries)
    (t : Sudoku) : (∃ e : Env w h, e.generate minCount symmetry = .ok (some t)) ↔
      Plain w h t ∧ UniqueSolution w h t.get ∧ Symmetric symmetry (w * h) (fun a => t.get a ≠ 0) ∧ minCount ≤ t.count ∧
      (Irreducible symmetry w h t.get ∨ TooFew symmetry w h minCount t) := by
  obtain ⟨sym, hs⟩ := (lookup_iff symmetry).2 hsym
  constructor
  · rintro ⟨e, he⟩
    refine ⟨(C35_unique e _ _ t he).1, ?_, C37_symmetry e _ _ t he, C36_min_count e _ _ t he, ?_⟩
    · obtain ⟨-, sol, -, h1, h2⟩ := C35_unique e _ _ t he
      exact ⟨sol.get, h1, h2⟩
    · obtain ⟨sol, sym', coords', count', hs', -, h2, inv, hend⟩ := generated e he
      rw [hs] at hs'
      cases hs'
      rcases hend with rfl | ⟨a, ha, h3, h4⟩
      · exact Or.inl (irreducible_of hs h2 inv)
      · refine Or.inr ((tooFew_iff hs).2 ⟨a, ha, h3, ?_⟩)
        rw [← inv.countEq]; exact h4
  · rintro ⟨hp, hu, hsy, hmin, hend⟩
    obtain ⟨g, hg, hgu⟩ := hu
    -- the solution as a sudoku
    classical
    let sol : Sudoku := ⟨w, h, fun a => if InGrid w h a then g a else 0, fun _ => ∅⟩
    have hsg : ∀ a, InGrid w h a → sol.get a = g a := fun a ha => if_pos ha
    have hsp : Plain w h sol := ⟨rfl, rfl, fun a ha => if_neg ha, fun _ => rfl⟩
    have hss : IsSolution w h (fun _ => 0) sol.get := by
      refine ⟨fun a _ h0 => absurd rfl h0, fun a ha => by rw [hsg a ha]; exact hg.full a ha, ?_⟩
      intro a b ha hb hp h0
      rw [hsg a ha] at h0 ⊢
      rw [hsg b hb]
      exact hg.valid a b ha hb hp h0
    obtain ⟨h3, h4⟩ := create_reach hsp hss hh hw (Nat.lt_succ_self ((w * h) ^ 2))
    have hρ : ∀ l : List Cell, (RoundOrders.mk id id id plainOrders).Ok := fun _ =>
      ⟨fun _ => List.Perm.refl _, fun _ => List.Perm.refl _, fun _ => List.Perm.refl _,
        ⟨fun _ _ => List.Perm.refl _, fun _ _ => List.Perm.refl _⟩⟩
    refine ⟨⟨Dlx.favour (Dlx.gridRows w h sol.num), fun _ => ⟨id, id, id, plainOrders⟩, ⟨0, 0, boxNumbers w h sol.num⟩,
      target w h sym minCount t, _, _, Dlx.favour_ok _, hρ, h3,
      target_perm _ _ _ _ _, Nat.lt_succ_self _, Nat.lt_succ_self _⟩, ?_⟩
    refine generate_reach hρ (Nat.lt_succ_self _) (Nat.lt_succ_self _) hs h4 hsp hss hp ?_ ⟨g, hg, hgu⟩ ?_ hmin ?_
    · intro a ha h0
      rw [hsg a ha]
      exact (hg.keeps a ha h0).symm
    · intro a ha b hb h0
      by_contra hb0
      exact closed_fields hs (P := fun a => t.get a ≠ 0) hsy (fields_inGrid ha hb) hb0 a (fields_symm ha hb) h0
    · rcases hend with hir | htf
      · left
        intro a ha h0 hun
        refine hir (fun b => decide (b ∈ sym.fields w h a)) ?_ ⟨a, ha, by simpa using fields_self w h a sym, h0⟩ ?_
        · have := fields_symmetric hs ha
          simpa using this
        · have e : (fun b => if decide (b ∈ sym.fields w h a) = true then 0 else t.get b) = cleared (sym.fields w h a) t.num := by
            funext b; unfold cleared; simp; rfl
          rw [e]; exact hun
      · right
        obtain ⟨a, ha, h5, h6⟩ := (tooFew_iff hs).1 htf
        exact ⟨a, ha, h5 a (fields_self w h a sym), h6⟩

/-- **C93** Exactly the sudokus with one solution that are filled where the template is can be returned by `generate_from_template`. -/
theorem C93_template (template : Sudoku) (hw : 0 < template.bw) (hh : 0 < template.bh) (tries : Int) (s : Sudoku) :
    (∃ (e : TryEnv template) (rounds : Nat), generateFromTemplate e.fuel rounds e.f template tries = .ok (some s)) ↔
      tries ≠ 0 ∧ Matches template s := by
  constructor
  · rintro ⟨e, rounds, he⟩
    refine ⟨?_, C40_result template e rounds tries s he⟩
    rintro rfl
    cases rounds with
    | zero => cases he
    | succ n => unfold generateFromTemplate at he; rw [templateLoop, if_neg (by simp)] at he; cases he
  · rintro ⟨ht, hp, ⟨g, hg, hgu⟩, hm⟩
    classical
    let sol : Sudoku := ⟨template.bw, template.bh, fun a => if InGrid template.bw template.bh a then g a else 0, fun _ => ∅⟩
    have hsg : ∀ a, InGrid template.bw template.bh a → sol.get a = g a := fun a ha => if_pos ha
    have hsp : Plain template.bw template.bh sol := ⟨rfl, rfl, fun a ha => if_neg ha, fun _ => rfl⟩
    have hss : IsSolution template.bw template.bh (fun _ => 0) sol.get := by
      refine ⟨fun a _ h0 => absurd rfl h0, fun a ha => by rw [hsg a ha]; exact hg.full a ha, ?_⟩
      intro a b ha hb hp h0
      rw [hsg a ha] at h0 ⊢
      rw [hsg b hb]
      exact hg.valid a b ha hb hp h0
    obtain ⟨h3, h4⟩ := create_reach hsp hss hh hw (Nat.lt_succ_self ((template.bw * template.bh) ^ 2))
    have hpl : plainOrders.Ok := ⟨fun _ _ => List.Perm.refl _, fun _ _ => List.Perm.refl _⟩
    let e : TryEnv template := ⟨fun _ => ⟨⟨0, 0, boxNumbers template.bw template.bh sol.num⟩,
      Dlx.favour (Dlx.gridRows template.bw template.bh sol.num), plainOrders⟩, _, fun _ => h3, fun _ => Dlx.favour_ok _, fun _ => hpl,
      Nat.lt_succ_self _⟩
    refine ⟨e, 1, ?_⟩
    have hmask : mask template sol.copy = s := by
      rw [copy_plain hsp, mask_eq]
      obtain ⟨p1, p2, p3, p4⟩ := hp
      refine Sudoku.ext p1.symm p2.symm ?_ ?_
      · funext a
        simp only
        by_cases ha : InGrid template.bw template.bh a
        · have h5 := hm a ha
          by_cases h0 : template.get a = 0
          · rw [if_pos ⟨ha, h0⟩]
            by_contra hne
            exact (h5.1 fun e => hne e.symm) h0
          · rw [if_neg fun h => h0 h.2]
            exact (hsg a ha).trans (hg.keeps a ha (h5.2 h0))
        · rw [if_neg fun h => ha h.1, p3 a ha]
          exact if_neg ha
      · funext a; rw [p4]
    unfold generateFromTemplate
    rw [templateLoop, if_pos (by omega), show createSolution (e.f 0).create e.fuel (e.f 0).choices template.bw template.bh = .ok sol from h4]
    simp only
    rw [hmask]
    obtain ⟨b, hb, hbu⟩ := C22_is_unique (e.f 0).unique hpl e.fuel s (by
      refine lt_of_le_of_lt (length_empty_le _) ?_
      rw [hp.1, hp.2.1]; exact Nat.lt_succ_self _)
    have : b = true := hbu.2 (by rw [hp.1, hp.2.1]; exact ⟨g, hg, hgu⟩)
    rw [hb, this]

/-! Cases: the 4x4 sudoku `solved4` can be the created solution, and with `min_count = 16` no clue of it may be cleared; templates. -/

private theorem plain_solved4 : Plain 2 2 solved4 :=
  ⟨rfl, rfl, fun a ha => if_neg ha, fun _ => rfl⟩

example : ∃ π : Dlx.Orders, π.Ok ∧ ∃ c : Choices, c.Ok 2 2 ∧ ∃ fuel, (2 * 2) ^ 2 < fuel ∧ createSolution π fuel c 2 2 = .ok solved4 :=
  (C93_create_solution 2 2 (by decide) (by decide) solved4).2 ⟨plain_solved4, by decide +kernel⟩

example : ∃ e : Env 2 2, e.generate 16 none = .ok (some solved4) := by
  refine (C93_generate 2 2 (by decide) (by decide) 16 none (by decide) solved4).2 ⟨plain_solved4,
    full_unique (by decide +kernel), ⟨by simp, by simp, by simp, by simp, by simp⟩, by decide +kernel, Or.inr ⟨{(0, 0)}, by simp, ?_,
    ⟨by simp, by simp, by simp, by simp, by simp⟩, ?_, by decide +kernel⟩⟩
  · intro a ha
    rw [Finset.mem_singleton] at ha
    subst ha
    decide +kernel
  · intro E hE hne _
    exact (Finset.subset_singleton_iff.1 hE).resolve_left hne.ne_empty

example : ∃ (e : TryEnv solved4) (rounds : Nat), generateFromTemplate e.fuel rounds e.f solved4 (-1) = .ok (some solved4) :=
  (C93_template solved4 (by decide) (by decide) (-1) solved4).2 ⟨by decide, plain_solved4, full_unique (by decide +kernel), fun _ _ => Iff.rfl⟩

/-! ## C94 -/

/-- **C94** It does not matter which field of the first box is chosen: `box_of` visits the fields in the same order. -/
theorem C94_row_col (π : Dlx.Orders) (fuel w h : Nat) (c c' : Choices) (hc : c.Ok w h) (hc' : c'.Ok w h)
    (hn : c.numbers = c'.numbers) : createSolution π fuel c w h = createSolution π fuel c' w h := by
  unfold createSolution
  simp only
  rw [box_first hc.row hc.col, box_first hc'.row hc'.col, hn]

/-- **C94** The first box of the result is the shuffled list, read from its end. -/
theorem C94_first_box (π : Dlx.Orders) (hπ : π.Ok) (fuel w h : Nat) (hf : (w * h) ^ 2 < fuel) (c : Choices) (hc : c.Ok w h) (t : Sudoku)
    (ht : createSolution π fuel c w h = .ok t) :
    ((Sudoku.new w h).boxOf (0, 0) true).map t.get = c.numbers.reverse := by
  have := create_box hπ hc hf ht
  rw [← this]
  unfold boxNumbers
  rw [List.reverse_reverse, box_first (Nat.lt_of_le_of_lt (Nat.zero_le _) hc.row) (Nat.lt_of_le_of_lt (Nat.zero_le _) hc.col)]
  rfl

/-- **C94** If the iteration orders are determined (here: by the shuffled numbers), `create_solution` has exactly `(w * h)!` results. -/
theorem C94_factorial (o : List Int → Dlx.Orders) (ho : ∀ ns, (o ns).Ok) (w h : Nat) (hw : 0 < w) (hh : 0 < h) (fuel : Nat)
    (hf : (w * h) ^ 2 < fuel) :
    ∃ L : List Sudoku, L.Nodup ∧ L.length = (w * h).factorial ∧
      ∀ t, t ∈ L ↔ ∃ c : Choices, c.Ok w h ∧ createSolution (o c.numbers) fuel c w h = .ok t := by
  have hres : ∀ ns : {ns : List Int // ns ∈ (Sudoku.new w h).numbers.permutations}, ∃ t,
      createSolution (o ns.1) fuel ⟨0, 0, ns.1⟩ w h = .ok t := by
    rintro ⟨ns, hns⟩
    obtain ⟨t, h1, -⟩ := C34_create_solution (o ns) (ho ns) w h ⟨0, 0, ns⟩ ⟨hh, hw, List.mem_permutations.1 hns⟩ fuel hf
    exact ⟨t, h1⟩
  choose f hf' using hres
  refine ⟨(Sudoku.new w h).numbers.permutations.attach.map f, ?_, ?_, ?_⟩
  · refine List.Nodup.map_on ?_ (List.nodup_attach.2 (List.nodup_permutations _ (Sudoku.nodup_numbers _)))
    intro a _ b _ e
    have h1 := C94_first_box (o a.1) (ho a.1) fuel w h hf ⟨0, 0, a.1⟩ ⟨hh, hw, List.mem_permutations.1 a.2⟩ _ (hf' a)
    have h2 := C94_first_box (o b.1) (ho b.1) fuel w h hf ⟨0, 0, b.1⟩ ⟨hh, hw, List.mem_permutations.1 b.2⟩ _ (hf' b)
    rw [e, h2] at h1
    exact Subtype.ext (List.reverse_injective h1.symm)
  · rw [List.length_map, List.length_attach, List.length_permutations, Sudoku.length_numbers]; rfl
  · intro t
    simp only [List.mem_map, List.mem_attach, true_and]
    constructor
    · rintro ⟨a, rfl⟩
      exact ⟨⟨0, 0, a.1⟩, ⟨hh, hw, List.mem_permutations.1 a.2⟩, hf' a⟩
    · rintro ⟨c, hc, ht⟩
      refine ⟨⟨c.numbers, List.mem_permutations.2 hc.numbers⟩, ?_⟩
      have h1 := hf' ⟨c.numbers, List.mem_permutations.2 hc.numbers⟩
      rw [C94_row_col (o c.numbers) fuel w h ⟨0, 0, c.numbers⟩ c ⟨hh, hw, hc.numbers⟩ hc rfl, ht] at h1
      cases h1
      rfl

/-- Two full grids that only differ outside the first box. -/
private theorem two_grids {w h : Nat} (hN : 3 ≤ w * h) : ∃ t t' : Sudoku, t ≠ t' ∧ Plain w h t ∧ Plain w h t' ∧
    IsSolution w h (fun _ => 0) t.get ∧ IsSolution w h (fun _ => 0) t'.get ∧ ∀ a ∈ firstBox w h, t.num a = t'.num a := by
  have hw : 0 < w := Nat.pos_of_ne_zero (by rintro rfl; simp at hN)
  have hh : 0 < h := Nat.pos_of_ne_zero (by rintro rfl; simp at hN)
  obtain ⟨t, -, hp, hsol⟩ := C34_create_solution plainOrders ⟨fun _ _ => List.Perm.refl _, fun _ _ => List.Perm.refl _⟩ w h
    ⟨0, 0, (Sudoku.new w h).numbers⟩ ⟨hh, hw, List.Perm.refl _⟩ _ (Nat.lt_succ_self _)
  -- it suffices to move some field outside the first box to a field it sees
  have key : ∀ (σ : Redrawing w h w h), σ.number = Equiv.refl Int → (∀ a ∈ firstBox w h, σ.field.symm a = a) →
      (∃ a, InGrid w h a ∧ Peer w h a (σ.field a)) → ∃ t t' : Sudoku, t ≠ t' ∧ Plain w h t ∧ Plain w h t' ∧
      IsSolution w h (fun _ => 0) t.get ∧ IsSolution w h (fun _ => 0) t'.get ∧ ∀ a ∈ firstBox w h, t.num a = t'.num a := by
    rintro σ hn hbox ⟨a, ha, hpe⟩
    let t' : Sudoku := ⟨w, h, fun a => t.num (σ.field.symm a), fun _ => ∅⟩
    have hfield : ∀ a, InGrid w h a → t'.num (σ.field a) = σ.number (t.num a) := by
      intro a _
      show t.num (σ.field.symm (σ.field a)) = _
      rw [Equiv.symm_apply_apply, hn]; rfl
    have hback : ∀ a, InGrid w h (σ.field.symm a) ↔ InGrid w h a := fun a => by rw [← σ.inGrid, Equiv.apply_symm_apply]
    refine ⟨t, t', ?_, hp, ⟨rfl, rfl, ?_, fun _ => rfl⟩, hsol, ⟨fun a _ h0 => absurd rfl h0, ?_, ?_⟩, ?_⟩
    · intro e
      have h1 := hfield a ha
      rw [← e, hn] at h1
      refine hsol.valid a (σ.field a) ha ((σ.inGrid a).2 ha) hpe ?_ h1.symm
      have := (hsol.full a ha).1
      omega
    · intro b hb
      exact hp.2.2.1 _ (fun h => hb ((hback b).1 h))
    · intro b hb
      exact hsol.full _ ((hback b).2 hb)
    · exact (Redraw.noConflict σ hfield).2 hsol.valid
    · intro b hb
      show t.num b = t.num (σ.field.symm b)
      rw [hbox b hb]
  have hswap : ∀ {N p q : Nat}, p < N → q < N → ∀ r, Equiv.swap p q r < N ↔ r < N := by
    intro N p q hp hq r
    by_cases h1 : r = p
    · subst h1; simp [hp, hq]
    · by_cases h2 : r = q
      · subst h2; simp [hp, hq]
      · rw [Equiv.swap_apply_of_ne_of_ne h1 h2]
  have hdiv : ∀ {k p q : Nat}, p / k = q / k → ∀ r, Equiv.swap p q r / k = r / k := by
    intro k p q he r
    by_cases h1 : r = p
    · subst h1; rw [Equiv.swap_apply_left, he]
    · by_cases h2 : r = q
      · subst h2; rw [Equiv.swap_apply_right, he]
      · rw [Equiv.swap_apply_of_ne_of_ne h1 h2]
  by_cases h1 : w = 1
  · -- boxes are columns: swap the columns 1 and 2
    subst h1
    rw [Nat.one_mul] at hN
    refine key (permutation 1 h (Equiv.refl Nat) (Equiv.swap 1 2) (fun _ => Iff.rfl) (hswap (by omega) (by omega))
      (fun _ _ _ _ => Iff.rfl) (fun c d _ _ => by simp [Nat.div_one])) rfl ?_ ⟨(0, 1), ⟨by simp; omega, by simp; omega⟩, ?_, Or.inl ?_⟩
    · rintro ⟨r, c⟩ ha
      rw [mem_firstBox] at ha
      have : c = 0 := by omega
      subst this
      rfl
    · simp [permutation]
    · simp [permutation, SameRow]
  · -- swap two rows of the second band, or the second and third if all bands are single rows
    have key2 : ∀ p q : Nat, p ≠ q → h ≤ p → h ≤ q → p < w * h → q < w * h →
        (∀ x y, x < w * h → y < w * h → (Equiv.swap p q x / h = Equiv.swap p q y / h ↔ x / h = y / h)) →
        ∃ t t' : Sudoku, t ≠ t' ∧ Plain w h t ∧ Plain w h t' ∧
      IsSolution w h (fun _ => 0) t.get ∧ IsSolution w h (fun _ => 0) t'.get ∧ ∀ a ∈ firstBox w h, t.num a = t'.num a := by
      intro p q hpq h2 h3 h4 h5 h6
      refine key (permutation w h (Equiv.swap p q) (Equiv.refl Nat) (hswap h4 h5) (fun _ => Iff.rfl) h6 (fun _ _ _ _ => Iff.rfl)) rfl ?_
        ⟨(p, 0), ⟨h4, by show 0 < w * h; omega⟩, ?_, Or.inr (Or.inl ?_)⟩
      · rintro ⟨r, c⟩ ha
        rw [mem_firstBox] at ha
        have h7 : r < h := ha.1
        show ((Equiv.swap p q).symm r, (Equiv.refl Nat).symm c) = (r, c)
        rw [Equiv.symm_swap, Equiv.swap_apply_of_ne_of_ne (by omega) (by omega)]
        rfl
      · simp [permutation, hpq]
      · simp [permutation, SameCol]
    have hw2 : 2 ≤ w := by omega
    have h2h : 2 * h ≤ w * h := Nat.mul_le_mul_right h hw2
    by_cases h2 : h = 1
    · subst h2
      rw [Nat.mul_one] at hN
      exact key2 1 2 (by decide) (by omega) (by omega) (by omega) (by omega) (fun x y _ _ => by simp [Nat.div_one])
    · refine key2 h (h + 1) (by omega) (by omega) (by omega) (by omega) (by omega) fun x y _ _ => ?_
      have he : h / h = (h + 1) / h := by
        rw [Nat.div_self hh, Nat.add_div_left _ hh, Nat.div_eq_of_lt (by omega)]
      rw [hdiv he, hdiv he]

/-- **C94** So (unless there are at most two rows) some full sudoku without conflicts is never returned, and `generate` never returns
a sudoku with this solution. -/
theorem C94_missing (o : List Int → Dlx.Orders) (ho : ∀ ns, (o ns).Ok) (w h : Nat) (hN : 3 ≤ w * h) (fuel : Nat)
    (hf : (w * h) ^ 2 < fuel) :
    ∃ t : Sudoku, Plain w h t ∧ IsSolution w h (fun _ => 0) t.get ∧
      (∀ c : Choices, c.Ok w h → createSolution (o c.numbers) fuel c w h ≠ .ok t) ∧
      ∀ (e : Env w h) (minCount : Int) (symmetry : Option String) (s : Sudoku), e.π = o e.c.numbers → e.fuel = fuel →
        e.generate minCount symmetry = .ok (some s) → ¬ IsSolution w h s.get t.get := by
  obtain ⟨t, t', hne, hp, hp', hs, hs', hbox⟩ := two_grids hN
  have hb : boxNumbers w h t.num = boxNumbers w h t'.num := by
    unfold boxNumbers; rw [List.map_congr_left hbox]
  -- not both are returned
  have hone : ∀ c c' : Choices, c.Ok w h → c'.Ok w h → createSolution (o c.numbers) fuel c w h = .ok t →
      createSolution (o c'.numbers) fuel c' w h = .ok t' → False := by
    intro c c' hc hc' h1 h2
    have e : c.numbers = c'.numbers := by
      rw [← create_box (ho _) hc hf h1, ← create_box (ho _) hc' hf h2, hb]
    rw [C94_row_col _ fuel w h c c' hc hc' e, e, h2] at h1
    cases h1
    exact hne rfl
  have fin : ∀ t : Sudoku, Plain w h t → IsSolution w h (fun _ => 0) t.get →
      (∀ c : Choices, c.Ok w h → createSolution (o c.numbers) fuel c w h ≠ .ok t) →
      ∀ (e : Env w h) (minCount : Int) (symmetry : Option String) (s : Sudoku), e.π = o e.c.numbers → e.fuel = fuel →
        e.generate minCount symmetry = .ok (some s) → ¬ IsSolution w h s.get t.get := by
    intro t hp _ hno e minCount symmetry s hπ hfu hg hst
    obtain ⟨-, sol, h1, -, h3⟩ := C35_unique e _ _ s hg
    obtain ⟨sol', h4, h5, -⟩ := C34_create_solution e.π e.hπ w h e.c e.hc e.fuel e.hf
    rw [h1] at h4
    cases h4
    have := Dlx.canon_ext h5 hp (fun a ha => h3 t.get hst a ha)
    subst this
    rw [hπ, hfu] at h1
    exact hno e.c e.hc h1
  by_cases h1 : ∃ c : Choices, c.Ok w h ∧ createSolution (o c.numbers) fuel c w h = .ok t
  · obtain ⟨c, hc, h1⟩ := h1
    have hno : ∀ c : Choices, c.Ok w h → createSolution (o c.numbers) fuel c w h ≠ .ok t' := fun c' hc' h2 => hone c c' hc hc' h1 h2
    exact ⟨t', hp', hs', hno, fin t' hp' hs' hno⟩
  · have hno : ∀ c : Choices, c.Ok w h → createSolution (o c.numbers) fuel c w h ≠ .ok t := fun c hc h2 => h1 ⟨c, hc, h2⟩
    exact ⟨t, hp, hs, hno, fin t hp hs hno⟩

/-! Case: 9! of the (more than `6 * 10 ^ 21`) full sudokus of size 9x9; 4x4 sudokus with `plainOrders`. -/
example : (3 * 3).factorial = 362880 := by decide
example : (fun _ : List Int => plainOrders) [] = plainOrders ∧ plainOrders.Ok ∧ 3 ≤ 2 * 2 ∧ (2 * 2) ^ 2 < 17 :=
  ⟨rfl, ⟨fun _ _ => List.Perm.refl _, fun _ _ => List.Perm.refl _⟩, by decide, by decide⟩
example : Choices.Ok ⟨1, 0, [2, 4, 3, 1]⟩ 2 2 ∧ Choices.Ok ⟨0, 1, [2, 4, 3, 1]⟩ 2 2 := ⟨⟨by decide, by decide, by decide⟩, by decide, by decide, by decide⟩
example : (createSolution plainOrders 17 ⟨1, 0, [2, 4, 3, 1]⟩ 2 2).toOption.map (fun t =>
    ((Sudoku.new 2 2).boxOf (0, 0) true).map t.get) = some [1, 3, 4, 2] := by decide +kernel

end Props
