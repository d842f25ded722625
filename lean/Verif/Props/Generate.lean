import Verif.Proofs.Generate
import Verif.Proofs.Decide

set_option autoImplicit false

/-!
# Properties of `generate.py` (C34 - C40)

`c : Choices`, `coords`, `f` are the random outcomes, `π`, `ρ` the orders in which sets and dicts are visited, `fuel` the
available depth of recursion, `rounds` a bound for the rounds of the `while` loop.
-/

open Spec Generate

namespace Props

/-! ## C34 -/

/-- **C34** `create_solution` returns a full sudoku without conflicts, for all box sizes and all random outcomes. -/
theorem C34_create_solution (π : Dlx.Orders) (hπ : π.Ok) (w h : Nat) (c : Choices) (hc : c.Ok w h) (fuel : Nat)
    (hf : (w * h) ^ 2 < fuel) :
    ∃ t, createSolution π fuel c w h = .ok t ∧ Plain w h t ∧ IsSolution w h (fun _ => 0) t.get :=
  createSolution_spec hπ hc hf

/-- **C34** Without rows or columns there is nothing to choose from: `IndexError`. -/
theorem C34_zero (π : Dlx.Orders) (w h : Nat) (h0 : w = 0 ∨ h = 0) (c : Choices) (fuel : Nat) :
    createSolution π fuel c w h = .error .IndexError := by
  unfold createSolution
  simp only
  rw [if_pos]
  rw [Sudoku.new_bw, Sudoku.new_bh]; exact h0.symm

/-- Random outcomes are possible for all sizes but 0. -/
example (w h : Nat) (hw : 0 < w) (hh : 0 < h) : Choices.Ok ⟨0, 0, (Sudoku.new w h).numbers⟩ w h := ⟨hh, hw, List.Perm.refl _⟩
example : Choices.Ok ⟨1, 0, [2, 4, 3, 1]⟩ 2 2 := ⟨by decide, by decide, by decide⟩
example : (createSolution plainOrders 5 ⟨0, 1, [2, 1]⟩ 2 1).toOption.map (fun t => (t.get (0, 0), t.get (0, 1))) = some (1, 2) := by
  decide +kernel

/-! ## C35 - C39 -/

/-- What symmetry means: the set `P` of fields is mapped to itself by a turn / by mirroring. -/
def Symmetric (symmetry : Option String) (N : Nat) (P : Cell → Prop) : Prop :=
  let turn := ∀ r c, r < N → c < N → (P (r, c) → P (c, N - 1 - r))
  let halfTurn := ∀ r c, r < N → c < N → (P (r, c) → P (N - 1 - r, N - 1 - c))
  let flipRows := ∀ r c, r < N → c < N → (P (r, c) → P (N - 1 - r, c))
  let flipColumns := ∀ r c, r < N → c < N → (P (r, c) → P (r, N - 1 - c))
  (symmetry = some "rotate-90" → turn) ∧ (symmetry = some "rotate-180" → halfTurn) ∧
  (symmetry = some "mirror-x" → flipRows) ∧ (symmetry = some "mirror-y" → flipColumns) ∧
  (symmetry = some "mirror-xy" → flipRows ∧ flipColumns)

/-- The valid values of the argument `symmetry`. -/
def symmetries : List (Option String) :=
  [none, some "rotate-90", some "rotate-180", some "mirror-x", some "mirror-y", some "mirror-xy"]

/-- The largest number of fields that belong together. -/
def groupSize (symmetry : Option String) : Nat :=
  if symmetry = none then 1 else if symmetry = some "rotate-90" ∨ symmetry = some "mirror-xy" then 4 else 2

/-- No symmetric set of fields with at least one clue can be cleared without losing uniqueness. -/
def Irreducible (symmetry : Option String) (w h : Nat) (s : Grid) : Prop :=
  ∀ D : Cell → Bool, Symmetric symmetry (w * h) (fun a => D a = true) →
    (∃ a, InGrid w h a ∧ D a = true ∧ s a ≠ 0) →
    ¬ UniqueSolution w h (fun a => if D a = true then 0 else s a)

theorem lookup_iff (symmetry : Option String) : (∃ sym, Sym.lookup symmetry = some sym) ↔ symmetry ∈ symmetries := by
  unfold Sym.lookup symmetries
  split <;> simp_all

theorem closed_fields {symmetry : Option String} {sym : Sym} (hs : Sym.lookup symmetry = some sym) {w h : Nat}
    {P : Cell → Prop} (hP : Symmetric symmetry (w * h) P) {a : Cell} (ha : InGrid w h a) (h0 : P a) :
    ∀ b ∈ sym.fields w h a, P b := by
  obtain ⟨r, c⟩ := a
  have h1 : r < w * h := ha.1
  have h2 : c < w * h := ha.2
  unfold Symmetric at hP
  intro b hb
  unfold Sym.lookup at hs
  split at hs <;> simp only [Option.some.injEq, reduceCtorEq] at hs <;> subst hs <;>
    simp only [Sym.fields, List.mem_cons, List.not_mem_nil, or_false] at hb
  · rw [hb]; exact h0
  · have t1 := hP.1 rfl r c h1 h2 h0
    have t2 := hP.1 rfl _ _ h2 (by omega) t1
    have t3 := hP.1 rfl _ _ (by omega) (by omega) t2
    rw [show w * h - 1 - (w * h - 1 - r) = r by omega] at t3
    rcases hb with rfl | rfl | rfl | rfl
    · exact h0
    · exact t3
    · exact t2
    · exact t1
  · rcases hb with rfl | rfl
    · exact h0
    · exact hP.2.1 rfl r c h1 h2 h0
  · rcases hb with rfl | rfl
    · exact h0
    · exact hP.2.2.1 rfl r c h1 h2 h0
  · rcases hb with rfl | rfl
    · exact h0
    · exact hP.2.2.2.1 rfl r c h1 h2 h0
  · obtain ⟨k1, k2⟩ := hP.2.2.2.2 rfl
    rcases hb with rfl | rfl | rfl | rfl
    · exact h0
    · exact k1 r c h1 h2 h0
    · exact k2 r c h1 h2 h0
    · exact k2 _ c (by omega) h2 (k1 r c h1 h2 h0)

theorem symmetric_of {symmetry : Option String} {sym : Sym} (hs : Sym.lookup symmetry = some sym) {w h : Nat}
    {P : Cell → Prop} (hP : ∀ a, InGrid w h a → ∀ b ∈ sym.fields w h a, P a → P b) : Symmetric symmetry (w * h) P := by
  have key : ∀ sym', Sym.lookup symmetry = some sym' → sym' = sym := fun _ h => Option.some.inj (h.symm.trans hs)
  refine ⟨?_, ?_, ?_, ?_, ?_⟩ <;> intro e <;> subst e
  · have := key .rotate90 rfl; subst this
    intro r c h1 h2; exact hP (r, c) ⟨h1, h2⟩ _ (by simp [Sym.fields])
  · have := key .rotate180 rfl; subst this
    intro r c h1 h2; exact hP (r, c) ⟨h1, h2⟩ _ (by simp [Sym.fields])
  · have := key .mirrorX rfl; subst this
    intro r c h1 h2; exact hP (r, c) ⟨h1, h2⟩ _ (by simp [Sym.fields])
  · have := key .mirrorY rfl; subst this
    intro r c h1 h2; exact hP (r, c) ⟨h1, h2⟩ _ (by simp [Sym.fields])
  · have := key .mirrorXY rfl; subst this
    exact ⟨fun r c h1 h2 => hP (r, c) ⟨h1, h2⟩ _ (by simp [Sym.fields]),
      fun r c h1 h2 => hP (r, c) ⟨h1, h2⟩ _ (by simp [Sym.fields])⟩

private theorem size_le {symmetry : Option String} {sym : Sym} (hs : Sym.lookup symmetry = some sym) (w h : Nat) (a : Cell) :
    (sym.fields w h a).dedup.length ≤ groupSize symmetry := by
  refine le_trans (List.dedup_sublist _).length_le ?_
  unfold Sym.lookup at hs
  split at hs <;> simp only [Option.some.injEq, reduceCtorEq] at hs <;> subst hs <;> simp [Sym.fields, groupSize]

theorem generated {w h : Nat} (e : Env w h) {minCount : Int} {symmetry : Option String} {t : Sudoku}
    (ht : e.generate minCount symmetry = .ok (some t)) :
    ∃ sol sym coords' count', Sym.lookup symmetry = some sym ∧ createSolution e.π e.fuel e.c w h = .ok sol ∧
      IsSolution w h (fun _ => 0) sol.get ∧ Inv w h sym minCount sol.get coords' count' t ∧
      (coords' = [] ∨ ∃ a, InGrid w h a ∧ (∀ b ∈ sym.fields w h a, t.num b ≠ 0) ∧
          count' - (sym.fields w h a).dedup.length < minCount) := by
  by_cases hmin : minCount ≤ (w ^ 2 * h ^ 2 : Nat)
  · cases hs : Sym.lookup symmetry with
    | none =>
      unfold Env.generate Generate.generate at ht
      simp only at ht
      rw [if_neg (not_lt.2 hmin), hs] at ht
      cases ht
    | some sym =>
      obtain ⟨sol, t', coords', count', h1, h2⟩ := generate_spec e.hπ e.hρ e.hf e.hr e.hc e.hcoords hmin hs
      unfold Env.generate at ht
      rw [h1] at ht
      cases ht
      exact ⟨sol, sym, coords', count', rfl, h2⟩
  · unfold Env.generate Generate.generate at ht
    simp only at ht
    rw [if_pos (not_le.1 hmin)] at ht
    cases ht

/-- **C35** The result has exactly one solution, and this is the one `create_solution` made. -/
theorem C35_unique {w h : Nat} (e : Env w h) (minCount : Int) (symmetry : Option String) (t : Sudoku)
    (ht : e.generate minCount symmetry = .ok (some t)) :
    Plain w h t ∧ ∃ sol, createSolution e.π e.fuel e.c w h = .ok sol ∧ IsSolution w h t.get sol.get ∧
      ∀ g, IsSolution w h t.get g → SameGrid w h sol.get g := by
  obtain ⟨sol, sym, coords', count', -, h1, h2, inv, -⟩ := generated e ht
  refine ⟨⟨inv.bw, inv.bh, inv.out, inv.cand⟩, sol, h1, ?_, ?_⟩
  · exact ⟨fun a ha h0 => (inv.clues a ha h0).symm, h2.full, h2.valid⟩
  · intro g hg
    obtain ⟨g0, -, hu⟩ := inv.unique
    have k1 := hu sol.get ⟨fun a ha h0 => (inv.clues a ha h0).symm, h2.full, h2.valid⟩
    have k2 := hu g hg
    exact fun a ha => (k1 a ha).symm.trans (k2 a ha)

/-- **C36** At least `min_count` fields are filled. -/
theorem C36_min_count {w h : Nat} (e : Env w h) (minCount : Int) (symmetry : Option String) (t : Sudoku)
    (ht : e.generate minCount symmetry = .ok (some t)) : minCount ≤ t.count := by
  obtain ⟨sol, sym, coords', count', -, -, -, inv, -⟩ := generated e ht
  rw [← inv.countEq]; exact inv.minOk

/-- **C37** The filled fields have the requested symmetry. -/
theorem C37_symmetry {w h : Nat} (e : Env w h) (minCount : Int) (symmetry : Option String) (t : Sudoku)
    (ht : e.generate minCount symmetry = .ok (some t)) : Symmetric symmetry (w * h) fun a => t.get a ≠ 0 := by
  obtain ⟨sol, sym, coords', count', hs, -, -, inv, -⟩ := generated e ht
  refine symmetric_of hs fun a ha b hb h0 h1 => h0 ?_
  exact inv.symm b (fields_inGrid ha hb) a (fields_symm ha hb) h1

theorem irreducible_of {w h : Nat} {symmetry : Option String} {sym : Sym} (hs : Sym.lookup symmetry = some sym)
    {minCount : Int} {sol : Grid} (h2 : IsSolution w h (fun _ => 0) sol) {count' : Int} {t : Sudoku}
    (inv : Inv w h sym minCount sol [] count' t) : Irreducible symmetry w h t.get := by
  rintro D hD ⟨a, ha, hDa, h0⟩ hu
  refine inv.irred a ha (by simp) h0 (unique_mono (g := sol) ?_ ?_ hu)
  · intro b _ hb
    by_cases hDb : D b = true
    · rw [if_pos hDb] at hb; exact absurd rfl hb
    · rw [if_neg hDb]
      unfold cleared
      rw [if_neg]
      · rfl
      · intro hb'
        exact hDb (closed_fields hs hD ha hDa b hb')
  · refine ⟨fun c hc h0 => ?_, h2.full, h2.valid⟩
    unfold cleared at h0 ⊢
    by_cases h4 : c ∈ sym.fields w h a
    · rw [if_pos h4] at h0; exact absurd rfl h0
    · rw [if_neg h4] at h0 ⊢; exact (inv.clues c hc h0).symm

/-- **C38** With `min_count <= 0` the result is irreducible. -/
theorem C38_irreducible {w h : Nat} (e : Env w h) (minCount : Int) (hm : minCount ≤ 0) (symmetry : Option String) (t : Sudoku)
    (ht : e.generate minCount symmetry = .ok (some t)) : Irreducible symmetry w h t.get := by
  obtain ⟨sol, sym, coords', count', hs, -, h2, inv, hend⟩ := generated e ht
  rcases hend with rfl | ⟨a, ha, hfill, hlt⟩
  · exact irreducible_of hs h2 inv
  · exfalso
    have := count_cleared (s := t) (l := (sym.fields w h a).dedup) (List.nodup_dedup _) (by
      intro b hb
      rw [List.mem_dedup] at hb
      rw [inv.bw, inv.bh]
      exact ⟨fields_inGrid ha hb, hfill b hb⟩)
    rw [inv.countEq, ← this] at hlt
    push_cast at hlt
    rw [Int.add_sub_cancel] at hlt
    have h0 : (0 : Int) ≤ (Sudoku.count { t with num := cleared (sym.fields w h a).dedup t.num } : Nat) := Int.natCast_nonneg _
    exact absurd (lt_of_le_of_lt h0 hlt) (not_lt.2 hm)

/-- **C38** With a larger `min_count` the result is irreducible, too, unless its number of clues is close to `min_count`. -/
theorem C38_min_count {w h : Nat} (e : Env w h) (minCount : Int) (symmetry : Option String) (t : Sudoku)
    (ht : e.generate minCount symmetry = .ok (some t)) (hc : minCount + groupSize symmetry ≤ t.count) :
    Irreducible symmetry w h t.get := by
  obtain ⟨sol, sym, coords', count', hs, -, h2, inv, hend⟩ := generated e ht
  rcases hend with rfl | ⟨a, ha, hfill, hlt⟩
  · exact irreducible_of hs h2 inv
  · exfalso
    have h1 := size_le hs w h a
    rw [inv.countEq] at hlt
    omega

/-- **C39** `ValueError` exactly for `min_count > N*N` or an unknown symmetry; otherwise a sudoku is returned. -/
theorem C39_value_error {w h : Nat} (e : Env w h) (minCount : Int) (symmetry : Option String) :
    (minCount > ((w * h) ^ 2 : Nat) ∨ symmetry ∉ symmetries → e.generate minCount symmetry = .error .ValueError) ∧
    (¬ (minCount > ((w * h) ^ 2 : Nat) ∨ symmetry ∉ symmetries) → ∃ t, e.generate minCount symmetry = .ok (some t)) := by
  have hl : (w * h) ^ 2 = w ^ 2 * h ^ 2 := Nat.mul_pow w h 2
  rw [hl, ← lookup_iff]
  constructor
  · intro hbad
    unfold Env.generate Generate.generate
    simp only
    by_cases hmin : minCount > ((w ^ 2 * h ^ 2 : Nat) : Int)
    · rw [if_pos hmin]
    · rw [if_neg hmin]
      have hno := hbad.resolve_left hmin
      cases hs : Sym.lookup symmetry with
      | none => rfl
      | some sym => exact absurd ⟨sym, hs⟩ hno
  · intro hgood
    rw [not_or, not_not] at hgood
    obtain ⟨hmin, sym, hs⟩ := hgood
    obtain ⟨-, t, -, -, h1, -⟩ := generate_spec e.hπ e.hρ e.hf e.hr e.hc e.hcoords (not_lt.1 hmin) hs
    exact ⟨t, h1⟩

/-- **C39** The `ValueError`s are raised before anything else happens, also for empty boxes; with empty boxes and valid
arguments an `IndexError` is raised. -/
theorem C39_empty_box (π : Dlx.Orders) (ρ : List Cell → RoundOrders) (fuel rounds : Nat) (c : Choices) (coords : List Cell)
    (w h : Nat) (h0 : w = 0 ∨ h = 0) (minCount : Int) (symmetry : Option String) :
    generate π ρ fuel rounds c coords minCount symmetry w h =
      if minCount > 0 ∨ symmetry ∉ symmetries then .error .ValueError else .error .IndexError := by
  unfold generate
  have hl : ((w ^ 2 * h ^ 2 : Nat) : Int) = 0 := by rcases h0 with rfl | rfl <;> simp
  simp only
  rw [hl]
  by_cases hmin : minCount > 0
  · rw [if_pos hmin, if_pos (Or.inl hmin)]
  · rw [if_neg hmin]
    cases hs : Sym.lookup symmetry with
    | none => rw [if_pos (Or.inr (by rw [← lookup_iff, hs]; simp))]
    | some sym =>
      rw [if_neg (by rw [not_or, not_not, ← lookup_iff]; exact ⟨hmin, sym, hs⟩)]
      simp only
      rw [C34_zero π w h h0]

/-- An environment for every size. -/
def plainEnv (w h : Nat) (hw : 0 < w) (hh : 0 < h) : Env w h where
  π := plainOrders
  ρ := fun _ => ⟨id, id, id, plainOrders⟩
  c := ⟨0, 0, (Sudoku.new w h).numbers⟩
  coords := (Sudoku.new w h).cells
  fuel := (w * h) ^ 2 + 1
  rounds := (w * h) ^ 2 + 1
  hπ := ⟨fun _ _ => List.Perm.refl _, fun _ _ => List.Perm.refl _⟩
  hρ := fun _ => ⟨fun _ => List.Perm.refl _, fun _ => List.Perm.refl _, fun _ => List.Perm.refl _,
    ⟨fun _ _ => List.Perm.refl _, fun _ _ => List.Perm.refl _⟩⟩
  hc := ⟨hh, hw, List.Perm.refl _⟩
  hcoords := List.Perm.refl _
  hf := Nat.lt_succ_self _
  hr := Nat.lt_succ_self _

/-- A sudoku of size 2x2, reduced to one clue, or to two with rotational symmetry. -/
example : (((plainEnv 2 1 (by decide) (by decide)).generate 0 none).toOption.map fun t => t.map Sudoku.filled) =
    some (some [(1, 1)]) := by decide +kernel
example : (((plainEnv 2 1 (by decide) (by decide)).generate 0 (some "rotate-180")).toOption.map fun t => t.map Sudoku.filled) =
    some (some [(0, 1), (1, 0)]) := by decide +kernel
example : (((plainEnv 2 1 (by decide) (by decide)).generate 3 none).toOption.map fun t => t.map Sudoku.filled) =
    some (some [(0, 1), (1, 0), (1, 1)]) := by decide +kernel
example : ((plainEnv 2 1 (by decide) (by decide)).generate 0 (some "rotate-45")).toOption.isNone = true := by decide +kernel

/-- **C38** (why `min_count` matters) The loop stops at the first group of fields that is too large, even if a smaller group
could still be cleared: of the 3x3 sudoku all 9 fields stay filled, although clearing the middle leaves 8 clues, which is
the wanted `min_count`, and one solution. -/
theorem C38_stops_early : ∃ t, (plainEnv 3 1 (by decide) (by decide)).generate 8 (some "rotate-180") = .ok (some t) ∧
    t.count = 9 ∧ (t.setNumber (1, 1) 0).count = 8 ∧ UniqueSolution 3 1 (t.setNumber (1, 1) 0).get := by
  obtain ⟨t, ht⟩ := (C39_value_error (plainEnv 3 1 (by decide) (by decide)) 8 (some "rotate-180")).2 (by decide)
  obtain ⟨⟨h1, h2, -, -⟩, -⟩ := C35_unique _ _ _ t ht
  have key : ((plainEnv 3 1 (by decide) (by decide)).generate 8 (some "rotate-180")).toOption.map (fun t => t.map fun t =>
      (t.count, (t.setNumber (1, 1) 0).count, (Dlx.isUnique plainOrders 10 (t.setNumber (1, 1) 0)).toOption,
        (t.setNumber (1, 1) 0).empty.length)) = some (some (9, 8, some true, 1)) := by decide +kernel
  rw [ht] at key
  simp only [Except.toOption, Option.map_some, Option.some.injEq, Prod.mk.injEq] at key
  obtain ⟨k1, k2, k3, k4⟩ := key
  refine ⟨t, ht, k1, k2, ?_⟩
  obtain ⟨b, hb, hu⟩ := C22_is_unique plainOrders ⟨fun _ _ => List.Perm.refl _, fun _ _ => List.Perm.refl _⟩ 10
    (t.setNumber (1, 1) 0) (by rw [k4]; decide)
  rw [hb] at k3
  simp only [Option.some.injEq] at k3
  have := hu.1 k3
  rwa [show (t.setNumber (1, 1) 0).bw = 3 from h1, show (t.setNumber (1, 1) 0).bh = 1 from h2] at this

/-! ## C40 -/

/-- Try number `k` fails: the created solution, restricted to the filled fields of the template, allows a second one. -/
def Fails {template : Sudoku} (e : TryEnv template) (k : Nat) : Prop :=
  ∃ sol, createSolution (e.f k).create e.fuel (e.f k).choices template.bw template.bh = .ok sol ∧
    ¬ UniqueSolution template.bw template.bh fun a => if template.get a = 0 then 0 else sol.get a

/-- What is promised for the returned sudoku: one solution, and filled exactly where the template is. -/
def Matches (template s : Sudoku) : Prop :=
  Plain template.bw template.bh s ∧ UniqueSolution template.bw template.bh s.get ∧
  ∀ a, InGrid template.bw template.bh a → (s.get a ≠ 0 ↔ template.get a ≠ 0)

private theorem loop_step {template : Sudoku} (e : TryEnv template) {tries : Int} (rounds : Nat) {t : Nat}
    (ht : (t : Int) < tries ∨ tries < 0) :
    (Fails e t ∧ templateLoop e.fuel e.f template tries (rounds + 1) t = templateLoop e.fuel e.f template tries rounds (t + 1)) ∨
    (¬ Fails e t ∧ ∃ s, templateLoop e.fuel e.f template tries (rounds + 1) t = .ok (some s) ∧ Matches template s) := by
  obtain ⟨sol, hsol, hp, his⟩ := createSolution_spec (e.hcreate t) (e.hchoices t) e.hf
  have hcopy := copy_plain hp
  obtain ⟨h1, h2, h3, h4⟩ := hp
  have hg : (mask template sol).get =
      fun a => if InGrid template.bw template.bh a ∧ template.get a = 0 then 0 else sol.num a := by rw [mask_eq]; rfl
  have hw : (mask template sol).bw = template.bw := by rw [mask_eq]; exact h1
  have hh : (mask template sol).bh = template.bh := by rw [mask_eq]; exact h2
  have hsame : UniqueSolution template.bw template.bh (mask template sol).get ↔
      UniqueSolution template.bw template.bh (fun a => if template.get a = 0 then 0 else sol.get a) := by
    have hs : ∀ a, InGrid template.bw template.bh a → (mask template sol).get a = if template.get a = 0 then 0 else sol.get a := by
      intro a ha
      rw [hg]
      simp only [ha, true_and]
      rfl
    have hi : ∀ g, IsSolution template.bw template.bh (mask template sol).get g ↔
        IsSolution template.bw template.bh (fun a => if template.get a = 0 then 0 else sol.get a) g := fun g =>
      ⟨fun k => ⟨fun a ha h0 => by rw [k.keeps a ha (by rw [hs a ha]; exact h0), hs a ha], k.full, k.valid⟩,
       fun k => ⟨fun a ha h0 => by rw [k.keeps a ha (by rw [← hs a ha]; exact h0), hs a ha], k.full, k.valid⟩⟩
    unfold UniqueSolution
    simp only [hi]
  have hF : Fails e t ↔ ¬ UniqueSolution template.bw template.bh (mask template sol).get := by
    rw [hsame]
    constructor
    · rintro ⟨sol', h5, h6⟩
      rw [hsol] at h5
      cases h5
      exact h6
    · exact fun h5 => ⟨sol, hsol, h5⟩
  obtain ⟨b, hb, hbu⟩ := Props.C22_is_unique (e.f t).unique (e.hunique t) e.fuel (mask template sol) (by
    refine lt_of_le_of_lt (length_empty_le _) ?_
    rw [hw, hh]; exact e.hf)
  rw [hw, hh] at hbu
  rw [templateLoop, if_pos ht, hsol]
  simp only
  rw [hcopy, hb]
  cases b with
  | true =>
    right
    refine ⟨fun h => hF.1 h (hbu.1 rfl), _, rfl, ⟨hw, hh, fun a ha => ?_, fun a => by rw [mask_eq]; exact h4 a⟩, hbu.1 rfl, ?_⟩
    · rw [mask_eq]
      simp only [ha, false_and, if_false]
      exact h3 a ha
    · intro a ha
      rw [hg]
      have hne : sol.num a ≠ 0 := fun h0 => by
        have := (his.full a ha).1
        rw [show sol.get a = sol.num a from rfl, h0] at this; exact absurd this (by decide)
      by_cases h0 : template.get a = 0 <;> simp [ha, h0, hne]
  | false =>
    left
    exact ⟨hF.2 fun h => absurd (hbu.2 h) (by simp), rfl⟩

private theorem loop_skip {template : Sudoku} (e : TryEnv template) {tries : Int} : ∀ (k rounds t : Nat),
    (∀ j, t ≤ j → j < t + k → ((j : Int) < tries ∨ tries < 0) ∧ Fails e j) →
    templateLoop e.fuel e.f template tries (k + rounds) t = templateLoop e.fuel e.f template tries rounds (t + k) := by
  intro k
  induction k with
  | zero => intro rounds t _; simp
  | succ k ih =>
    intro rounds t hall
    have h1 := hall t (Nat.le_refl _) (by omega)
    rcases loop_step e (k + rounds) h1.1 with h2 | h2
    · rw [show k + 1 + rounds = k + rounds + 1 by omega, h2.2, ih rounds (t + 1) (fun j h3 h4 => hall j (by omega) (by omega)),
        show t + 1 + k = t + (k + 1) by omega]
    · exact absurd h1.2 h2.1

private theorem loop_result {template : Sudoku} (e : TryEnv template) {tries : Int} : ∀ (rounds t : Nat) (s : Sudoku),
    templateLoop e.fuel e.f template tries rounds t = .ok (some s) → Matches template s := by
  intro rounds
  induction rounds with
  | zero => intro t s h; cases h
  | succ rounds ih =>
    intro t s h
    by_cases ht : (t : Int) < tries ∨ tries < 0
    · rcases loop_step e rounds ht with h2 | ⟨-, s', h2, h3⟩
      · rw [h2.2] at h; exact ih _ _ h
      · rw [h2] at h; cases h; exact h3
    · rw [templateLoop, if_neg ht] at h; cases h

/-- **C40** What is returned has one solution and is filled exactly where the template is. -/
theorem C40_result (template : Sudoku) (e : TryEnv template) (rounds : Nat) (tries : Int) (s : Sudoku)
    (hs : generateFromTemplate e.fuel rounds e.f template tries = .ok (some s)) : Matches template s :=
  loop_result e rounds 0 s hs

/-- **C40** A sudoku is returned as soon as a try succeeds. -/
theorem C40_success (template : Sudoku) (e : TryEnv template) (rounds : Nat) (tries : Int) (k : Nat)
    (hk : (k : Int) < tries ∨ tries < 0) (hfirst : ∀ j < k, Fails e j) (hok : ¬ Fails e k) (hr : k < rounds) :
    ∃ s, generateFromTemplate e.fuel rounds e.f template tries = .ok (some s) := by
  unfold generateFromTemplate
  obtain ⟨m, rfl⟩ : ∃ m, rounds = k + (m + 1) := ⟨rounds - k - 1, by omega⟩
  rw [loop_skip e k (m + 1) 0 (fun j _ h2 => ⟨by omega, hfirst j (by omega)⟩), Nat.zero_add]
  rcases loop_step e m hk with h2 | ⟨-, s, h2, -⟩
  · exact absurd h2.1 hok
  · exact ⟨s, h2⟩

/-- **C40** `RuntimeError` exactly if all of the `tries` tries fail (so always for `tries = 0`). -/
theorem C40_gives_up (template : Sudoku) (e : TryEnv template) (rounds : Nat) (tries : Nat) (hr : tries < rounds) :
    generateFromTemplate e.fuel rounds e.f template tries = .error .RuntimeError ↔ ∀ k < tries, Fails e k := by
  constructor
  · intro h
    by_contra hno
    push Not at hno
    classical
    have hmin := Nat.find_spec hno
    obtain ⟨s, hs⟩ := C40_success template e rounds tries (Nat.find hno) (Or.inl (by exact_mod_cast hmin.1))
      (fun j hj => by
        have := Nat.find_min hno hj
        push Not at this
        exact this (lt_trans hj hmin.1)) hmin.2 (lt_trans hmin.1 hr)
    rw [h] at hs; cases hs
  · intro hall
    unfold generateFromTemplate
    obtain ⟨m, rfl⟩ : ∃ m, rounds = tries + (m + 1) := ⟨rounds - tries - 1, by omega⟩
    rw [loop_skip e tries (m + 1) 0 (fun j _ h2 => ⟨by omega, hall j (by omega)⟩), Nat.zero_add, templateLoop, if_neg (by omega)]

/-- **C40** With `tries < 0` the function goes on as long as the tries fail. -/
theorem C40_endless (template : Sudoku) (e : TryEnv template) (rounds : Nat) (tries : Int) (ht : tries < 0)
    (hall : ∀ k < rounds, Fails e k) : generateFromTemplate e.fuel rounds e.f template tries = .ok none := by
  unfold generateFromTemplate
  have := loop_skip e (tries := tries) rounds 0 0 (fun j _ h2 => ⟨Or.inr ht, hall j (by omega)⟩)
  rw [Nat.add_zero] at this
  rw [this]; rfl

/-- Tries for every template. -/
def plainTries (template : Sudoku) (hw : 0 < template.bw) (hh : 0 < template.bh) : TryEnv template where
  f := fun _ => ⟨⟨0, 0, (Sudoku.new template.bw template.bh).numbers⟩, plainOrders, plainOrders⟩
  fuel := (template.bw * template.bh) ^ 2 + 1
  hchoices := fun _ => ⟨hh, hw, List.Perm.refl _⟩
  hcreate := fun _ => ⟨fun _ _ => List.Perm.refl _, fun _ _ => List.Perm.refl _⟩
  hunique := fun _ => ⟨fun _ _ => List.Perm.refl _, fun _ _ => List.Perm.refl _⟩
  hf := Nat.lt_succ_self _

/-- A 2x2 template with one filled field succeeds, an empty one does not (so `Fails` and its negation both occur). -/
def dot : Sudoku := (Sudoku.new 2 1).setNumber (1, 0) 7
example : (((generateFromTemplate (plainTries dot (by decide) (by decide)).fuel 3 (plainTries dot (by decide) (by decide)).f dot 2).toOption.map
    fun t => t.map fun t => (t.filled, t.get (1, 0)))) = some (some ([(1, 0)], 1)) := by decide +kernel
example : generateFromTemplate (plainTries (Sudoku.new 2 1) (by decide) (by decide)).fuel 3
    (plainTries (Sudoku.new 2 1) (by decide) (by decide)).f (Sudoku.new 2 1) 2 matches .error .RuntimeError := by decide +kernel

end Props
