import Verif.Proofs.FewPuzzles
import Verif.Props.Clues

set_option autoImplicit false

/-!
# How many clues 4x4 sudokus have (C119)

The docstring of `generate` says that unique sudokus have at least 17 filled fields.  This is about 9x9 sudokus; for 4x4 ones the number is 4.
-/

open Spec Generate

namespace Props

private theorem four {s : Sudoku} (hw : s.bw = 2) (hh : s.bh = 2) (hu : UniqueSolution s.bw s.bh s.get) : 4 ≤ s.count := by
  rw [Few.count_eq]
  rw [hw, hh] at hu ⊢
  exact Few.lower Few.checked22 hu

/-- **C119** If `is_unique` says `True` for a 4x4 sudoku, at least four fields are filled. -/
theorem C119_is_unique (π : Dlx.Orders) (hπ : π.Ok) (fuel : Nat) (s : Sudoku) (hw : s.bw = 2) (hh : s.bh = 2) (hf : s.empty.length < fuel)
    (hu : Dlx.isUnique π fuel s = .ok true) : 4 ≤ s.count := by
  obtain ⟨b, h1, h2⟩ := C22_is_unique π hπ fuel s hf
  rw [hu] at h1
  exact four hw hh (h2.1 (Except.ok.inj h1).symm)

/-- **C119** If moreover no clue can be left out, at most six are filled. -/
theorem C119_irreducible (s : Sudoku) (hw : s.bw = 2) (hh : s.bh = 2) (hu : UniqueSolution s.bw s.bh s.get)
    (hi : ∀ a, InGrid s.bw s.bh a → s.get a ≠ 0 → ¬ UniqueSolution s.bw s.bh (fun b => if b = a then 0 else s.get b)) :
    4 ≤ s.count ∧ s.count ≤ 6 := by
  refine ⟨four hw hh hu, ?_⟩
  rw [Few.count_eq]
  rw [hw, hh] at hu hi ⊢
  exact Nat.le_of_lt_succ (Few.upper Few.checked22 hu hi)

/-- **C119** `generate(box_size=(2, 2))` returns at least four clues, whatever `min_count` and `symmetry` are. -/
theorem C119_generate (e : Env 2 2) (minCount : Int) (symmetry : Option String) (t : Sudoku)
    (ht : e.generate minCount symmetry = .ok (some t)) : 4 ≤ t.count := by
  obtain ⟨⟨h1, h2, -, -⟩, sol, -, h3, h4⟩ := C35_unique e minCount symmetry t ht
  exact four h1 h2 (by rw [h1, h2]; exact ⟨sol.get, h3, h4⟩)

private theorem tooFew_none {w h : Nat} {m : Int} {t : Sudoku} (H : TooFew none w h m t) : (t.count : Int) ≤ m := by
  obtain ⟨D, ⟨a, ha⟩, -, -, h1, h2⟩ := H
  have := h1 {a} (by simpa using ha) ⟨a, by simp⟩ ⟨by simp, by simp, by simp, by simp, by simp⟩
  rw [← this, Finset.card_singleton] at h2
  omega

/-! The sudokus that show that all numbers in question occur. -/

private def full : List Nat := [0, 1, 2, 3, 2, 3, 0, 1, 1, 0, 3, 2, 3, 2, 1, 0]

/-- Part of the solution `1 2 3 4 / 3 4 1 2 / 2 1 4 3 / 4 3 2 1`. -/
def given (F : List Nat) : Sudoku := ⟨2, 2, fun a => if InGrid 2 2 a then Few.puzzle 2 2 full F a else 0, fun _ => ∅⟩

private theorem given_same (F : List Nat) : SameGrid 2 2 (Few.puzzle 2 2 full F) (given F).get := fun _ ha => (if_pos ha).symm

private theorem given_plain (F : List Nat) : Plain 2 2 (given F) := ⟨rfl, rfl, fun _ ha => if_neg ha, fun _ => rfl⟩

private theorem full_mem : full ∈ Few.grids 2 2 (2 * 2 * (2 * 2)) := by
  have e : Few.grids 2 2 (2 * 2 * (2 * 2)) = Few.all22 := Few.grids22
  rw [e]; decide +kernel

private theorem given_unique {F : List Nat} (hlt : ∀ i ∈ F, i < 16)
    (H : ∀ l ∈ Few.all22, (∀ i ∈ F, l.getD i 0 = full.getD i 0) → l = full) : UniqueSolution 2 2 (given F).get := by
  refine Few.unique_congr (given_same F) (Few.unique_puzzle full_mem hlt ?_)
  have e : Few.grids 2 2 (2 * 2 * (2 * 2)) = Few.all22 := Few.grids22
  rw [e]; exact H

private theorem given_irreducible {F : List Nat} (hlt : ∀ i ∈ F, i < 16)
    (H : ∀ l ∈ Few.all22, (∀ i ∈ F, l.getD i 0 = full.getD i 0) → l = full)
    (H' : ∀ i ∈ F, ∃ l ∈ Few.all22, l ≠ full ∧ ∀ j ∈ F, j ≠ i → l.getD j 0 = full.getD j 0) : Irreducible none 2 2 (given F).get := by
  have e : Few.grids 2 2 (2 * 2 * (2 * 2)) = Few.all22 := Few.grids22
  refine Few.irreducible_of_single (given_unique hlt H) fun a ha h0 hu => ?_
  rw [← given_same F a ha] at h0
  obtain ⟨l, hl, hne, h1⟩ := H' _ (Few.puzzle_ne.1 h0)
  refine Few.not_unique_puzzle (F := F.filter (· ≠ Few.idx (2 * 2) a)) full_mem (by rw [e]; exact hl) hne (fun j hj => ?_)
    (Few.unique_congr (fun b hb => ?_) hu)
  · obtain ⟨hj, hji⟩ := List.mem_filter.1 hj
    exact h1 j hj (by simpa using hji)
  · by_cases hba : b = a
    · rw [if_pos hba, Few.puzzle, if_neg (by simp [hba])]
    · rw [if_neg hba, ← given_same F b hb]
      have : Few.idx (2 * 2) b ≠ Few.idx (2 * 2) a := fun e => hba (by rw [← Few.cellAt_idx hb.2, e, Few.cellAt_idx ha.2])
      unfold Few.puzzle
      simp only [List.mem_filter, decide_eq_true_eq, this, ne_eq, not_false_eq_true, and_true]

/-- The places in the order in which further clues are added. -/
private def order : List Nat := [0, 3, 13, 14, 1, 2, 4, 5, 6, 7, 8, 9, 10, 11, 12, 15]

private theorem order_count : ∀ n ∈ List.range 17, (Few.filledIdx 2 2 (given (order.take n)).get).length = n := by decide +kernel

private theorem order_unique {n : Nat} (h4 : 4 ≤ n) : UniqueSolution 2 2 (given (order.take n)).get := by
  refine given_unique (fun i hi => ?_) fun l hl H => ?_
  · have : ∀ i ∈ order, i < 16 := by decide
    exact this i (List.mem_of_mem_take hi)
  · have key : ∀ l ∈ Few.all22, (∀ i ∈ order.take 4, l.getD i 0 = full.getD i 0) → l = full := by decide +kernel
    exact key l hl fun i hi => H i ((List.take_sublist_take_left h4).subset hi)

/-- **C119** `generate(min_count, None, (2, 2))` with `min_count <= 16` can return exactly the numbers of clues from the larger one of 4 and
`min_count` to the larger one of 6 and `min_count`. -/
theorem C119_exactly (minCount : Int) (hm : minCount ≤ 16) (n : Nat) :
    (∃ (e : Env 2 2) (t : Sudoku), e.generate minCount none = .ok (some t) ∧ t.count = n) ↔
      max 4 minCount ≤ n ∧ (n : Int) ≤ max 6 minCount := by
  constructor
  · rintro ⟨e, t, ht, rfl⟩
    obtain ⟨hp, hu, -, hc, hor⟩ := (C93_generate 2 2 (by omega) (by omega) minCount none (by simp [symmetries]) t).1 ⟨e, ht⟩
    have h4 := C119_generate e minCount none t ht
    refine ⟨by omega, ?_⟩
    rcases hor with hi | hf
    · have := (C119_irreducible t hp.1 hp.2.1 (by rw [hp.1, hp.2.1]; exact hu)
        (by rw [hp.1, hp.2.1]; exact fun a ha h0 => Few.single_of_irreducible hi a ha h0)).2
      omega
    · have := tooFew_none hf
      omega
  · rintro ⟨h1, h2⟩
    have reach : ∀ t : Sudoku, Plain 2 2 t → UniqueSolution 2 2 t.get → t.count = n → Irreducible none 2 2 t.get ∨ TooFew none 2 2 minCount t →
        ∃ (e : Env 2 2) (t : Sudoku), e.generate minCount none = .ok (some t) ∧ t.count = n := by
      intro t hp hu hc hor
      obtain ⟨e, he⟩ := (C93_generate 2 2 (by omega) (by omega) minCount none (by simp [symmetries]) t).2
        ⟨hp, hu, ⟨by simp, by simp, by simp, by simp, by simp⟩, by omega, hor⟩
      exact ⟨e, t, he, hc⟩
    have irr : ∀ F : List Nat, (∀ i ∈ F, i < 16) → (∀ l ∈ Few.all22, (∀ i ∈ F, l.getD i 0 = full.getD i 0) → l = full) →
        (∀ i ∈ F, ∃ l ∈ Few.all22, l ≠ full ∧ ∀ j ∈ F, j ≠ i → l.getD j 0 = full.getD j 0) →
        (Few.filledIdx 2 2 (given F).get).length = n →
        ∃ (e : Env 2 2) (t : Sudoku), e.generate minCount none = .ok (some t) ∧ t.count = n := fun F a b c d =>
      reach (given F) (given_plain F) (given_unique a b) ((Few.count_eq _).trans d) (Or.inl (given_irreducible a b c))
    by_cases h6 : n ≤ 6
    · have : n = 4 ∨ n = 5 ∨ n = 6 := by omega
      rcases this with rfl | rfl | rfl
      · exact irr [0, 3, 13, 14] (by decide) (by decide +kernel) (by decide +kernel) (by decide +kernel)
      · exact irr [0, 1, 2, 13, 14] (by decide) (by decide +kernel) (by decide +kernel) (by decide +kernel)
      · exact irr [0, 1, 8, 11, 13, 15] (by decide) (by decide +kernel) (by decide +kernel) (by decide +kernel)
    · have hn : n < 17 := by omega
      have hc : (given (order.take n)).count = n := (Few.count_eq _).trans (order_count n (List.mem_range.2 hn))
      refine reach (given (order.take n)) (given_plain _) (order_unique (by omega)) hc
        (Or.inr ⟨{(0, 0)}, ⟨_, Finset.mem_singleton_self _⟩, fun a ha => ?_, ⟨by simp, by simp, by simp, by simp, by simp⟩, fun E hE hne _ => ?_, ?_⟩)
      · rw [Finset.mem_singleton] at ha
        subst ha
        have h00 : InGrid 2 2 (0, 0) := by decide
        refine ⟨h00, ?_⟩
        rw [← given_same _ _ h00]
        refine Few.puzzle_ne.2 ?_
        have : (0 : Nat) ∈ order.take 1 := by decide
        exact (List.take_sublist_take_left (by omega : 1 ≤ n)).subset this
      · exact (Finset.subset_singleton_iff.1 hE).resolve_left (fun h => by rw [h] at hne; exact Finset.not_nonempty_empty hne)
      · rw [hc, Finset.card_singleton]
        omega

private theorem fails_four {template : Sudoku} (e : TryEnv template) (hw : template.bw = 2) (hh : template.bh = 2) (hc : template.count < 4) (k : Nat) :
    Fails e k := by
  obtain ⟨sol, hsol, -, his⟩ := createSolution_spec (e.hcreate k) (e.hchoices k) e.hf
  refine ⟨sol, hsol, fun hu => ?_⟩
  have h1 : 3 < (Few.filledIdx 2 2 fun a => if template.get a = 0 then 0 else sol.get a).length := by
    rw [hw, hh] at hu
    exact Few.lower Few.checked22 hu
  rw [Few.count_eq, hw, hh] at hc
  have : Few.filledIdx 2 2 (fun a => if template.get a = 0 then 0 else sol.get a) = Few.filledIdx 2 2 template.get := by
    unfold Few.filledIdx
    refine List.filter_congr fun i hi => ?_
    have hin := Few.inGrid_cellAt (w := 2) (h := 2) (List.mem_range.1 hi)
    have hn := his.full _ (by rw [hw, hh]; exact hin)
    unfold IsNumber at hn
    by_cases h0 : template.get (Few.cellAt (2 * 2) i) = 0
    · simp [h0]
    · have : sol.get (Few.cellAt (2 * 2) i) ≠ 0 := by omega
      simp [h0, this]
  rw [this] at h1
  omega

/-- **C119** With a 4x4 template of at most three filled fields no try succeeds: `RuntimeError` is raised after `tries >= 0` tries, ... -/
theorem C119_template_error (template : Sudoku) (e : TryEnv template) (rounds tries : Nat) (hr : tries < rounds) (hw : template.bw = 2)
    (hh : template.bh = 2) (hc : template.count < 4) : generateFromTemplate e.fuel rounds e.f template tries = .error .RuntimeError :=
  (C40_gives_up template e rounds tries hr).2 fun k _ => fails_four e hw hh hc k

/-- **C119** ... and with `tries < 0` the call goes on for ever. -/
theorem C119_template_endless (template : Sudoku) (e : TryEnv template) (rounds : Nat) (tries : Int) (ht : tries < 0) (hw : template.bw = 2)
    (hh : template.bh = 2) (hc : template.count < 4) : generateFromTemplate e.fuel rounds e.f template tries = .ok none :=
  C40_endless template e rounds tries ht fun k _ => fails_four e hw hh hc k

/-! ## Samples -/

/-- Four clues are enough: `1 . . 4` in the first row and `. 3 2 .` in the last one. -/
example : (given [0, 3, 13, 14]).count = 4 ∧ UniqueSolution 2 2 (given [0, 3, 13, 14]).get :=
  ⟨by decide +kernel, order_unique (n := 4) (by omega)⟩

/-- The general bound of C102 is three; a sudoku with three clues that are spread as described there has more than one solution. -/
example : ¬ UniqueSolution 2 2 (given [0, 6, 13]).get := fun h => by
  have := four (s := given [0, 6, 13]) rfl rfl h
  revert this
  decide +kernel

/-- By default, `generate(box_size=(2, 2))` returns 4, 5 or 6 clues; with `min_count=10` it returns 10. -/
example : (∃ (e : Env 2 2) (t : Sudoku), e.generate 0 none = .ok (some t) ∧ t.count = 6) ∧
    (∃ (e : Env 2 2) (t : Sudoku), e.generate 10 none = .ok (some t) ∧ t.count = 10) ∧
    ¬ ∃ (e : Env 2 2) (t : Sudoku), e.generate 0 none = .ok (some t) ∧ t.count = 7 := by
  rw [C119_exactly 0 (by omega), C119_exactly 10 (by omega), C119_exactly 0 (by omega)]
  omega

end Props
