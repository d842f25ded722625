import Verif.Proofs.Complete
import Verif.Props.Solvers

set_option autoImplicit false

/-!
# What is found: C59 - C66

The steps of each class, listed for a sudoku that is not changed meanwhile (`list(cls.find(s))`), are exactly the ones
described in `Verif.FindSpec`; none is missing.  Together with C23 - C28 (what is found is right).
-/

open Spec Solvers

namespace Props

/-! ## C59, C60: one field each -/

/-- **C59** `CalculateCandidates` finds exactly the fields without candidates, field by field, and gives each the admissible
numbers. -/
theorem C59_calculate (π : Orders Watch) (s : Sudoku) :
    ∃ L, Lists π .calculateCandidates s L ∧ FieldByField L ∧ ∀ st, st ∈ L ↔ CalcStep s st := by
  obtain ⟨L, h1, h2, h3⟩ := finds_calc s []
  exact ⟨L, congrArg Except.ok h1, h2, h3⟩

example : ∃ st, CalcStep twoClues st :=
  ⟨_, (0, 0), {1, 2, 4}, by decide +kernel, by decide +kernel, by
    intro v
    unfold Admissible
    rw [if_pos (by decide +kernel), ← Props.C13_empty _ _ (by decide +kernel) (by decide +kernel)]
    revert v
    have : Solve.calcCandidates twoClues (0, 0) = {1, 2, 4} := by decide +kernel
    simp [this], describes_mkSet (List.nodup_singleton _) (List.nodup_singleton _)⟩

/-- **C60** `NakedSingle` finds exactly the empty fields with one candidate, field by field. -/
theorem C60_naked_single (π : Orders Watch) (s : Sudoku) :
    ∃ L, Lists π .nakedSingle s L ∧ FieldByField L ∧ ∀ st, st ∈ L ↔ NakedSingleStep s st := by
  obtain ⟨L, h1, h2, h3⟩ := finds_nakedSingle s []
  exact ⟨L, congrArg Except.ok h1, h2, h3⟩

example : NakedSingleStep exNakedSingle (Step.single .nakedSingle (0, 0) 1) :=
  ⟨(0, 0), 1, by decide +kernel, by decide +kernel, by decide +kernel, describes_single⟩

/-! ## C61 -/

/-- **C61** `HiddenSingle` finds one step for each empty field that has a number with no other place in its column, row or
box, and nothing else; field by field. -/
theorem C61_hidden_single (π : Orders Watch) (hπ : π.Ok) (s : Sudoku) :
    ∃ L, Lists π .hiddenSingle s L ∧ FieldByField L ∧ (∀ st ∈ L, HiddenSingleStep s st) ∧
      ∀ a k v, InGrid s.bw s.bh a → s.get a = 0 → OnlyPlace s k a v → ∃ st ∈ L, st.clues = [a] := by
  obtain ⟨L, h1, h2, h3, h4⟩ := finds_hiddenSingle s hπ []
  exact ⟨L, congrArg Except.ok h1, h2, h3, h4⟩

example : exHiddenSingle.get (0, 0) = 0 ∧ OnlyPlace exHiddenSingle .row (0, 0) 1 ∧ ¬ OnlyPlace exHiddenSingle .column (0, 0) 1 := by
  unfold OnlyPlace IsNumber
  decide +kernel

/-- **C61** The class does not look at the candidates of the field itself, as its documentation says ("a field containing a
candidate which exists in no other fields"): a number is found although it is not a candidate. -/
theorem C61_not_a_candidate : ∃ s : Sudoku, ∃ L, Lists (plainWatch Watch) .hiddenSingle s L ∧
    ∃ st ∈ L, st.clues = [(0, 0)] ∧ st.values = [1] ∧ (1 : Int) ∉ s.getCandidates (0, 0) := by
  refine ⟨withCands [((0, 0), {2, 3, 4}), ((0, 1), {2, 3, 4}), ((0, 2), {2, 3}), ((0, 3), {2, 4})], ?_⟩
  obtain ⟨L, h1, -, h3, h4⟩ := C61_hidden_single (plainWatch Watch) (plainWatch_ok _)
    (withCands [((0, 0), {2, 3, 4}), ((0, 1), {2, 3, 4}), ((0, 2), {2, 3}), ((0, 3), {2, 4})])
  refine ⟨L, h1, ?_⟩
  obtain ⟨st, hst, hc⟩ := h4 (0, 0) .row 1 (by decide +kernel) (by decide +kernel) (by unfold OnlyPlace IsNumber; decide +kernel)
  refine ⟨st, hst, hc, ?_, by decide +kernel⟩
  obtain ⟨a, k, v, ha, h0, ho, hf, hd⟩ := h3 st hst
  have haa : a = (0, 0) := by
    have := hd.clues
    rw [hc] at this
    simpa using this.symm
  subst haa
  have hv : v = 1 := by
    have hn : ∀ k : Line, ∀ v, OnlyPlace (withCands [((0, 0), {2, 3, 4}), ((0, 1), {2, 3, 4}), ((0, 2), {2, 3}), ((0, 3), {2, 4})]) k (0, 0) v → v = 1 := by
      intro k v h
      have h1 : 1 ≤ v ∧ v ≤ 4 := h.1
      obtain ⟨h2, h3⟩ := h1
      revert h
      interval_cases v <;> cases k <;> (unfold OnlyPlace IsNumber; decide +kernel)
    exact hn k v ho
  subst hv
  have := describes_single (k := .hiddenSingle) (a := (0, 0)) (v := 1)
  rw [hd.unique this]
  rfl

/-! ## C62 -/

/-- **C62** `NakedTuple` finds every naked tuple, for every size; no fields are named twice. -/
theorem C62_naked_tuple (π : Orders Watch) (n : Nat) (s : Sudoku) :
    ∃ L, Lists π (.nakedTuple n) s L ∧ (L.map Step.clues).Nodup ∧ ∀ st, st ∈ L ↔ NakedTupleStep s n st := by
  obtain ⟨L, h1, h2, h3⟩ := finds_nakedTupleStep s n []
  exact ⟨L, congrArg Except.ok h1, h2, h3⟩

/-- **C62** So for every naked tuple in a unit with an empty field there is a step that names it. -/
theorem C62_none_missed (π : Orders Watch) (n : Nat) (s : Sudoku) (k : Line) (e : Cell) (F : Finset Cell)
    (he : InGrid s.bw s.bh e) (h0 : s.get e = 0) (hF : NakedPattern s n k e F) :
    ∃ L, Lists π (.nakedTuple n) s L ∧ ∃ st ∈ L, st.clues.toFinset = F ∧ st.values.toFinset = F.biUnion s.getCandidates := by
  obtain ⟨L, h1, -, h3⟩ := C62_naked_tuple π n s
  refine ⟨L, h1, ?_⟩
  obtain ⟨k₀, e₀, he₀, h00, hF₀, hmin⟩ : ∃ k₀ e₀, InGrid s.bw s.bh e₀ ∧ s.get e₀ = 0 ∧ NakedPattern s n k₀ e₀ F ∧
      ∀ k', k'.rank < k₀.rank → ∀ e', InGrid s.bw s.bh e' → s.get e' = 0 → ¬ NakedPattern s n k' e' F := by
    by_cases hr : ∃ e', InGrid s.bw s.bh e' ∧ s.get e' = 0 ∧ NakedPattern s n .row e' F
    · obtain ⟨e', h1, h2, h3⟩ := hr
      exact ⟨.row, e', h1, h2, h3, fun k' hk' => absurd hk' (by cases k' <;> decide)⟩
    · by_cases hc : ∃ e', InGrid s.bw s.bh e' ∧ s.get e' = 0 ∧ NakedPattern s n .column e' F
      · obtain ⟨e', h1, h2, h3⟩ := hc
        refine ⟨.column, e', h1, h2, h3, fun k' hk' e'' h1' h2' h3' => ?_⟩
        cases k' with
        | row => exact hr ⟨e'', h1', h2', h3'⟩
        | column => exact absurd hk' (by decide)
        | box => exact absurd hk' (by decide)
      · refine ⟨k, e, he, h0, hF, fun k' hk' e'' h1' h2' h3' => ?_⟩
        cases k' with
        | row => exact hr ⟨e'', h1', h2', h3'⟩
        | column => exact hc ⟨e'', h1', h2', h3'⟩
        | box => exact absurd hk' (by cases k <;> decide)
  have hd := describes_mkSet (k := .nakedTuple n) (values := F.biUnion s.getCandidates) (clues := F.toList)
      (affected := (nakedTargets s k₀ e₀ F).toList) F.nodup_toList (Finset.nodup_toList _)
  simp only [Finset.toList_toFinset] at hd
  exact ⟨_, (h3 _).2 ⟨k₀, e₀, F, he₀, h00, hF₀, hmin, hd⟩, hd.clues, hd.values⟩

example : exNakedTuple.get (0, 0) = 0 ∧ NakedPattern exNakedTuple 2 .row (0, 0) {(0, 0), (0, 1)} :=
  ⟨by decide +kernel, by decide +kernel, by decide +kernel, by decide +kernel, by decide +kernel, by decide +kernel⟩

/-- **C62** The eliminations in a box are missed if the same fields were already named for a row: the pair in the fields
(0, 0) and (0, 1) is a naked pair of the box, too, but only the row is cleared. -/
theorem C62_box_dropped : NakedPattern exNakedTuple 2 .box (0, 0) {(0, 0), (0, 1)} ∧
    ∀ π L, Lists π (.nakedTuple 2) exNakedTuple L → ∀ st ∈ L, st.clues.toFinset = {(0, 0), (0, 1)} → (1, 0) ∉ st.affected := by
  refine ⟨⟨by decide +kernel, by decide +kernel, by decide +kernel, by decide +kernel, by decide +kernel⟩, ?_⟩
  intro π L hL st hst hc ha
  obtain ⟨L', hL', -, h⟩ := C62_naked_tuple π 2 exNakedTuple
  have : L = L' := by
    unfold Lists at hL hL'
    rw [hL] at hL'
    have := congrArg Prod.snd (Except.ok.inj hL')
    exact List.map_injective_iff.2 (fun a b h => (Prod.ext_iff.1 h).2) this
  subst this
  obtain ⟨k, e, F, -, -, hp, hmin, hd⟩ := (h st).1 hst
  have hF : F = {(0, 0), (0, 1)} := by rw [← hd.clues, hc]
  subst hF
  have hrow : NakedPattern exNakedTuple 2 .row (0, 0) {(0, 0), (0, 1)} :=
    ⟨by decide +kernel, by decide +kernel, by decide +kernel, by decide +kernel, by decide +kernel⟩
  have hk : k = .row := by
    cases k with
    | row => rfl
    | column => exact absurd hrow (hmin .row (by decide) (0, 0) (by decide +kernel) (by decide +kernel))
    | box => exact absurd hrow (hmin .row (by decide) (0, 0) (by decide +kernel) (by decide +kernel))
  subst hk
  have h1 : (1, 0) ∈ nakedTargets exNakedTuple .row e {(0, 0), (0, 1)} := by
    rw [← hd.affected, List.mem_toFinset]; exact ha
  have h2 : e.1 = 1 := (mem_unitFields.1 (Finset.mem_filter.1 h1).1).2
  have h3 : e.1 = 0 := (mem_unitFields.1 (hp.sub (show ((0, 0) : Cell) ∈ _ by decide))).2
  omega

/-! ## C63 -/

/-- **C63** `HiddenTuple` finds exactly the hidden tuples in units with an empty field, for every size. -/
theorem C63_hidden_tuple (π : Orders Watch) (n : Nat) (s : Sudoku) :
    ∃ L, Lists π (.hiddenTuple n) s L ∧ ∀ st, st ∈ L ↔ HiddenTupleStep s n st := by
  obtain ⟨L, h1, h2, -⟩ := finds_hiddenTuple s n []
  exact ⟨L, congrArg Except.ok h1, h2⟩

example : HiddenPattern exHiddenTuple 2 .row (0, 0) {1, 2} :=
  ⟨by decide +kernel, by unfold IsNumber; decide +kernel, by decide +kernel, by decide +kernel⟩

/-- **C63** Each step is listed once for every place of its numbers, for every kind of unit its unit is of. -/
theorem C63_multiplicity (π : Orders Watch) (n : Nat) (s : Sudoku) (L : List Step) (hL : Lists π (.hiddenTuple n) s L) (st : Step)
    (hst : st ∈ L) : L.count st = ([Line.row, .column, .box].countP fun k => decide (IsUnit s st.clues k)) * hiddenTimes s st := by
  obtain ⟨L', h1, -, h3⟩ := finds_hiddenTuple s n []
  have h1' : Lists π (.hiddenTuple n) s L' := congrArg Except.ok h1
  obtain rfl : L = L' := by
    unfold Lists at hL h1'
    rw [hL] at h1'
    exact List.map_injective_iff.2 (fun a b h => (Prod.ext_iff.1 h).2) (congrArg Prod.snd (Except.ok.inj h1'))
  exact h3 st hst

/-- **C63** In an ordinary grid: once for every place, so at least twice. -/
theorem C63_at_least_twice (π : Orders Watch) (n : Nat) (hn : 0 < n) (s : Sudoku) (hw : 1 < s.bw) (hh : 1 < s.bh) (L : List Step)
    (hL : Lists π (.hiddenTuple n) s L) (st : Step) (hst : st ∈ L) : L.count st = hiddenTimes s st ∧ 2 ≤ L.count st := by
  obtain ⟨L', h1, h2⟩ := C63_hidden_tuple π n s
  obtain rfl : L = L' := by
    unfold Lists at hL h1
    rw [hL] at h1
    exact List.map_injective_iff.2 (fun a b h => (Prod.ext_iff.1 h).2) (congrArg Prod.snd (Except.ok.inj h1))
  obtain ⟨k, e, V, he, h0, hV, hd⟩ := (h2 st).1 hst
  have hself : e ∈ unitFields s k e := by rw [← mem_unitOf he]; exact mem_unitOf_self s _ he
  have hk : ∀ k', IsUnit s st.clues k' ↔ k' = k := by
    intro k'
    constructor
    · intro h
      have := h e (by rw [← List.mem_toFinset, hd.clues]; exact hself)
      rw [hd.clues] at this
      exact isUnit_one hw hh he this
    · rintro rfl a ha
      rw [hd.clues]
      rw [← List.mem_toFinset, hd.clues] at ha
      exact (unitFields_eq (mem_unitFields.1 ha).2).symm
  have hone : ([Line.row, .column, .box].countP fun k' => decide (IsUnit s st.clues k')) = 1 := by
    simp only [List.countP_cons, List.countP_nil, decide_eq_true_eq, hk]
    cases k <;> rfl
  have hm := C63_multiplicity π n s L hL st hst
  rw [hone, Nat.one_mul] at hm
  refine ⟨hm, ?_⟩
  rw [hm, hiddenTimes_eq hd]
  obtain ⟨v, hv⟩ := Finset.card_pos.1 (show 0 < V.card by rw [hV.card]; exact hn)
  have := (hV.each v hv).2.1
  have h3 : (places s k e v).card ≤ (V.biUnion (places s k e)).card :=
    Finset.card_le_card (Finset.subset_biUnion_of_mem (places s k e) hv)
  omega

/-- **C63** The same step is listed several times. -/
theorem C63_repeats : ∃ s : Sudoku, ∀ π L, Lists π (.hiddenTuple 2) s L → ¬ L.Nodup := by
  refine ⟨exHiddenTuple, fun π L h hnd => ?_⟩
  have h1 : (findHiddenTuple Prod.fst (watch leave) 2 (exHiddenTuple, [])).2 = L.map fun st => (exHiddenTuple, st) :=
    congrArg Prod.snd (Except.ok.inj h)
  have h2 : ((findHiddenTuple Prod.fst (watch leave) 2 (exHiddenTuple, [])).2.map fun p => p.2).Nodup := by
    rw [h1, List.map_map]
    simpa [Function.comp_def] using hnd
  revert h2
  decide +kernel

/-! ## C64 -/

/-- **C64** `PointingTuple` finds exactly the pointing tuples: from a box into a row or column and from a row or column into a
box, for every size of at least 2; each once. -/
theorem C64_pointing_tuple (π : Orders Watch) (n : Nat) (hn : 2 ≤ n) (s : Sudoku) :
    ∃ L, Lists π (.pointingTuple n) s L ∧ L.Nodup ∧ ∀ st, st ∈ L ↔ PointingTupleStep s n st := by
  obtain ⟨L, h1, h2, h3⟩ := finds_pointing s hn []
  exact ⟨L, congrArg Except.ok h1, h3, h2⟩

example : PointingPattern exPointing 2 .box .row (0, 0) (0, 1) 1 :=
  ⟨by unfold IsNumber; decide +kernel, by decide +kernel, by decide +kernel, by decide +kernel, by decide +kernel⟩
example : PointingPattern exPointing 2 .row .box (1, 1) (1, 2) 1 :=
  ⟨by unfold IsNumber; decide +kernel, by decide +kernel, by decide +kernel, by decide +kernel, by decide +kernel⟩

/-! ## C65 -/

/-- **C65** `BasicFish` finds exactly the fishes by rows and by columns, each once, for every size (for `n = 0` the code would raise
`ValueError`; the classes have 2, 3 and 4). -/
theorem C65_basic_fish (π : Orders Watch) (hπ : π.Ok) (n : Nat) (_hn : 0 < n) (s : Sudoku) :
    ∃ L, Lists π (.basicFish n) s L ∧ L.Nodup ∧ ∀ st, st ∈ L ↔ FishStep s n st := by
  obtain ⟨L, h1, h2, h3⟩ := finds_fish s hπ n []
  exact ⟨L, congrArg Except.ok h1, h3, h2⟩

example : FishPattern exFish 2 true 1 {0, 3} :=
  ⟨by unfold IsNumber; decide +kernel, by decide +kernel, by decide +kernel, by decide +kernel, by decide +kernel, by decide +kernel,
    by decide +kernel⟩
example : FishPattern exFish 2 false 1 {2, 3} :=
  ⟨by unfold IsNumber; decide +kernel, by decide +kernel, by decide +kernel, by decide +kernel, by decide +kernel, by decide +kernel,
    by decide +kernel⟩

/-! ## C66 -/

/-- The classes whose steps are hints. -/
def hintKinds : List Kind :=
  [.calculateCandidates, .nakedSingle, .hiddenSingle, .nakedTuple 2, .hiddenTuple 2, .nakedTuple 3, .hiddenTuple 3,
   .nakedTuple 4, .hiddenTuple 4, .nakedTuple 5, .hiddenTuple 5, .pointingTuple 2, .pointingTuple 3,
   .basicFish 2, .basicFish 3, .basicFish 4]

/-- **C66** `list(hints(s))` consists of all steps of the classes, simple classes first, and no bruteforce. -/
theorem C66_hints (π : Orders Watch) (hπ : π.Ok) (s : Sudoku) :
    ∃ Ls : List (List Step), hints Prod.fst (watch leave) π (s, []) = (s, Ls.flatten.map fun st => (s, st)) ∧
      List.Forall₂ (Complete s) hintKinds Ls := by
  unfold hints
  rw [show solvers = hintKinds ++ [.bruteforce] by decide]
  refine complete_hints hπ s hintKinds (by decide) (fun w => if_pos rfl) (fun w w' k hk h => ?_) []
  rw [if_neg hk, h]

/-- There is a naked pair (the hints for this sudoku are listed at C29). -/
example : ∃ st, NakedTupleStep exNakedTuple 2 st :=
  ⟨Step.mkSet (.nakedTuple 2) ({(0, 0), (0, 1)} : Finset Cell).toList (nakedTargets exNakedTuple .row (0, 0) {(0, 0), (0, 1)}).toList
      (({(0, 0), (0, 1)} : Finset Cell).biUnion exNakedTuple.getCandidates),
    .row, (0, 0), {(0, 0), (0, 1)}, by decide +kernel, by decide +kernel,
    ⟨by decide +kernel, by decide +kernel, by decide +kernel, by decide +kernel, by decide +kernel⟩,
    fun k' hk' => absurd hk' (by cases k' <;> decide), by
      have h := describes_mkSet (k := .nakedTuple 2) (values := ({(0, 0), (0, 1)} : Finset Cell).biUnion exNakedTuple.getCandidates)
        (Finset.nodup_toList ({(0, 0), (0, 1)} : Finset Cell))
        (Finset.nodup_toList (nakedTargets exNakedTuple .row (0, 0) {(0, 0), (0, 1)}))
      rw [Finset.toList_toFinset, Finset.toList_toFinset] at h
      exact h⟩

end Props
