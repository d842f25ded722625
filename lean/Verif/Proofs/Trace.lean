import Verif.Proofs.RateRun
import Verif.Proofs.RateScore
import Verif.Proofs.Deterministic

set_option autoImplicit false

/-! Helper lemmas: following `solve` round by round with tabled sudokus. -/

open Spec

namespace Solvers

/-! ## The searches only see the sudoku -/

section
variable {W W' : Type} {view : W → Sudoku} {κ : W → Step → W} {view' : W' → Sudoku} {κ' : W' → Step → W'} {φ : W → W'}

theorem foldl_hom' {α β γ : Type} {f : α → γ → α} {f' : β → γ → β} {φ : α → β} (h : ∀ x a, f' (φ x) a = φ (f x a)) (l : List γ) :
    ∀ x, l.foldl f' (φ x) = φ (l.foldl f x) := by
  induction l with
  | nil => intro x; rfl
  | cons a l ih => intro x; simp only [List.foldl_cons]; rw [h, ih]

theorem nakedSingle_hom (hv : ∀ x, view' (φ x) = view x) (hκ : ∀ x st, κ' (φ x) st = φ (κ x st)) (x : W) :
    findNakedSingle view' κ' (φ x) = φ (findNakedSingle view κ x) := by
  unfold findNakedSingle
  rw [hv]
  refine foldl_hom' (fun y a => ?_) _ x
  rw [hv]
  split
  · split
    · exact hκ _ _
    · rfl
  · rfl

theorem calc_hom (hv : ∀ x, view' (φ x) = view x) (hκ : ∀ x st, κ' (φ x) st = φ (κ x st)) (x : W) :
    findCalc view' κ' (φ x) = φ (findCalc view κ x) := by
  unfold findCalc
  rw [hv]
  refine foldl_hom' (fun y a => ?_) _ x
  rw [hv]
  split
  · rfl
  · exact hκ _ _

theorem hiddenUnits_hom {π : Orders W} {π' : Orders W'} (hπ : ∀ x, π'.hidden (φ x) = π.hidden x) (hv : ∀ x, view' (φ x) = view x)
    (hκ : ∀ x st, κ' (φ x) st = φ (κ x st)) (a : Cell) (ks : List Nat) : ∀ p : W × List Cell,
    hiddenUnits view' κ' π' a ks (φ p.1, p.2) = (φ (hiddenUnits view κ π a ks p).1, (hiddenUnits view κ π a ks p).2) := by
  induction ks with
  | nil => intro p; rfl
  | cons k ks ih =>
    intro p
    simp only [hiddenUnits]
    rw [hv, hπ]
    have e := foldl_hom' (φ := fun q : W × List Cell × Bool => ((φ q.1, q.2) : W' × List Cell × Bool))
      (f := fun q v => if a ∉ q.2.1 then (κ q.1 (Step.single .hiddenSingle a v), q.2.1 ++ [a], true) else q)
      (f' := fun q v => if a ∉ q.2.1 then (κ' q.1 (Step.single .hiddenSingle a v), q.2.1 ++ [a], true) else q)
      (fun y v => by
        dsimp only
        split
        · rw [hκ]
        · rfl) (π.hidden p.1 a k (hiddenCands (view p.1) (unitOf (view p.1) k a false))) (p.1, p.2, false)
    dsimp only at e
    rw [e]
    dsimp only
    split
    · rfl
    · exact ih (_, _)

theorem hiddenSingle_hom {π : Orders W} {π' : Orders W'} (hπ : ∀ x, π'.hidden (φ x) = π.hidden x) (hv : ∀ x, view' (φ x) = view x)
    (hκ : ∀ x st, κ' (φ x) st = φ (κ x st)) (x : W) : findHiddenSingle view' κ' π' (φ x) = φ (findHiddenSingle view κ π x) := by
  unfold findHiddenSingle
  rw [hv]
  refine congrArg Prod.fst (foldl_hom' (φ := fun p : W × List Cell => ((φ p.1, p.2) : W' × List Cell)) (fun y a => ?_) _ (x, []))
  dsimp only
  rw [hv]
  split
  · exact hiddenUnits_hom hπ hv hκ a _ y
  · rfl

theorem nakedAt_hom (hv : ∀ x, view' (φ x) = view x) (hκ : ∀ x st, κ' (φ x) st = φ (κ x st)) (n : Nat) (U : List Cell)
    (p : W × List (List Cell)) : nakedAt view' κ' n U (φ p.1, p.2) = (φ (nakedAt view κ n U p).1, (nakedAt view κ n U p).2) := by
  unfold nakedAt
  rw [hv]
  refine foldl_hom' (φ := fun p : W × List (List Cell) => ((φ p.1, p.2) : W' × List (List Cell))) (fun y a => ?_) _ p
  dsimp only
  rw [hv]
  split
  · split
    · split
      · rw [hκ]
      · rfl
    · rfl
  · rfl

theorem nakedTuple_hom (hv : ∀ x, view' (φ x) = view x) (hκ : ∀ x st, κ' (φ x) st = φ (κ x st)) (n : Nat) (x : W) :
    findNakedTuple view' κ' n (φ x) = φ (findNakedTuple view κ n x) := by
  unfold findNakedTuple
  refine congrArg Prod.fst (foldl_hom' (φ := fun p : W × List (List Cell) => ((φ p.1, p.2) : W' × List (List Cell))) (fun y a => ?_) _ (x, []))
  dsimp only
  rw [hv]
  exact foldl_hom' (φ := fun p : W × List (List Cell) => ((φ p.1, p.2) : W' × List (List Cell))) (fun z U => nakedAt_hom hv hκ n U z) _ y

theorem hiddenAt_hom (hv : ∀ x, view' (φ x) = view x) (hκ : ∀ x st, κ' (φ x) st = φ (κ x st)) (n : Nat) (U : List Cell) (x : W) :
    hiddenAt view' κ' n U (φ x) = φ (hiddenAt view κ n U x) := by
  unfold hiddenAt
  rw [hv]
  refine foldl_hom' (fun y a => ?_) _ x
  dsimp only
  split
  · refine foldl_hom' (fun z b => ?_) _ y
    rw [hv]
    split
    · exact hκ _ _
    · rfl
  · rfl

theorem hiddenTuple_hom (hv : ∀ x, view' (φ x) = view x) (hκ : ∀ x st, κ' (φ x) st = φ (κ x st)) (n : Nat) (x : W) :
    findHiddenTuple view' κ' n (φ x) = φ (findHiddenTuple view κ n x) := by
  unfold findHiddenTuple
  refine foldl_hom' (fun y a => ?_) _ x
  rw [hv]
  exact foldl_hom' (fun z U => hiddenAt_hom hv hκ n U z) _ y

theorem pointing_hom (hv : ∀ x, view' (φ x) = view x) (hκ : ∀ x st, κ' (φ x) st = φ (κ x st)) (n : Nat) (x : W) :
    findPointing view' κ' n (φ x) = φ (findPointing view κ n x) := by
  unfold findPointing
  dsimp only
  rw [hv, foldl_hom' (φ := φ) (f := fun w box => pointingInBox view κ n box w)]
  · refine foldl_hom' (fun y i => ?_) _ _
    unfold pointingInLine
    refine foldl_hom' (fun z k => ?_) _ y
    dsimp only
    rw [hv]
    refine foldl_hom' (fun u c => ?_) _ z
    rw [hv]
    split
    · rfl
    · split
      · split
        · exact hκ _ _
        · rfl
      · rfl
  · intro y box
    unfold pointingInBox
    dsimp only
    rw [hv]
    refine foldl_hom' (fun u c => ?_) _ y
    rw [hv]
    simp only [apply_ite φ, hκ]

theorem fish_hom {π : Orders W} {π' : Orders W'} (hπ : ∀ x, π'.fish (φ x) = π.fish x) (hv : ∀ x, view' (φ x) = view x)
    (hκ : ∀ x st, κ' (φ x) st = φ (κ x st)) (n : Nat) (x : W) : findFish view' κ' π' n (φ x) = φ (findFish view κ π n x) := by
  unfold findFish
  rw [hv]
  refine foldl_hom' (fun y p => ?_) _ x
  unfold fishFor
  dsimp only
  rw [hv, hπ]
  refine foldl_hom' (fun z p => ?_) _ y
  rw [hv]
  simp only [apply_ite φ, hκ]

theorem brute_hom {π : Orders W} {π' : Orders W'} (hπ : ∀ x, π'.dlx (φ x) = π.dlx x) (hv : ∀ x, view' (φ x) = view x)
    (hκ : ∀ x st, κ' (φ x) st = φ (κ x st)) (fuel : Nat) (x : W) :
    findBruteforce view' κ' π' fuel (φ x) = (findBruteforce view κ π fuel x).map φ := by
  unfold findBruteforce
  rw [hv, hπ]
  split
  · rfl
  · rfl
  · refine congrArg Except.ok (foldl_hom' (fun y a => ?_) _ x)
    rw [hv]
    split
    · exact hκ _ _
    · rfl

/-- What the searches do depends on the rest of the program only through the sudoku. -/
theorem find_hom {π : Orders W} {π' : Orders W'} (h₁ : ∀ x, π'.hidden (φ x) = π.hidden x) (h₂ : ∀ x, π'.fish (φ x) = π.fish x)
    (h₃ : ∀ x, π'.dlx (φ x) = π.dlx x) (hv : ∀ x, view' (φ x) = view x) (hκ : ∀ x st, κ' (φ x) st = φ (κ x st)) (fuel : Nat) (k : Kind) (x : W) :
    find view' κ' π' fuel k (φ x) = (find view κ π fuel k x).map φ := by
  cases k with
  | calculateCandidates => exact congrArg Except.ok (calc_hom hv hκ x)
  | nakedSingle => exact congrArg Except.ok (nakedSingle_hom hv hκ x)
  | hiddenSingle => exact congrArg Except.ok (hiddenSingle_hom h₁ hv hκ x)
  | bruteforce => exact brute_hom h₃ hv hκ fuel x
  | nakedTuple n => exact congrArg Except.ok (nakedTuple_hom hv hκ n x)
  | hiddenTuple n => exact congrArg Except.ok (hiddenTuple_hom hv hκ n x)
  | pointingTuple n => exact congrArg Except.ok (pointing_hom hv hκ n x)
  | basicFish n => exact congrArg Except.ok (fish_hom h₂ hv hκ n x)

end

/-- Orders that only depend on the sudoku. -/
structure LogFree (π : Orders Run) : Prop where
  hidden : ∀ s l l', π.hidden (s, l) = π.hidden (s, l')
  fish : ∀ s l l', π.fish (s, l) = π.fish (s, l')
  dlx : ∀ s l l', π.dlx (s, l) = π.dlx (s, l')

/-- A run with an empty log tells what happens with any log. -/
def after (l : List Step) (w : Run) : Run := (w.1, l ++ w.2)

theorem round_after {π : Orders Run} (hπ : LogFree π) (fuel : Nat) (l : List Step) (s : Sudoku) (ks : List Kind) :
    round π fuel ks (s, l) = (round π fuel ks (s, [])).map (Option.map (after l)) := by
  induction ks with
  | nil => rfl
  | cons k ks ih =>
    have e := find_hom (φ := after l) (view := Prod.fst) (view' := Prod.fst) (κ := consume) (κ' := consume) (π := π) (π' := π)
      (fun x => hπ.hidden _ _ _) (fun x => hπ.fish _ _ _) (fun x => hπ.dlx _ _ _) (fun _ => rfl)
      (fun x st => by simp [consume, after]) fuel k (s, [])
    rw [round, round]
    have e' : after l (s, []) = (s, l) := by simp [after]
    rw [e'] at e
    rw [e]
    cases hf : find Prod.fst consume π fuel k (s, []) with
    | error x => rfl
    | ok w =>
      simp only [Except.map, after, List.length_append, List.length_nil]
      by_cases hw : w.2.length > 0
      · rw [if_pos (by omega), if_pos hw]; rfl
      · rw [if_neg (by omega), if_neg hw]; exact ih

/-! ## Nothing outside the grid -/

/-- Nothing is stored outside the grid. -/
def Tidy (s : Sudoku) : Prop := ∀ a, ¬ InGrid s.bw s.bh a → s.num a = 0 ∧ s.cand a = ∅

theorem tidy_apply {s : Sudoku} (h : Tidy s) {st : Step} (hs : Shape s.bw s.bh st) : Tidy (Step.apply s st) := by
  intro b hb
  have hd := apply_dims s st
  rw [hd.1, hd.2] at hb
  obtain ⟨h1, h2⟩ := h b hb
  cases effect hs with
  | «calc» a hk ha e =>
    rw [e]
    refine ⟨h1, ?_⟩
    have : b ≠ a := fun e => hb (e ▸ ha)
    simp [Sudoku.setCandidates, this, h2]
  | fill a v hk ha e =>
    rw [e]
    have : b ≠ a := fun e => hb (e ▸ ha)
    simp [this, h1, h2]
  | remove R hk e => rw [e]; simp [h1, h2]

theorem tidy_find {π : Orders Run} (hπ : π.Ok) {fuel : Nat} {k : Kind} (hk : k ≠ .bruteforce) {w w' : Run} (hw : Tidy w.1)
    (h : find Prod.fst consume π fuel k w = .ok w') : Tidy w'.1 := by
  obtain ⟨y, h1, -, -, h2⟩ := find_inv hπ fuel hk (show Ctx Prod.fst consume w.1.bw w.1.bh k (fun _ => False)
    (fun x : Run => x.1.bw = w.1.bw ∧ x.1.bh = w.1.bh ∧ Tidy x.1) from
    { bw := fun _ t => t.1
      bh := fun _ t => t.2.1
      may := fun _ _ _ hg => hg.elim
      cons := fun _ _ _ hg => hg.elim
      step := by
        rintro x st ⟨h1, h2, h3⟩ e hst -
        have hd := apply_dims x.1 st
        exact ⟨hd.1.trans h1, hd.2.trans h2, tidy_apply h3 (Useful.shape hst.1)⟩ }) w ⟨rfl, rfl, hw⟩
  rw [h] at h1
  cases h1
  exact h2

/-! ## Tables -/

/-- A sudoku from the lists of its numbers and candidates. -/
def ofTable (w h : Nat) (nums : List Int) (cands : List (List Int)) : Sudoku :=
  { bw := w, bh := h
    num := fun a => if a.1 < w * h ∧ a.2 < w * h then nums.getD (a.1 * (w * h) + a.2) 0 else 0
    cand := fun a => if a.1 < w * h ∧ a.2 < w * h then (cands.getD (a.1 * (w * h) + a.2) []).toFinset else ∅ }

theorem ofTable_tidy (w h : Nat) (nums : List Int) (cands : List (List Int)) : Tidy (ofTable w h nums cands) := by
  intro a ha
  have : ¬ (a.1 < w * h ∧ a.2 < w * h) := ha
  simp [ofTable, this]

/-- The same size and contents. -/
def sameTable (s t : Sudoku) : Bool :=
  s.bw == t.bw && s.bh == t.bh && s.cells.all fun a => s.num a == t.num a && decide (s.cand a = t.cand a)

theorem eq_of_sameTable {s t : Sudoku} (hs : Tidy s) (ht : Tidy t) (h : sameTable s t = true) : s = t := by
  simp only [sameTable, Bool.and_eq_true, beq_iff_eq, List.all_eq_true, decide_eq_true_eq] at h
  obtain ⟨⟨h1, h2⟩, h3⟩ := h
  have key : ∀ a, s.num a = t.num a ∧ s.cand a = t.cand a := by
    intro a
    by_cases ha : InGrid s.bw s.bh a
    · exact h3 a ((Sudoku.mem_cells s).2 ha)
    · have e := hs a ha
      have e' := ht a (by rw [← h1, ← h2]; exact ha)
      exact ⟨e.1.trans e'.1.symm, e.2.trans e'.2.symm⟩
  ext1
  · exact h1
  · exact h2
  · exact funext fun a => (key a).1
  · exact funext fun a => (key a).2

/-- One round from `T` finds steps worth `n` points and ends in `T'`; it is the class `k` that finds them. -/
def roundTo (π : Orders Run) (fuel : Nat) (T T' : Sudoku) (n : Nat) : Bool :=
  match round π fuel solvers (T, []) with
  | .ok (some w) => sameTable w.1 T' && (w.2.map points).sum == n && w.2.all fun st => decide (st.kind ≠ .bruteforce)
  | _ => false

theorem loop_roundTo {π : Orders Run} (hπ : π.Ok) (hp : LogFree π) {fuel : Nat} {T T' : Sudoku} {n : Nat} (ht : Tidy T) (ht' : Tidy T')
    (h : roundTo π fuel T T' n = true) (rounds : Nat) (l : List Step) :
    ∃ L, loop π fuel (rounds + 1) (T, l) = loop π fuel rounds (T', l ++ L) ∧ (L.map points).sum = n := by
  unfold roundTo at h
  split at h
  · rename_i w hw
    simp only [Bool.and_eq_true, beq_iff_eq, List.all_eq_true, decide_eq_true_eq] at h
    obtain ⟨⟨h1, h2⟩, h3⟩ := h
    obtain ⟨k, -, -, h4, h5⟩ := round_idle hπ hw
    obtain ⟨L, h6, h7⟩ := find_log' hπ h4
    have hk : k ≠ .bruteforce := by
      cases L with
      | nil => rw [h6] at h5; simp at h5
      | cons st L =>
        rw [← h7 st (by simp)]
        exact h3 st (by rw [h6]; simp)
    have e := eq_of_sameTable (tidy_find hπ hk ht h4) ht' h1
    refine ⟨w.2, ?_, h2⟩
    rw [loop, round_after hp, hw]
    simp only [Except.map, Option.map, after, e]
  · exact absurd h (by simp)

/-- `k` rounds from `T` to `T'`, worth `n` points. -/
inductive Runs (π : Orders Run) (fuel : Nat) : Nat → Sudoku → Sudoku → Nat → Prop
  | nil (T : Sudoku) : Runs π fuel 0 T T 0
  | cons {k n m : Nat} {T T' T'' : Sudoku} (ht : Tidy T) (ht' : Tidy T') (h : roundTo π fuel T T' n = true) (hr : Runs π fuel k T' T'' m) :
      Runs π fuel (k + 1) T T'' (n + m)

theorem loop_runs {π : Orders Run} (hπ : π.Ok) (hp : LogFree π) {fuel k n : Nat} {T T' : Sudoku} (h : Runs π fuel k T T' n) :
    ∀ (rounds : Nat) (l : List Step), ∃ L, loop π fuel (rounds + k) (T, l) = loop π fuel rounds (T', l ++ L) ∧ (L.map points).sum = n := by
  induction h with
  | nil T => intro rounds l; exact ⟨[], by simp, rfl⟩
  | cons ht ht' h hr ih =>
    intro rounds l
    obtain ⟨L, h1, h2⟩ := loop_roundTo hπ hp ht ht' h (rounds + _) l
    obtain ⟨L', h3, h4⟩ := ih rounds (l ++ L)
    refine ⟨L ++ L', ?_, by rw [List.map_append, List.sum_append, h2, h4]⟩
    rw [← Nat.add_assoc, h1, h3, List.append_assoc]

theorem tidy_start (s : Sudoku) : Tidy (Solve.initCandidates s.copy true) := by
  rw [start_eq]
  intro a ha
  have ha : ¬ InGrid s.bw s.bh a := ha
  simp [ha]

/-- A solved sudoku with the candidates that belong to it. -/
theorem neat_full {T : Sudoku} (h : IsSolution T.bw T.bh T.num T.num) (hc : ∀ a ∈ T.cells, T.cand a = {T.num a}) : Neat T.num T where
  cons := ⟨h, fun a ha => by rw [hc a ((Sudoku.mem_cells T).2 ha)]; simp⟩
  filled a ha _ := hc a ((Sudoku.mem_cells T).2 ha)
  peers a b ha hb hp h0 := by
    rw [hc b ((Sudoku.mem_cells T).2 hb), Finset.mem_singleton]
    exact h.valid a b ha hb hp h0

/-- A run of `solve` with tabled sudokus gives the score. -/
theorem score_of_runs {π : Orders Run} (hπ : π.Ok) (hp : LogFree π) {fuel k n : Nat} {s T T' : Sudoku} (hs : Solvable s.bw s.bh s.num)
    (hf : s.empty.length < fuel) (hT : Tidy T) (h0 : sameTable (Solve.initCandidates s.copy true) T = true) (h : Runs π fuel k T T' n)
    (hend : IsSolution T'.bw T'.bh T'.num T'.num) (hc : ∀ a ∈ T'.cells, T'.cand a = {T'.num a}) (rounds : Nat)
    (hr : s.empty.length * (s.bw * s.bh + 1) < rounds) : score π fuel rounds s = .ok (some n) := by
  have e0 := eq_of_sameTable (tidy_start s) hT h0
  obtain ⟨w, h5, -, -, -, -, h6, -⟩ := solve_spec hπ s hs fuel rounds hf hr
  obtain ⟨L, h1, h2⟩ := loop_runs hπ hp h rounds []
  have h7 := solve_rounds h5 (rounds + k) (by omega)
  unfold solve at h7
  rw [e0, h1] at h7
  have he : T'.empty = [] := by
    refine empty_full fun a ha => ?_
    have := (hend.full a ha).1
    omega
  have h8 := loop_full hπ (by omega) (w := (T', [] ++ L)) (neat_full hend hc) he h7
  unfold score
  rw [h5]
  simp only
  rw [ratings_ok _ h6, h8]
  exact congrArg (fun x => Except.ok (some x)) h2

end Solvers
