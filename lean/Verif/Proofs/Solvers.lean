import Verif.FindSpec
import Verif.Proofs.DlxSearch

set_option autoImplicit false

/-! Helper lemmas: the steps found are true of all solutions and useful. -/

open Spec

namespace Solvers

/-! ### sorting -/

theorem mem_sortCells {l : List Cell} {a : Cell} : a ∈ sortCells l ↔ a ∈ l := List.mem_insertionSort _
theorem mem_sortInts {l : List Int} {a : Int} : a ∈ sortInts l ↔ a ∈ l := List.mem_insertionSort _

theorem sortSet_coe (l : List Int) (h : l.Nodup) : sortSet ⟨l, h⟩ = sortInts l := rfl

theorem exists_list (S : Finset Int) : ∃ (l : List Int) (h : l.Nodup), S = ⟨(l : Multiset Int), h⟩ := by
  obtain ⟨m, h⟩ := S
  induction m using Quot.ind with
  | mk l => exact ⟨l, h, rfl⟩

theorem mem_sortSet {S : Finset Int} {v : Int} : v ∈ sortSet S ↔ v ∈ S := by
  obtain ⟨l, h, rfl⟩ := exists_list S
  rw [sortSet_coe, mem_sortInts]; rfl

theorem length_sortSet (S : Finset Int) : (sortSet S).length = S.card := by
  obtain ⟨l, h, rfl⟩ := exists_list S
  rw [sortSet_coe]
  exact List.length_insertionSort _ l

theorem sortCells_single (a : Cell) : sortCells [a] = [a] := rfl
theorem sortInts_single (a : Int) : sortInts [a] = [a] := rfl

/-! ### combinations -/

theorem mem_combos {α : Type} (n : Nat) (l l' : List α) (h : l' ∈ combos n l) : l'.Sublist l ∧ l'.length = n := by
  induction l generalizing n l' with
  | nil =>
    cases n with
    | zero => simp only [combos, List.mem_singleton] at h; subst h; simp
    | succ n => simp [combos] at h
  | cons x l ih =>
    cases n with
    | zero => simp only [combos, List.mem_singleton] at h; subst h; simp
    | succ n =>
      simp only [combos, List.mem_append, List.mem_map] at h
      rcases h with ⟨l'', h, rfl⟩ | h
      · obtain ⟨h1, h2⟩ := ih n l'' h
        exact ⟨h1.cons_cons x, by simp [h2]⟩
      · obtain ⟨h1, h2⟩ := ih (n + 1) l' h
        exact ⟨h1.cons x, h2⟩

/-! ### units -/

/-- `U` lists a unit of kind `k`. -/
def IsLine (w h : Nat) (k : Line) (U : List Cell) : Prop := ∃ e, InGrid w h e ∧ ∀ a, a ∈ U ↔ InGrid w h a ∧ Share w h k e a

/-- A row, column or box. -/
structure UnitLike (w h : Nat) (U : List Cell) : Prop where
  nodup : U.Nodup
  len : U.length = w * h
  inG : ∀ a ∈ U, InGrid w h a
  peers : ∀ a ∈ U, ∀ b ∈ U, a ≠ b → Peer w h a b
  line : ∃ k, IsLine w h k U

theorem line_row (s : Sudoku) {a : Cell} (ha : a.1 < s.bw * s.bh) : IsLine s.bw s.bh .row (s.rowOf a) := by
  refine ⟨(a.1, a.1), ⟨ha, ha⟩, fun b => ?_⟩
  rw [Sudoku.mem_rowOf]
  constructor
  · rintro ⟨h1, h2, -⟩; exact ⟨⟨h1 ▸ ha, h2⟩, h1.symm⟩
  · rintro ⟨h1, h2⟩; exact ⟨h2.symm, h1.2, Or.inl rfl⟩

theorem line_col (s : Sudoku) {a : Cell} (ha : a.2 < s.bw * s.bh) : IsLine s.bw s.bh .column (s.columnOf a) := by
  refine ⟨(a.2, a.2), ⟨ha, ha⟩, fun b => ?_⟩
  rw [Sudoku.mem_columnOf]
  constructor
  · rintro ⟨h1, h2, -⟩; exact ⟨⟨h2, h1 ▸ ha⟩, h1.symm⟩
  · rintro ⟨h1, h2⟩; exact ⟨h2.symm, h1.1, Or.inl rfl⟩

theorem line_box (s : Sudoku) {a : Cell} (ha : InGrid s.bw s.bh a) : IsLine s.bw s.bh .box (s.boxOf a) := by
  refine ⟨a, ha, fun b => ?_⟩
  rw [Sudoku.mem_boxOf s ha]
  exact ⟨fun h => ⟨Geometry.sameBox_inGrid ha h, h⟩, fun h => h.2⟩

theorem unit_row (s : Sudoku) {a : Cell} (ha : a.1 < s.bw * s.bh) : UnitLike s.bw s.bh (s.rowOf a) := by
  refine ⟨s.nodup_rowOf, by simp [Sudoku.rowOf, Sudoku.indices, Sudoku.n], ?_, ?_, ?_⟩
  · intro b hb; rw [Sudoku.mem_rowOf] at hb; exact ⟨hb.1 ▸ ha, hb.2.1⟩
  · intro b hb c hc hne; rw [Sudoku.mem_rowOf] at hb hc; exact ⟨hne, Or.inl (hb.1.trans hc.1.symm)⟩
  · exact ⟨_, line_row s ha⟩

theorem unit_col (s : Sudoku) {a : Cell} (ha : a.2 < s.bw * s.bh) : UnitLike s.bw s.bh (s.columnOf a) := by
  refine ⟨s.nodup_columnOf, by simp [Sudoku.columnOf, Sudoku.indices, Sudoku.n], ?_, ?_, ?_⟩
  · intro b hb; rw [Sudoku.mem_columnOf] at hb; exact ⟨hb.2.1, hb.1 ▸ ha⟩
  · intro b hb c hc hne; rw [Sudoku.mem_columnOf] at hb hc; exact ⟨hne, Or.inr (Or.inl (hb.1.trans hc.1.symm))⟩
  · exact ⟨_, line_col s ha⟩

theorem unit_box (s : Sudoku) {a : Cell} (ha : InGrid s.bw s.bh a) : UnitLike s.bw s.bh (s.boxOf a) := by
  refine ⟨s.nodup_boxOf, ?_, ?_, ?_, ⟨_, line_box s ha⟩⟩
  · unfold Sudoku.boxOf
    simp only [Bool.not_true, Bool.false_eq_true, if_false]
    rw [Geometry.length_boxList, Nat.mul_comm]
  · intro b hb; rw [Sudoku.mem_boxOf s ha] at hb; exact Geometry.sameBox_inGrid ha hb
  · intro b hb c hc hne
    rw [Sudoku.mem_boxOf s ha] at hb hc
    exact ⟨hne, Or.inr (Or.inr ⟨hb.1.symm.trans hc.1, hb.2.symm.trans hc.2⟩)⟩

theorem unit_of (s : Sudoku) (k : Nat) {a : Cell} (ha : InGrid s.bw s.bh a) : UnitLike s.bw s.bh (unitOf s k a true) := by
  unfold unitOf
  split
  · exact unit_col s ha.2
  · exact unit_row s ha.1
  · exact unit_box s ha

theorem mem_unitOf_self (s : Sudoku) (k : Nat) {a : Cell} (ha : InGrid s.bw s.bh a) : a ∈ unitOf s k a true := by
  unfold unitOf
  split
  · rw [Sudoku.mem_columnOf]; exact ⟨rfl, ha.1, Or.inl rfl⟩
  · rw [Sudoku.mem_rowOf]; exact ⟨rfl, ha.2, Or.inl rfl⟩
  · rw [Sudoku.mem_boxOf s ha]; exact ⟨rfl, rfl⟩

theorem mem_unitOf_false (s : Sudoku) (k : Nat) {a b : Cell} (ha : InGrid s.bw s.bh a) :
    b ∈ unitOf s k a false ↔ b ∈ unitOf s k a true ∧ b ≠ a := by
  unfold unitOf
  split
  · rw [Sudoku.mem_columnOf, Sudoku.mem_columnOf]
    constructor
    · rintro ⟨h1, h2, h3 | h3⟩
      · cases h3
      · exact ⟨⟨h1, h2, Or.inl rfl⟩, fun e => h3 (e ▸ rfl)⟩
    · rintro ⟨⟨h1, h2, -⟩, h3⟩
      exact ⟨h1, h2, Or.inr fun e => h3 (Prod.ext e h1)⟩
  · rw [Sudoku.mem_rowOf, Sudoku.mem_rowOf]
    constructor
    · rintro ⟨h1, h2, h3 | h3⟩
      · cases h3
      · exact ⟨⟨h1, h2, Or.inl rfl⟩, fun e => h3 (e ▸ rfl)⟩
    · rintro ⟨⟨h1, h2, -⟩, h3⟩
      exact ⟨h1, h2, Or.inr fun e => h3 (Prod.ext h1 e)⟩
  · rw [Sudoku.mem_boxOf_false s ha, Sudoku.mem_boxOf s ha, and_comm]

theorem unit_inj {w h : Nat} {g : Grid} (full : ∀ a, InGrid w h a → IsNumber w h (g a)) (valid : NoConflict w h g)
    {U : List Cell} (hU : UnitLike w h U) {a b : Cell} (ha : a ∈ U) (hb : b ∈ U) (e : g a = g b) : a = b := by
  by_contra hne
  have h0 : g a ≠ 0 := by have := (full a (hU.inG a ha)).1; omega
  exact valid a b (hU.inG a ha) (hU.inG b hb) (hU.peers a ha b hb hne) h0 e

theorem unit_surj {w h : Nat} {g : Grid} (full : ∀ a, InGrid w h a → IsNumber w h (g a)) (valid : NoConflict w h g)
    {U : List Cell} (hU : UnitLike w h U) {v : Int} (hv : IsNumber w h v) : ∃ a ∈ U, g a = v :=
  Geometry.unit_surj full valid U hU.nodup hU.len hU.inG hU.peers v hv

/-! ### running a generator -/

/-- A step that is true of all `g` in `G` and useful now. -/
def Good (G : Grid → Prop) (s : Sudoku) (st : Step) : Prop := Useful s st ∧ ∀ g, G g → TrueOf g st

/-- Why a step was found, as far as the candidates of the sudoku are concerned. -/
def Justified (s : Sudoku) (st : Step) : Prop :=
  match st.kind with
  | .calculateCandidates | .bruteforce => True
  | .nakedSingle => ∃ a v, st.affected = [a] ∧ st.values = [v] ∧ InGrid s.bw s.bh a ∧ s.cand a = {v}
  | .hiddenSingle => ∃ a v k, st.affected = [a] ∧ st.values = [v] ∧ InGrid s.bw s.bh a ∧ OnlyPlace s k a v
  | .nakedTuple n => ∃ k U F, IsLine s.bw s.bh k U ∧ F ⊆ U ∧ F.Nodup ∧ F.length = n ∧ (∀ a ∈ F, s.cand a ⊆ st.values.toFinset) ∧
      st.values.toFinset.card ≤ n ∧ ∀ a ∈ st.affected, a ∈ U ∧ a ∉ F
  | .hiddenTuple n => ∃ k U, ∃ M : Finset Cell, IsLine s.bw s.bh k U ∧ st.values.Nodup ∧ st.values.length = n ∧
      (∀ v ∈ st.values, IsNumber s.bw s.bh v ∧ ∀ a ∈ U, v ∈ s.cand a → a ∈ M) ∧ M.card ≤ n ∧ ∀ a ∈ st.affected, a ∈ M
  | .pointingTuple n => ∃ k k' U V v, (k = .box ∧ k' ≠ .box ∨ k ≠ .box ∧ k' = .box) ∧ IsLine s.bw s.bh k U ∧ U.Nodup ∧
      IsLine s.bw s.bh k' V ∧ IsNumber s.bw s.bh v ∧ st.values = [v] ∧ (having s U v).length = n ∧
      (∀ a ∈ U, v ∈ s.cand a → a ∈ V) ∧ ∀ a ∈ st.affected, a ∈ V ∧ ¬ (a ∈ U ∧ v ∈ s.cand a)
  | .basicFish n => ∃ byRow v, ∃ I : List Nat, ∃ C : Finset Nat, st.values = [v] ∧ IsNumber s.bw s.bh v ∧ I.Nodup ∧ I.length = n ∧
      (∀ i ∈ I, i < s.bw * s.bh) ∧ C.card ≤ n ∧
      (∀ a, InGrid s.bw s.bh a → across (!byRow) a ∈ I → v ∈ s.cand a → across byRow a ∈ C) ∧
      ∀ a ∈ st.affected, InGrid s.bw s.bh a ∧ across byRow a ∈ C ∧ ¬ (across (!byRow) a ∈ I ∧ v ∈ s.cand a)

/-- An invariant `P` of the states of the program: it implies that all `g` in `G` are solutions, and the consumer
keeps it for good steps.  (Each step is justified by the sudoku as it was at some time.) -/
structure Ctx0 {W : Type} (view : W → Sudoku) (κ : W → Step → W) (w h : Nat) (kind : Kind) (G : Grid → Prop)
    (P : W → Prop) : Prop where
  bw : ∀ x, P x → (view x).bw = w
  bh : ∀ x, P x → (view x).bh = h
  may : ∀ x, P x → ∀ g, G g → IsSolution (view x).bw (view x).bh (view x).num g
  step : ∀ x st, P x → st.kind = kind → Good G (view x) st → (∃ y, P y ∧ Justified (view y) st) → P (κ x st)

/-- The same with all candidates calculated. -/
structure Ctx {W : Type} (view : W → Sudoku) (κ : W → Step → W) (w h : Nat) (kind : Kind) (G : Grid → Prop)
    (P : W → Prop) : Prop extends Ctx0 view κ w h kind G P where
  cons : ∀ x, P x → ∀ g, G g → Contains (view x) g

theorem inv_ite {β : Type} {P : β → Prop} {c : Prop} [Decidable c] {a b : β} (ha : c → P a) (hb : ¬c → P b) :
    P (if c then a else b) := by
  by_cases h : c
  · rw [if_pos h]; exact ha h
  · rw [if_neg h]; exact hb h

theorem foldl_inv {α β : Type} (P : β → Prop) (f : β → α → β) (l : List α) (h : ∀ b, ∀ a ∈ l, P b → P (f b a)) :
    ∀ b, P b → P (l.foldl f b) := by
  induction l with
  | nil => intro b hb; exact hb
  | cons a l ih =>
    intro b hb
    exact ih (fun b x hx => h b x (by simp [hx])) _ (h b a (by simp) hb)

section
variable {W : Type} {view : W → Sudoku} {κ : W → Step → W} {w h : Nat} {G : Grid → Prop} {P : W → Prop}

theorem Ctx0.inGrid {k : Kind} (c : Ctx0 view κ w h k G P) {x y : W} (hx : P x) (hy : P y) {a : Cell} :
    InGrid (view x).bw (view x).bh a ↔ InGrid (view y).bw (view y).bh a := by
  rw [c.bw x hx, c.bh x hx, c.bw y hy, c.bh y hy]

theorem Ctx0.isNumber {k : Kind} (c : Ctx0 view κ w h k G P) {x y : W} (hx : P x) (hy : P y) {v : Int} :
    IsNumber (view x).bw (view x).bh v ↔ IsNumber (view y).bw (view y).bh v := by
  rw [c.bw x hx, c.bh x hx, c.bw y hy, c.bh y hy]

/-- A solution's value is admissible. -/
theorem mem_calc {s : Sudoku} {g : Grid} (hg : IsSolution s.bw s.bh s.num g) {a : Cell} (ha : InGrid s.bw s.bh a) :
    g a ∈ Solve.calcCandidates s a := by
  by_cases h0 : s.num a = 0
  · rw [Solve.mem_calc_empty ha h0]
    refine ⟨hg.full a ha, fun b hb hp e => ?_⟩
    have hn : g a ≠ 0 := by have := (hg.full a ha).1; omega
    have := hg.keeps b hb (by rw [e]; exact hn)
    exact hg.valid a b ha hb hp hn (by rw [this, e])
  · rw [Solve.calc_filled h0, hg.keeps a ha h0]; simp

theorem card_calc (s : Sudoku) {a : Cell} (ha : InGrid s.bw s.bh a) : (Solve.calcCandidates s a).card ≤ s.bw * s.bh := by
  by_cases h0 : s.num a = 0
  · have : Solve.calcCandidates s a ⊆ s.numbers.toFinset := by
      intro v hv
      rw [Solve.mem_calc_empty ha h0] at hv
      rw [List.mem_toFinset, Sudoku.mem_numbers]; exact hv.1
    refine le_trans (Finset.card_le_card this) (le_trans (List.toFinset_card_le _) ?_)
    rw [Sudoku.length_numbers]
  · rw [Solve.calc_filled h0, Finset.card_singleton]
    exact Nat.one_le_iff_ne_zero.2 (by have := ha.1; omega)

theorem findCalc_inv (c : Ctx0 view κ w h .calculateCandidates G P) (x : W) (hx : P x) : P (findCalc view κ x) := by
  unfold findCalc
  refine foldl_inv P _ _ ?_ x hx
  intro y a ha hy
  have ha' := (c.inGrid hx hy).1 ((Sudoku.mem_cells _).1 ha)
  try dsimp only
  split
  · exact hy
  · rename_i he
    rw [not_not] at he
    refine c.step y _ hy rfl ⟨⟨?_, a, rfl, rfl, he, ?_⟩, ?_⟩ ⟨y, hy, trivial⟩
    · intro b hb
      rw [Step.mkSet, mem_sortCells, List.mem_singleton] at hb
      rw [hb]; exact ha'
    · show (sortSet _).length ≤ _
      rw [length_sortSet]; exact card_calc _ ha'
    · intro g hg b hb
      rw [Step.mkSet, mem_sortCells, List.mem_singleton] at hb
      subst hb
      show g b ∈ sortSet _
      rw [mem_sortSet]
      exact mem_calc (c.may y hy g hg) ha'

theorem single_good {s : Sudoku} {k : Kind} (hk : k = .nakedSingle ∨ k = .hiddenSingle ∨ k = .bruteforce) {a : Cell} {v : Int}
    (ha : InGrid s.bw s.bh a) (h0 : s.num a = 0) (hv : v ∈ s.cand a ∨ IsNumber s.bw s.bh v) (hG : ∀ g, G g → g a = v) : Good G s (Step.single k a v) := by
  have haff : ∀ b ∈ (Step.single k a v).affected, b = a := by
    intro b hb
    simpa [Step.single, Step.mk', mem_sortCells] using hb
  have hval : ∀ b ∈ (Step.single k a v).values, b = v := by
    intro b hb
    simpa [Step.single, Step.mk', mem_sortInts] using hb
  refine ⟨⟨fun b hb => by rw [haff b hb]; exact ha, ?_⟩, fun g hg => ?_⟩
  · rcases hk with rfl | rfl | rfl <;> exact ⟨a, v, rfl, rfl, rfl, h0, hv⟩
  · rcases hk with rfl | rfl | rfl <;>
    · intro b hb u hu
      rw [haff b hb, hval u hu]; exact hG g hg

theorem findNakedSingle_inv (c : Ctx view κ w h .nakedSingle G P) (x : W) (hx : P x) : P (findNakedSingle view κ x) := by
  unfold findNakedSingle
  refine foldl_inv P _ _ ?_ x hx
  intro y a ha hy
  have ha' := (c.inGrid hx hy).1 ((Sudoku.mem_cells _).1 ha)
  try dsimp only
  split
  · rename_i h0
    split
    · rename_i v hv
      refine c.step y _ hy rfl (single_good (Or.inl rfl) ha' h0 (Or.inl ?_) ?_) ⟨y, hy, a, v, rfl, rfl, ha', ?_⟩
      · have hv' : sortSet ((view y).cand a) = [v] := hv
        rw [← mem_sortSet, hv']; simp
      rotate_left
      · have hv' : sortSet ((view y).cand a) = [v] := hv
        ext u
        rw [← mem_sortSet, hv']; simp
      intro g hg
      have := (c.cons y hy g hg).2 a ha'
      rw [← mem_sortSet] at this
      have hv' : sortSet ((view y).cand a) = [v] := hv
      rw [hv'] at this
      simpa using this
    · exact hy
  · exact hy

theorem mem_foldl_sdiff (s : Sudoku) (l : List Cell) (S : Finset Int) (v : Int) :
    v ∈ l.foldl (fun S b => S \ s.getCandidates b) S ↔ v ∈ S ∧ ∀ b ∈ l, v ∉ s.cand b := by
  induction l generalizing S with
  | nil => simp
  | cons a l ih =>
    rw [List.foldl_cons, ih, Finset.mem_sdiff]
    simp only [List.mem_cons, forall_eq_or_imp, Sudoku.getCandidates]
    tauto

theorem hidden_forced {s : Sudoku} {g : Grid} (hg : Contains s g) {a : Cell} (ha : InGrid s.bw s.bh a) (k : Nat) {v : Int}
    (hv : v ∈ hiddenCands s (unitOf s k a false)) : g a = v := by
  unfold hiddenCands at hv
  rw [mem_foldl_sdiff, List.mem_toFinset, Sudoku.mem_numbers] at hv
  obtain ⟨b, hb, e⟩ := unit_surj hg.1.full hg.1.valid (unit_of s k ha) hv.1
  by_cases hba : b = a
  · rw [← hba]; exact e
  · exfalso
    apply hv.2 b ((mem_unitOf_false s k ha).2 ⟨hb, hba⟩)
    rw [← e]; exact hg.2 b ((unit_of s k ha).inG b hb)

theorem hiddenCands_isNumber {s : Sudoku} {U : List Cell} {v : Int} (hv : v ∈ hiddenCands s U) :
    IsNumber s.bw s.bh v := by
  unfold hiddenCands at hv
  rw [mem_foldl_sdiff, List.mem_toFinset, Sudoku.mem_numbers] at hv
  exact hv.1

theorem onlyPlace_of {s : Sudoku} (k : Nat) {a : Cell} {v : Int} (ha : InGrid s.bw s.bh a)
    (hv : v ∈ hiddenCands s (unitOf s k a false)) : ∃ k, OnlyPlace s k a v := by
  unfold hiddenCands at hv
  rw [mem_foldl_sdiff, List.mem_toFinset, Sudoku.mem_numbers] at hv
  obtain ⟨hv1, hv2⟩ := hv
  obtain ⟨k', e, he, hk⟩ := (unit_of s k ha).line
  refine ⟨k', hv1, fun b hb hne => hv2 b ?_⟩
  rw [mem_unitOf_false s k ha]
  refine ⟨?_, hne⟩
  rw [hk]
  simp only [unitFields, fields, Finset.mem_filter, Finset.mem_product, Finset.mem_range] at hb
  refine ⟨hb.1, ?_⟩
  have h1 := ((hk a).1 (mem_unitOf_self s k ha)).2
  have h2 := hb.2
  cases k'
  · exact h1.trans h2
  · exact h1.trans h2
  · exact ⟨h1.1.trans h2.1, h1.2.trans h2.2⟩

theorem hiddenUnits_inv (c : Ctx view κ w h .hiddenSingle G P) {π : Orders W} (hπ : π.Ok) (a : Cell) (ks : List Nat) :
    ∀ p : W × List Cell, P p.1 → (a ∉ p.2 → InGrid (view p.1).bw (view p.1).bh a ∧ (view p.1).num a = 0) →
      P (hiddenUnits view κ π a ks p).1 := by
  induction ks with
  | nil => intro p hp _; exact hp
  | cons k ks ih =>
    intro p hp h0
    unfold hiddenUnits
    try dsimp only
    have key : ∀ l : List Int, (∀ v ∈ l, v ∈ hiddenCands (view p.1) (unitOf (view p.1) k a false)) →
        let r := l.foldl (fun (q : W × List Cell × Bool) v =>
          if a ∉ q.2.1 then (κ q.1 (Step.single .hiddenSingle a v), q.2.1 ++ [a], true) else q) (p.1, p.2, false)
        P r.1 ∧ (a ∉ r.2.1 → r.1 = p.1) := by
      intro l hl
      refine foldl_inv (fun r : W × List Cell × Bool => P r.1 ∧ (a ∉ r.2.1 → r.1 = p.1 ∧ r.2.1 = p.2)) _ l ?_
        (p.1, p.2, false) ⟨hp, fun _ => ⟨rfl, rfl⟩⟩ |>.imp_right (fun hh ha => (hh ha).1)
      rintro ⟨q1, q2, q3⟩ v hv ⟨hq, hq'⟩
      simp only at hq hq' ⊢
      split
      · rename_i hna
        obtain ⟨e1, e2⟩ := hq' hna
        subst e1
        have hna' : a ∉ p.2 := e2 ▸ hna
        refine ⟨c.step _ _ hq rfl (single_good (Or.inr (Or.inl rfl)) (h0 hna').1 (h0 hna').2 (Or.inr (hiddenCands_isNumber (hl v hv))) ?_) ?_, fun h => by simp at h⟩
        rotate_left
        · obtain ⟨k', hk'⟩ := onlyPlace_of k (h0 hna').1 (hl v hv)
          exact ⟨_, hq, a, v, k', rfl, rfl, (h0 hna').1, hk'⟩
        intro g hg
        exact hidden_forced (c.cons _ hq g hg) (h0 hna').1 k (hl v hv)
      · exact ⟨hq, hq'⟩
    obtain ⟨k1, k2⟩ := key _ (fun v hv => ((hπ.hidden _ _ _ _).2 v).1 hv)
    split
    · exact k1
    · refine ih _ k1 ?_
      intro hna
      simp only at hna ⊢
      rw [k2 hna]
      refine h0 ?_
      intro hin
      apply hna
      -- the list of yielded fields only grows
      have grow : ∀ (l : List Int) (q : W × List Cell × Bool), a ∈ q.2.1 →
          a ∈ (l.foldl (fun (q : W × List Cell × Bool) v =>
          if a ∉ q.2.1 then (κ q.1 (Step.single .hiddenSingle a v), q.2.1 ++ [a], true) else q) q).2.1 := by
        intro l q hq
        refine foldl_inv (fun r : W × List Cell × Bool => a ∈ r.2.1) _ l ?_ q hq
        intro r v _ hr
        try dsimp only
        split
        · simp
        · exact hr
      exact grow _ _ hin

theorem findHiddenSingle_inv (c : Ctx view κ w h .hiddenSingle G P) {π : Orders W} (hπ : π.Ok) (x : W) (hx : P x) :
    P (findHiddenSingle view κ π x) := by
  unfold findHiddenSingle
  refine foldl_inv (fun p : W × List Cell => P p.1) _ _ ?_ (x, []) hx
  intro p a ha hp
  have ha' := (c.inGrid hx hp).1 ((Sudoku.mem_cells _).1 ha)
  try dsimp only
  split
  · rename_i h0
    exact hiddenUnits_inv c hπ a _ p hp (fun _ => ⟨ha', h0⟩)
  · exact hp

/-! ### naked tuples -/

theorem mem_foldl_union (s : Sudoku) (l : List Cell) (S : Finset Int) (v : Int) :
    v ∈ l.foldl (fun S a => S ∪ s.getCandidates a) S ↔ v ∈ S ∨ ∃ a ∈ l, v ∈ s.cand a := by
  induction l generalizing S with
  | nil => simp
  | cons a l ih =>
    rw [List.foldl_cons, ih, Finset.mem_union]
    simp only [List.mem_cons, exists_eq_or_imp, Sudoku.getCandidates]
    tauto

theorem naked_forced {s : Sudoku} {g : Grid} (hg : Contains s g) {U fields : List Cell} (hU : UnitLike s.bw s.bh U)
    (hsub : fields.Sublist U) {all : Finset Int} (hall : ∀ a ∈ fields, s.cand a ⊆ all) (hc : all.card ≤ fields.length)
    {a : Cell} (ha : a ∈ U) (hna : a ∉ fields) : g a ∉ all := by
  intro hin
  have hinj : Set.InjOn g (fields.toFinset : Set Cell) := by
    intro x hx y hy e
    rw [Finset.mem_coe, List.mem_toFinset] at hx hy
    exact unit_inj hg.1.full hg.1.valid hU (hsub.subset hx) (hsub.subset hy) e
  have himg : fields.toFinset.image g ⊆ all := by
    intro v hv
    rw [Finset.mem_image] at hv
    obtain ⟨b, hb, rfl⟩ := hv
    rw [List.mem_toFinset] at hb
    exact hall b hb (hg.2 b (hU.inG b (hsub.subset hb)))
  have hcard : (fields.toFinset.image g).card = fields.length := by
    rw [Finset.card_image_of_injOn hinj, List.toFinset_card_of_nodup (hU.nodup.sublist hsub)]
  have heq : fields.toFinset.image g = all := Finset.eq_of_subset_of_card_le himg (by omega)
  rw [← heq, Finset.mem_image] at hin
  obtain ⟨b, hb, e⟩ := hin
  rw [List.mem_toFinset] at hb
  have := unit_inj hg.1.full hg.1.valid hU (hsub.subset hb) ha e
  exact hna (this ▸ hb)

theorem mem_unitList {s : Sudoku} {k : Nat} {U : List Cell} (hU : U ∈ unitList s k) :
    ∃ a, InGrid s.bw s.bh a ∧ s.num a = 0 ∧ U = unitOf s k a true := by
  unfold unitList at hU
  have : ∀ (l : List Cell) (cl : List (List Cell)), U ∈ l.foldl (fun clist a =>
      if unitOf s k a true ∈ clist then clist else clist ++ [unitOf s k a true]) cl →
      U ∈ cl ∨ ∃ a ∈ l, U = unitOf s k a true := by
    intro l
    induction l with
    | nil => intro cl h; exact Or.inl h
    | cons a l ih =>
      intro cl h
      rw [List.foldl_cons] at h
      rcases ih _ h with h | ⟨b, hb, e⟩
      · split at h
        · exact Or.inl h
        · rcases List.mem_append.1 h with h | h
          · exact Or.inl h
          · exact Or.inr ⟨a, by simp, by simpa using h⟩
      · exact Or.inr ⟨b, by simp [hb], e⟩
  rcases this _ _ hU with h | ⟨a, ha, e⟩
  · cases h
  · simp only [Sudoku.empty, List.mem_filter, Sudoku.mem_cells, Sudoku.get, beq_iff_eq] at ha
    exact ⟨a, ha.1, ha.2, e⟩

theorem nakedAt_inv (n : Nat) (c : Ctx view κ w h (.nakedTuple n) G P) {U : List Cell} (hU : UnitLike w h U)
    (p : W × List (List Cell)) (hp : P p.1) : P (nakedAt view κ n U p).1 := by
  unfold nakedAt
  try dsimp only
  refine foldl_inv (fun p : W × List (List Cell) => P p.1) _ _ ?_ p hp
  intro q fields hf hq
  try dsimp only
  obtain ⟨hsub, hlen⟩ := mem_combos _ _ _ hf
  have hsub' : fields.Sublist U := hsub.trans List.filter_sublist
  split
  · rename_i hc
    split
    · rename_i haff
      split
      · have hU' : UnitLike (view q.1).bw (view q.1).bh U := by rw [c.bw _ hq, c.bh _ hq]; exact hU
        obtain ⟨a, ha⟩ := List.exists_mem_of_ne_nil _ haff
        have hJ : Justified (view q.1) (Step.mkSet (.nakedTuple n) fields
            (U.filter fun a => decide (a ∉ fields ∧ fields.foldl (fun S a => S ∪ (view q.1).getCandidates a) ∅ ∩ (view q.1).getCandidates a ≠ ∅))
            (fields.foldl (fun S a => S ∪ (view q.1).getCandidates a) ∅)) := by
          obtain ⟨k, hk⟩ := hU'.line
          have hset : (sortSet (fields.foldl (fun S a => S ∪ (view q.1).getCandidates a) ∅)).toFinset =
              fields.foldl (fun S a => S ∪ (view q.1).getCandidates a) ∅ := by
            ext v; rw [List.mem_toFinset, mem_sortSet]
          refine ⟨k, U, fields, hk, hsub'.subset, hU.nodup.sublist hsub', hlen, ?_, ?_, ?_⟩
          · intro d hd v hv
            simp only [Step.mkSet]
            rw [hset, mem_foldl_union]
            exact Or.inr ⟨d, hd, hv⟩
          · simp only [Step.mkSet]; rw [hset]; exact hc
          · intro b hb
            simp only [Step.mkSet, mem_sortCells, List.mem_filter, decide_eq_true_eq] at hb
            exact ⟨hb.1, hb.2.1⟩
        refine c.step _ _ hq rfl ⟨⟨?_, ?_⟩, ?_⟩ ⟨_, hq, hJ⟩
        · intro b hb
          simp only [Step.mkSet, mem_sortCells, List.mem_filter] at hb
          exact hU'.inG b hb.1
        · simp only [Step.mkSet]
          refine ⟨a, mem_sortCells.2 ha, ?_⟩
          simp only [List.mem_filter, decide_eq_true_eq] at ha
          obtain ⟨v, hv⟩ := Finset.nonempty_iff_ne_empty.2 ha.2.2
          rw [Finset.mem_inter] at hv
          exact ⟨v, mem_sortSet.2 hv.1, hv.2⟩
        · intro g hg b hb
          simp only [Step.mkSet, mem_sortCells, List.mem_filter, decide_eq_true_eq] at hb
          simp only [Step.mkSet, mem_sortSet]
          refine naked_forced (c.cons _ hq g hg) hU' hsub' ?_ (hlen ▸ hc) hb.1 hb.2.1
          intro d hd v hv
          rw [mem_foldl_union]
          exact Or.inr ⟨d, hd, hv⟩
      · exact hq
    · exact hq
  · exact hq

theorem findNakedTuple_inv (n : Nat) (c : Ctx view κ w h (.nakedTuple n) G P) (x : W) (hx : P x) : P (findNakedTuple view κ n x) := by
  unfold findNakedTuple
  refine foldl_inv (fun p : W × List (List Cell) => P p.1) _ _ ?_ (x, []) hx
  intro p k _ hp
  refine foldl_inv (fun p : W × List (List Cell) => P p.1) _ _ ?_ p hp
  intro q U hU hq
  obtain ⟨a, ha, -, rfl⟩ := mem_unitList hU
  have := unit_of (view p.1) k ha
  rw [c.bw _ hp, c.bh _ hp] at this
  exact nakedAt_inv n c this q hq

/-! ### hidden tuples -/

theorem hidden_tuple_forced {s : Sudoku} {g : Grid} (hg : Contains s g) {U : List Cell} (hU : UnitLike s.bw s.bh U)
    {numbers : List Int} (hnd : numbers.Nodup) (hnum : ∀ v ∈ numbers, IsNumber s.bw s.bh v) {M : Finset Cell}
    (hM : ∀ v ∈ numbers, ∀ a ∈ U, v ∈ s.cand a → a ∈ M) (hc : M.card ≤ numbers.length)
    {a : Cell} (ha : a ∈ M) : g a ∈ numbers := by
  have hsub : numbers.toFinset ⊆ M.image g := by
    intro v hv
    rw [List.mem_toFinset] at hv
    obtain ⟨b, hb, e⟩ := unit_surj hg.1.full hg.1.valid hU (hnum v hv)
    rw [Finset.mem_image]
    exact ⟨b, hM v hv b hb (by rw [← e]; exact hg.2 b (hU.inG b hb)), e⟩
  have hcard : (M.image g).card ≤ numbers.toFinset.card := by
    rw [List.toFinset_card_of_nodup hnd]
    exact le_trans Finset.card_image_le hc
  have heq := Finset.eq_of_subset_of_card_le hsub hcard
  rw [← List.mem_toFinset, heq]
  exact Finset.mem_image_of_mem g ha

theorem mem_foldl_union_cells (f : Int → Finset Cell) (l : List Int) (S : Finset Cell) (a : Cell) :
    a ∈ l.foldl (fun S c => S ∪ f c) S ↔ a ∈ S ∨ ∃ c ∈ l, a ∈ f c := by
  induction l generalizing S with
  | nil => simp
  | cons x l ih =>
    rw [List.foldl_cons, ih, Finset.mem_union]
    simp only [List.mem_cons, exists_eq_or_imp]
    tauto

theorem hiddenAt_inv (n : Nat) (c : Ctx view κ w h (.hiddenTuple n) G P) {U : List Cell} (hU : UnitLike w h U) (x : W) (hx : P x) :
    P (hiddenAt view κ n U x) := by
  unfold hiddenAt
  try dsimp only
  refine foldl_inv P _ _ ?_ x hx
  intro y numbers hnums hy
  obtain ⟨hsub, hlen⟩ := mem_combos _ _ _ hnums
  have hsub' : numbers.Sublist (view x).numbers := hsub.trans List.filter_sublist
  try dsimp only
  split
  · rename_i hc
    refine foldl_inv P _ _ ?_ y hy
    intro z _ _ hz
    try dsimp only
    split
    · rename_i haff
      have hUz : UnitLike (view z).bw (view z).bh U := by rw [c.bw _ hz, c.bh _ hz]; exact hU
      have hUx : UnitLike (view x).bw (view x).bh U := by rw [c.bw _ hx, c.bh _ hx]; exact hU
      obtain ⟨a, ha⟩ := List.exists_mem_of_ne_nil _ haff
      refine c.step _ _ hz rfl ⟨⟨?_, ?_⟩, ?_⟩ ⟨x, hx, ?_⟩
      rotate_right
      · obtain ⟨k, hk⟩ := hUx.line
        refine ⟨k, U, _, hk, ?_, ?_, ?_, hc, ?_⟩
        · exact (List.perm_insertionSort _ _).nodup_iff.2 ((Sudoku.nodup_numbers _).sublist hsub')
        · exact (List.length_insertionSort _ _).trans hlen
        · intro v hv
          have hv' : v ∈ numbers := mem_sortInts.1 hv
          refine ⟨(Sudoku.mem_numbers _).1 (hsub'.subset hv'), fun d hd hvd => ?_⟩
          rw [mem_foldl_union_cells]
          refine Or.inr ⟨v, hv', ?_⟩
          simp only [List.mem_toFinset, List.mem_filter, decide_eq_true_eq]
          exact ⟨hd, hvd⟩
        · intro b hb
          simp only [Step.mk', mem_sortCells, List.mem_filter, decide_eq_true_eq] at hb
          exact hb.2.1
      · intro b hb
        simp only [Step.mk', mem_sortCells, List.mem_filter] at hb
        exact hUz.inG b hb.1
      · simp only [Step.mk']
        refine ⟨a, mem_sortCells.2 ha, ?_⟩
        simp only [List.mem_filter, decide_eq_true_eq] at ha
        obtain ⟨v, hv⟩ := Finset.nonempty_iff_ne_empty.2 ha.2.2
        rw [Finset.mem_sdiff, List.mem_toFinset] at hv
        exact ⟨v, hv.1, fun h => hv.2 (mem_sortInts.1 h)⟩
      · intro g hg b hb
        simp only [Step.mk', mem_sortCells, List.mem_filter, decide_eq_true_eq] at hb
        simp only [Step.mk', mem_sortInts]
        refine hidden_tuple_forced (c.cons _ hx g hg) hUx ((Sudoku.nodup_numbers _).sublist hsub') ?_ ?_ (hlen ▸ hc) hb.2.1
        · intro v hv
          exact (Sudoku.mem_numbers _).1 (hsub'.subset hv)
        · intro v hv d hd hvd
          rw [mem_foldl_union_cells]
          refine Or.inr ⟨v, hv, ?_⟩
          simp only [List.mem_toFinset, List.mem_filter, decide_eq_true_eq]
          exact ⟨hd, hvd⟩
    · exact hz
  · exact hy

theorem findHiddenTuple_inv (n : Nat) (c : Ctx view κ w h (.hiddenTuple n) G P) (x : W) (hx : P x) : P (findHiddenTuple view κ n x) := by
  unfold findHiddenTuple
  refine foldl_inv P _ _ ?_ x hx
  intro y k _ hy
  refine foldl_inv P _ _ ?_ y hy
  intro z U hU hz
  obtain ⟨a, ha, -, rfl⟩ := mem_unitList hU
  have := unit_of (view y) k ha
  rw [c.bw _ hy, c.bh _ hy] at this
  exact hiddenAt_inv n c this z hz

/-! ### pointing tuples -/

theorem mem_having {s : Sudoku} {U : List Cell} {v : Int} {a : Cell} : a ∈ having s U v ↔ a ∈ U ∧ v ∈ s.cand a := by
  rw [having, List.mem_filter, decide_eq_true_eq]; rfl

theorem mem_others {s : Sudoku} {U cl : List Cell} {v : Int} {a : Cell} :
    a ∈ others s U cl v ↔ a ∈ U ∧ a ∉ cl ∧ v ∈ s.cand a := by
  rw [others, List.mem_filter, decide_eq_true_eq]; rfl

theorem pointing_forced {s : Sudoku} {g : Grid} (hg : Contains s g) {U V : List Cell} (hU : UnitLike s.bw s.bh U)
    (hV : UnitLike s.bw s.bh V) {v : Int} (hv : IsNumber s.bw s.bh v) (hsub : ∀ a ∈ having s U v, a ∈ V)
    {a : Cell} (ha : a ∈ V) (hna : a ∉ having s U v) : g a ≠ v := by
  intro e
  obtain ⟨b, hb, e'⟩ := unit_surj hg.1.full hg.1.valid hU hv
  have hb' : b ∈ having s U v := mem_having.2 ⟨hb, by rw [← e']; exact hg.2 b (hU.inG b hb)⟩
  have := unit_inj hg.1.full hg.1.valid hV (hsub b hb') ha (e'.trans e.symm)
  exact hna (this ▸ hb')

theorem card_one_head {β : Type} [DecidableEq β] (l : List Cell) (f : Cell → β) (h1 : (l.map f).toFinset.card = 1) :
    l.headD (0, 0) ∈ l ∧ ∀ a ∈ l, f a = f (l.headD (0, 0)) := by
  obtain ⟨b, hb⟩ := Finset.card_eq_one.1 h1
  have hall : ∀ a ∈ l, f a = b := by
    intro a ha
    have : f a ∈ (l.map f).toFinset := List.mem_toFinset.2 (List.mem_map_of_mem ha)
    rw [hb] at this; simpa using this
  cases l with
  | nil => simp at h1
  | cons x l =>
    refine ⟨by simp, fun a ha => ?_⟩
    rw [hall a ha, List.headD_cons, hall x (by simp)]

/-- The common end of both branches. -/
theorem pointing_good (n : Nat) (c : Ctx view κ w h (.pointingTuple n) G P) {x : W} (hx : P x) {U V : List Cell}
    (hU : UnitLike (view x).bw (view x).bh U) (hV : UnitLike (view x).bw (view x).bh V) {v : Int}
    (hv : IsNumber (view x).bw (view x).bh v) (hsub : ∀ a ∈ having (view x) U v, a ∈ V)
    (hne : others (view x) V (having (view x) U v) v ≠ []) (hn : (having (view x) U v).length = n) {k k' : Line}
    (hkk : k = .box ∧ k' ≠ .box ∨ k ≠ .box ∧ k' = .box) (hkU : IsLine (view x).bw (view x).bh k U)
    (hkV : IsLine (view x).bw (view x).bh k' V) :
    P (κ x (Step.mk' (.pointingTuple n) (having (view x) U v) (others (view x) V (having (view x) U v) v) [v])) := by
  obtain ⟨a, ha⟩ := List.exists_mem_of_ne_nil _ hne
  have hJ : Justified (view x) (Step.mk' (.pointingTuple n) (having (view x) U v) (others (view x) V (having (view x) U v) v) [v]) := by
    refine ⟨k, k', U, V, v, hkk, hkU, hU.nodup, hkV, hv, rfl, hn, fun a h1 h2 => hsub a (mem_having.2 ⟨h1, h2⟩), fun b hb => ?_⟩
    simp only [Step.mk', mem_sortCells, mem_others] at hb
    exact ⟨hb.1, fun h => hb.2.1 (mem_having.2 h)⟩
  refine c.step _ _ hx rfl ⟨⟨?_, ?_⟩, ?_⟩ ⟨x, hx, hJ⟩
  · intro b hb
    simp only [Step.mk', mem_sortCells, mem_others] at hb
    exact hV.inG b hb.1
  · simp only [Step.mk']
    exact ⟨v, rfl, a, mem_sortCells.2 ha, (mem_others.1 ha).2.2⟩
  · intro g hg b hb
    simp only [Step.mk', mem_sortCells, mem_others] at hb
    simp only [Step.mk', mem_sortInts, List.mem_singleton]
    exact pointing_forced (c.cons _ hx g hg) hU hV hv hsub hb.1 hb.2.1

theorem pointingInBox_inv (n : Nat) (c : Ctx view κ w h (.pointingTuple n) G P) {box : Nat} (hbox : box < w * h) (x : W) (hx : P x) :
    P (pointingInBox view κ n box x) := by
  unfold pointingInBox
  try dsimp only
  refine foldl_inv P _ _ ?_ x hx
  intro y v hv hy
  have hv' := (c.isNumber hx hy).1 ((Sudoku.mem_numbers _).1 hv)
  have hcorner : InGrid (view x).bw (view x).bh (box / (view x).bh * (view x).bh, box % (view x).bh * (view x).bw) :=
    Coordinates.corner_inGrid (by rw [c.bw _ hx, c.bh _ hx]; exact hbox)
  have hU := unit_box (view x) hcorner
  have hkU := line_box (view x) hcorner
  generalize (view x).boxOf (box / (view x).bh * (view x).bh, box % (view x).bh * (view x).bw) = U at hU hkU
  have hU' : UnitLike (view y).bw (view y).bh U := by
    rw [c.bw _ hx, c.bh _ hx] at hU; rw [c.bw _ hy, c.bh _ hy]; exact hU
  have hkU' : IsLine (view y).bw (view y).bh .box U := by
    rw [c.bw _ hx, c.bh _ hx] at hkU; rw [c.bw _ hy, c.bh _ hy]; exact hkU
  have hin : ∀ a ∈ having (view y) U v, InGrid (view y).bw (view y).bh a := fun a ha => hU'.inG a (mem_having.1 ha).1
  try dsimp only
  refine inv_ite (fun _ => hy) (fun hn => ?_)
  rw [not_not] at hn
  by_cases h1 : ((having (view y) U v).map Prod.fst).toFinset.card = 1
  · rw [if_pos h1]
    refine inv_ite (fun hne => ?_) (fun _ => hy)
    obtain ⟨hh, hall⟩ := card_one_head _ _ h1
    refine pointing_good n c hy hU' (unit_row _ (hin _ hh).1) hv' ?_ hne hn (Or.inl ⟨rfl, by decide⟩) hkU' (line_row _ (hin _ hh).1)
    intro a ha
    rw [Sudoku.mem_rowOf]
    exact ⟨hall a ha, (hin a ha).2, Or.inl rfl⟩
  · rw [if_neg h1]
    by_cases h2 : ((having (view y) U v).map Prod.snd).toFinset.card = 1
    · rw [if_pos h2]
      refine inv_ite (fun hne => ?_) (fun _ => hy)
      obtain ⟨hh, hall⟩ := card_one_head _ _ h2
      refine pointing_good n c hy hU' (unit_col _ (hin _ hh).2) hv' ?_ hne hn (Or.inl ⟨rfl, by decide⟩) hkU' (line_col _ (hin _ hh).2)
      intro a ha
      rw [Sudoku.mem_columnOf]
      exact ⟨hall a ha, (hin a ha).1, Or.inl rfl⟩
    · rw [if_neg h2]
      exact inv_ite (fun hne => absurd rfl hne) (fun _ => hy)

theorem pointingInLine_inv (n : Nat) (c : Ctx view κ w h (.pointingTuple n) G P) {i : Nat} (hi : i < w * h) (x : W) (hx : P x) :
    P (pointingInLine view κ n i x) := by
  unfold pointingInLine
  refine foldl_inv P _ _ ?_ x hx
  intro y k hk01 hy
  have hii : InGrid (view y).bw (view y).bh (i, i) := by rw [c.bw _ hy, c.bh _ hy]; exact ⟨hi, hi⟩
  have hU := unit_of (view y) k hii
  have hkU : ∃ k' : Line, k' ≠ .box ∧ IsLine (view y).bw (view y).bh k' (unitOf (view y) k (i, i) true) := by
    simp only [List.mem_cons, List.not_mem_nil, or_false] at hk01
    rcases hk01 with rfl | rfl
    · exact ⟨.row, by decide, line_row _ hii.1⟩
    · exact ⟨.column, by decide, line_col _ hii.2⟩
  obtain ⟨k', hk', hkU⟩ := hkU
  try dsimp only
  generalize unitOf (view y) k (i, i) true = U at hU hkU
  refine foldl_inv P _ _ ?_ y hy
  intro z v hv hz
  have hv' := (c.isNumber hy hz).1 ((Sudoku.mem_numbers _).1 hv)
  have hU' : UnitLike (view z).bw (view z).bh U := by
    rw [c.bw _ hy, c.bh _ hy] at hU; rw [c.bw _ hz, c.bh _ hz]; exact hU
  have hkU' : IsLine (view z).bw (view z).bh k' U := by
    rw [c.bw _ hy, c.bh _ hy] at hkU; rw [c.bw _ hz, c.bh _ hz]; exact hkU
  have hin : ∀ a ∈ having (view z) U v, InGrid (view z).bw (view z).bh a := fun a ha => hU'.inG a (mem_having.1 ha).1
  try dsimp only
  split
  · exact hz
  · rename_i hn
    rw [not_not] at hn
    split
    · rename_i h1
      obtain ⟨hh, hall⟩ := card_one_head _ _ h1
      split
      · rename_i hne
        refine pointing_good n c hz hU' (unit_box _ (hin _ hh)) hv' ?_ hne hn (Or.inr ⟨hk', rfl⟩) hkU' (line_box _ (hin _ hh))
        intro a ha
        rw [Sudoku.mem_boxOf _ (hin _ hh)]
        exact (Coordinates.boxAt_eq_iff (hin _ hh) (hin a ha)).1 (hall a ha).symm
      · exact hz
    · exact hz

theorem findPointing_inv (n : Nat) (c : Ctx view κ w h (.pointingTuple n) G P) (x : W) (hx : P x) : P (findPointing view κ n x) := by
  unfold findPointing
  have hidx : ∀ i ∈ (view x).indices, i < w * h := by
    intro i hi
    simp only [Sudoku.indices, Sudoku.n, List.mem_range, c.bw _ hx, c.bh _ hx] at hi
    exact hi
  try dsimp only
  refine foldl_inv P _ _ (fun y i hi hy => pointingInLine_inv n c (hidx i hi) y hy) _ ?_
  exact foldl_inv P _ _ (fun y i hi hy => pointingInBox_inv n c (hidx i hi) y hy) _ hx

/-! ### fishes -/

theorem fish_forced {s : Sudoku} {g : Grid} (hg : Contains s g) (byRow : Bool) {v : Int} (hv : IsNumber s.bw s.bh v)
    (indices : List Nat) (hnd : indices.Nodup) (hidx : ∀ i ∈ indices, i < s.bw * s.bh)
    (fields : Nat → List Cell)
    (hfields : ∀ i ∈ indices, ∀ a, g a = v → a ∈ (if byRow then s.rowOf (i, i) else s.columnOf (i, i)) → a ∈ fields i)
    (hfields' : ∀ i ∈ indices, ∀ a ∈ fields i, a ∈ (if byRow then s.rowOf (i, i) else s.columnOf (i, i)))
    (hc : (((indices.flatMap fields).map fun a => if byRow then a.2 else a.1).dedup).length ≤ indices.length)
    {a : Cell} {x : Nat} (hx : x ∈ ((indices.flatMap fields).map fun a => if byRow then a.2 else a.1).dedup)
    (ha : a ∈ (if byRow then s.columnOf (x, x) else s.rowOf (x, x))) (hna : a ∉ indices.flatMap fields) : g a ≠ v := by
  intro e
  -- the position of `v` in each base line
  have hpos : ∀ i ∈ indices, ∃ b, b ∈ (if byRow then s.rowOf (i, i) else s.columnOf (i, i)) ∧ g b = v := by
    intro i hi
    have hU : UnitLike s.bw s.bh (if byRow then s.rowOf (i, i) else s.columnOf (i, i)) := by
      split
      · exact unit_row s (hidx i hi)
      · exact unit_col s (hidx i hi)
    exact unit_surj hg.1.full hg.1.valid hU hv
  classical
  let pos : Nat → Cell := fun i => if hi : i ∈ indices then (hpos i hi).choose else (0, 0)
  have hp1 : ∀ i ∈ indices, pos i ∈ (if byRow then s.rowOf (i, i) else s.columnOf (i, i)) := by
    intro i hi; simp only [pos, dif_pos hi]; exact (hpos i hi).choose_spec.1
  have hp2 : ∀ i ∈ indices, g (pos i) = v := by
    intro i hi; simp only [pos, dif_pos hi]; exact (hpos i hi).choose_spec.2
  have hgrid : ∀ i ∈ indices, ∀ b, b ∈ (if byRow then s.rowOf (i, i) else s.columnOf (i, i)) → InGrid s.bw s.bh b := by
    intro i hi b hb
    split at hb
    · exact (unit_row s (a := (i, i)) (hidx i hi)).inG b hb
    · exact (unit_col s (a := (i, i)) (hidx i hi)).inG b hb
  let oth : Cell → Nat := fun b => if byRow then b.2 else b.1
  have hline : ∀ i, ∀ b, b ∈ (if byRow then s.rowOf (i, i) else s.columnOf (i, i)) → (if byRow then b.1 else b.2) = i := by
    intro i b hb
    cases byRow
    · exact ((Sudoku.mem_columnOf s).1 hb).1
    · exact ((Sudoku.mem_rowOf s).1 hb).1
  have hcross : ∀ b b' : Cell, InGrid s.bw s.bh b → InGrid s.bw s.bh b' → oth b = oth b' → g b = v → g b' = v → b = b' := by
    intro b b' hb hb' ho e1 e2
    by_contra hne
    have h0 : g b ≠ 0 := by have := hv.1; omega
    refine hg.1.valid b b' hb hb' ⟨hne, ?_⟩ h0 (e1.trans e2.symm)
    cases byRow
    · exact Or.inl ho
    · exact Or.inr (Or.inl ho)
  set other := ((indices.flatMap fields).map fun a => if byRow then a.2 else a.1) with hother
  have hsub : indices.toFinset.image (fun i => oth (pos i)) ⊆ other.toFinset := by
    intro y hy
    rw [Finset.mem_image] at hy
    obtain ⟨i, hi, rfl⟩ := hy
    rw [List.mem_toFinset] at hi ⊢
    rw [hother, List.mem_map]
    refine ⟨pos i, List.mem_flatMap.2 ⟨i, hi, hfields i hi _ (hp2 i hi) (hp1 i hi)⟩, rfl⟩
  have hinj : Set.InjOn (fun i => oth (pos i)) (indices.toFinset : Set Nat) := by
    intro i hi j hj e
    rw [Finset.mem_coe, List.mem_toFinset] at hi hj
    have := hcross _ _ (hgrid i hi _ (hp1 i hi)) (hgrid j hj _ (hp1 j hj)) e (hp2 i hi) (hp2 j hj)
    rw [← hline i _ (hp1 i hi), ← hline j _ (hp1 j hj), this]
  have hcard : (indices.toFinset.image (fun i => oth (pos i))).card = indices.length := by
    rw [Finset.card_image_of_injOn hinj, List.toFinset_card_of_nodup hnd]
  have hcard2 : other.toFinset.card = other.dedup.length := List.card_toFinset other
  have heq := Finset.eq_of_subset_of_card_le hsub (by omega)
  have hx' : x ∈ other.toFinset := List.mem_toFinset.2 (List.mem_dedup.1 hx)
  rw [← heq, Finset.mem_image] at hx'
  obtain ⟨i, hi, hxi⟩ := hx'
  rw [List.mem_toFinset] at hi
  have hao : oth a = x := by
    simp only [oth]
    cases byRow
    · exact ((Sudoku.mem_rowOf s).1 ha).1
    · exact ((Sudoku.mem_columnOf s).1 ha).1
  have hag : InGrid s.bw s.bh a := by
    have hposg := hgrid i hi _ (hp1 i hi)
    simp only [oth] at hxi hao
    cases byRow
    · exact ⟨by simp only [Bool.false_eq_true, if_false] at hxi hao; rw [hao, ← hxi]; exact hposg.1, ((Sudoku.mem_rowOf s).1 ha).2.1⟩
    · exact ⟨((Sudoku.mem_columnOf s).1 ha).2.1, by simp only [if_true] at hxi hao; rw [hao, ← hxi]; exact hposg.2⟩
  have := hcross (pos i) a (hgrid i hi _ (hp1 i hi)) hag (hxi.trans hao.symm) (hp2 i hi) e
  apply hna
  rw [← this]
  exact List.mem_flatMap.2 ⟨i, hi, hfields i hi _ (hp2 i hi) (hp1 i hi)⟩

theorem rowOf_congr {s t : Sudoku} (hw : s.bw = t.bw) (hh : s.bh = t.bh) (a : Cell) : s.rowOf a = t.rowOf a := by
  unfold Sudoku.rowOf Sudoku.indices Sudoku.n; rw [hw, hh]
theorem columnOf_congr {s t : Sudoku} (hw : s.bw = t.bw) (hh : s.bh = t.bh) (a : Cell) : s.columnOf a = t.columnOf a := by
  unfold Sudoku.columnOf Sudoku.indices Sudoku.n; rw [hw, hh]

theorem fishFor_inv (n : Nat) (c : Ctx view κ w h (.basicFish n) G P) {π : Orders W} (hπ : π.Ok) {v : Int} (hv : IsNumber w h v)
    (byRow : Bool) (x : W) (hx : P x) : P (fishFor view κ π n v byRow x) := by
  unfold fishFor
  try dsimp only
  refine foldl_inv P _ _ ?_ x hx
  intro y indices hidx hy
  obtain ⟨hsub, hlen⟩ := mem_combos _ _ _ hidx
  have hsub1 : indices.Sublist (π.fish x v byRow (view x).indices) := hsub.trans List.filter_sublist
  have hnd : indices.Nodup := by
    refine List.Nodup.sublist hsub1 ?_
    exact (hπ.fish x v byRow _).nodup_iff.2 List.nodup_range
  have hi : ∀ i ∈ indices, i < (view x).bw * (view x).bh := by
    intro i hi
    have := (hπ.fish x v byRow _).mem_iff.1 (hsub1.subset hi)
    simpa [Sudoku.indices, Sudoku.n] using this
  have hw : (view x).bw = (view y).bw := by rw [c.bw _ hx, c.bw _ hy]
  have hh : (view x).bh = (view y).bh := by rw [c.bh _ hx, c.bh _ hy]
  try dsimp only
  refine inv_ite (fun _ => hy) (fun _ => ?_)
  refine inv_ite (fun _ => hy) (fun hc => ?_)
  refine inv_ite (fun hne => ?_) (fun _ => hy)
  obtain ⟨a, ha⟩ := List.exists_mem_of_ne_nil _ hne
  refine c.step _ _ hy rfl ⟨⟨?_, ?_⟩, ?_⟩ ⟨x, hx, byRow, v, indices,
    ((indices.flatMap fun i => having (view x) (if byRow then (view x).rowOf (i, i) else (view x).columnOf (i, i)) v).map
      fun a => if byRow then a.2 else a.1).toFinset, rfl, by rw [c.bw _ hx, c.bh _ hx]; exact hv, hnd, hlen, hi, ?_, ?_, ?_⟩
  rotate_left 3
  · rw [List.card_toFinset]; exact not_lt.1 hc
  · intro b hb hbi hbv
    rw [List.mem_toFinset, List.mem_map]
    cases byRow
    · refine ⟨b, List.mem_flatMap.2 ⟨b.2, hbi, mem_having.2 ⟨?_, hbv⟩⟩, rfl⟩
      simp only [Bool.false_eq_true, if_false]
      rw [Sudoku.mem_columnOf]; exact ⟨rfl, hb.1, Or.inl rfl⟩
    · refine ⟨b, List.mem_flatMap.2 ⟨b.1, hbi, mem_having.2 ⟨?_, hbv⟩⟩, rfl⟩
      simp only [if_true]
      rw [Sudoku.mem_rowOf]; exact ⟨rfl, hb.2, Or.inl rfl⟩
  · intro b hb
    simp only [Step.mk', mem_sortCells, mem_others] at hb
    obtain ⟨hcov, hnb, -⟩ := hb
    rw [List.mem_flatMap] at hcov
    obtain ⟨z, hz, hbz⟩ := hcov
    rw [List.mem_dedup] at hz
    have hz' := hz
    rw [List.mem_map] at hz
    obtain ⟨d, hd, hdz⟩ := hz
    rw [List.mem_flatMap] at hd
    obtain ⟨i, hii, hd⟩ := hd
    have hdi := (mem_having.1 hd).1
    refine ⟨?_, ?_, ?_⟩
    · cases byRow
      · simp only [Bool.false_eq_true, if_false] at hdi hbz hdz
        rw [← rowOf_congr hw hh, ← hdz] at hbz
        have hdg := (unit_col (view x) (a := (i, i)) (hi i hii)).inG d hdi
        exact (unit_row (view x) (a := (d.1, d.1)) hdg.1).inG b hbz
      · simp only [if_true] at hdi hbz hdz
        rw [← columnOf_congr hw hh, ← hdz] at hbz
        have hdg := (unit_row (view x) (a := (i, i)) (hi i hii)).inG d hdi
        exact (unit_col (view x) (a := (d.2, d.2)) hdg.2).inG b hbz
    · rw [List.mem_toFinset]
      convert hz'
      cases byRow
      · simp only [Bool.false_eq_true, if_false] at hbz
        exact ((Sudoku.mem_rowOf _).1 hbz).1
      · simp only [if_true] at hbz
        exact ((Sudoku.mem_columnOf _).1 hbz).1
    · rintro ⟨h1, h2⟩
      apply hnb
      rw [List.mem_flatMap]
      cases byRow
      · refine ⟨b.2, h1, mem_having.2 ⟨?_, h2⟩⟩
        simp only [Bool.false_eq_true, if_false] at hbz ⊢
        rw [Sudoku.mem_columnOf]
        simp only [Bool.false_eq_true, if_false] at hdi hdz
        have hdg := (unit_col (view x) (a := (i, i)) (hi i hii)).inG d hdi
        have := ((Sudoku.mem_rowOf _).1 hbz).1
        exact ⟨rfl, by rw [this]; simp only; rw [← hdz]; exact hdg.1, Or.inl rfl⟩
      · refine ⟨b.1, h1, mem_having.2 ⟨?_, h2⟩⟩
        simp only [if_true] at hbz ⊢
        rw [Sudoku.mem_rowOf]
        simp only [if_true] at hdi hdz
        have hdg := (unit_row (view x) (a := (i, i)) (hi i hii)).inG d hdi
        have := ((Sudoku.mem_columnOf _).1 hbz).1
        exact ⟨rfl, by rw [this]; simp only; rw [← hdz]; exact hdg.2, Or.inl rfl⟩
  · intro b hb
    simp only [Step.mk', mem_sortCells, mem_others, List.mem_flatMap] at hb
    obtain ⟨⟨z, hz, hbz⟩, -, -⟩ := hb
    rw [List.mem_dedup, List.mem_map] at hz
    obtain ⟨d, hd, rfl⟩ := hz
    rw [List.mem_flatMap] at hd
    obtain ⟨i, hii, hd⟩ := hd
    have hdi := (mem_having.1 hd).1
    rw [← hw, ← hh]
    cases byRow
    · simp only [Bool.false_eq_true, if_false] at hdi hbz
      rw [← rowOf_congr hw hh] at hbz
      have hdg := (unit_col (view x) (a := (i, i)) (hi i hii)).inG d hdi
      exact (unit_row (view x) (a := (d.1, d.1)) hdg.1).inG b hbz
    · simp only [if_true] at hdi hbz
      rw [← columnOf_congr hw hh] at hbz
      have hdg := (unit_row (view x) (a := (i, i)) (hi i hii)).inG d hdi
      exact (unit_col (view x) (a := (d.2, d.2)) hdg.2).inG b hbz
  · simp only [Step.mk']
    exact ⟨v, rfl, a, mem_sortCells.2 ha, (mem_others.1 ha).2.2⟩
  · intro g hg b hb
    simp only [Step.mk', mem_sortCells, mem_others] at hb
    simp only [Step.mk', mem_sortInts, List.mem_singleton]
    obtain ⟨hcov, hnb, -⟩ := hb
    rw [List.mem_flatMap] at hcov
    obtain ⟨z, hz, hbz⟩ := hcov
    have hgx := c.cons _ hx g hg
    refine fish_forced hgx byRow (by rw [c.bw _ hx, c.bh _ hx]; exact hv) indices hnd hi _ ?_ ?_ (by omega) hz ?_ hnb
    · intro i hii d hd hdl
      refine mem_having.2 ⟨hdl, ?_⟩
      rw [← hd]
      apply hgx.2
      cases byRow
      · exact (unit_col (view x) (a := (i, i)) (hi i hii)).inG d hdl
      · exact (unit_row (view x) (a := (i, i)) (hi i hii)).inG d hdl
    · intro i _ d hd
      exact (mem_having.1 hd).1
    · rw [rowOf_congr hw hh, columnOf_congr hw hh]; exact hbz

theorem findFish_inv (n : Nat) (c : Ctx view κ w h (.basicFish n) G P) {π : Orders W} (hπ : π.Ok) (x : W) (hx : P x) :
    P (findFish view κ π n x) := by
  unfold findFish
  refine foldl_inv P _ _ ?_ x hx
  rintro y ⟨b, v⟩ hv hy
  rw [Geometry.mem_product] at hv
  have := (Sudoku.mem_numbers _).1 hv.2
  rw [c.bw _ hx, c.bh _ hx] at this
  exact fishFor_inv n c hπ this b y hy

/-! ### brute force -/

theorem diffLoop_inv {t : Grid} (c : Ctx0 view κ w h .bruteforce (fun g => g = t) P) (t' : Sudoku) (ht : t'.num = t) (l : List Cell)
    (hl : ∀ a ∈ l, InGrid w h a) (x : W) (hx : P x) :
    P (l.foldl (fun x a => if (view x).get a ≠ t'.get a then κ x (Step.single .bruteforce a (t'.get a)) else x) x) := by
  refine foldl_inv P _ _ ?_ x hx
  intro y a ha hy
  try dsimp only
  split
  · rename_i hne
    have hag : InGrid (view y).bw (view y).bh a := by rw [c.bw _ hy, c.bh _ hy]; exact hl a ha
    refine c.step _ _ hy rfl (single_good (Or.inr (Or.inr rfl)) hag ?_ (Or.inr ?_) ?_) ⟨y, hy, trivial⟩
    · by_contra h0
      have := (c.may y hy t rfl).keeps a hag h0
      apply hne
      show (view y).num a = t'.num a
      rw [ht, this]
    · show IsNumber _ _ (t'.num a)
      rw [ht]; exact (c.may y hy t rfl).full a hag
    · rintro g rfl
      show g a = t'.num a
      rw [ht]
  · exact hy

end

end Solvers
