import Verif.Proofs.Complement
import Verif.Proofs.ComplementTables

set_option autoImplicit false

/-! # Tuples and fishes that are more than half of what is open are never reported (C116) -/

open Spec Solvers

namespace Props

/-- The number of empty fields in the row (column, box) of `e`. -/
def emptyIn (s : Sudoku) (k : Line) (e : Cell) : Nat := ((unitFields s k e).filter fun a => s.get a = 0).card

/-- How often `v` is in the sudoku. -/
def timesIn (s : Sudoku) (v : Int) : Nat := ((fields s.bw s.bh).filter fun a => s.get a = v).card

private theorem used_of {π : Orders Run} (hπ : π.Ok) {s : Sudoku} (hs : Solvable s.bw s.bh s.get) {fuel rounds : Nat}
    (hf : s.empty.length < fuel) {w : Run} (hw : solve π fuel rounds s = .ok (some w)) {st : Step} (hst : st ∈ w.2)
    (h1 : st.kind ≠ .calculateCandidates) (h2 : st.kind ≠ .bruteforce) :
    st.kind ∈ solvers ∧ ∃ g T, Neat g T ∧ T.bw = s.bw ∧ T.bh = s.bh ∧ (∀ a, InGrid s.bw s.bh a → s.num a ≠ 0 → T.num a = s.num a) ∧
      (∀ a, InGrid s.bw s.bh a → ∀ v ∈ T.cand a, IsNumber s.bw s.bh v) ∧ (∀ j, Earlier st.kind j → Idle T j) ∧ ¬ Idle T st.kind := by
  obtain ⟨w', h3, -, -, -, -, h4, -⟩ := solve_spec hπ s hs fuel (max rounds (s.empty.length * (s.bw * s.bh + 1) + 1)) hf (by omega)
  have h5 := loop_mono hw (max rounds (s.empty.length * (s.bw * s.bh + 1) + 1)) (by omega)
  rw [show loop π fuel _ _ = solve π fuel (max rounds (s.empty.length * (s.bw * s.bh + 1) + 1)) s from rfl, h3] at h5
  cases h5
  refine ⟨h4 st hst, ?_⟩
  obtain ⟨g, T, h6, h7, h8, h9⟩ := ((solve_used hπ hs hf hw st hst).resolve_left h1).resolve_left h2
  have e := init_dims s
  refine ⟨g, T, h6, h7.bw.trans e.1, h7.bh.trans e.2.1, fun a ha h0 => ?_, fun a ha v hv => ?_, h8, h9⟩
  · have := h7.num a (by rw [e.1, e.2.1]; exact ha) (by rw [e.2.2]; exact h0)
    rwa [e.2.2] at this
  · have := h7.cand a (by rw [e.1, e.2.1]; exact ha) hv
    rw [Solve.initCandidates_eq] at this
    simp only [ha, true_or, and_self, if_true] at this
    obtain ⟨g', hg⟩ := hs
    by_cases h0 : s.num a = 0
    · rw [Solve.mem_calc_empty ha h0] at this
      exact this.1
    · rw [Solve.calc_filled h0, Finset.mem_singleton, show s.num a = g' a from (hg.keeps a ha h0).symm] at this
      rw [this]
      exact hg.full a ha

private theorem emptyIn_ge {s T : Sudoku} (hw : T.bw = s.bw) (hh : T.bh = s.bh)
    (hn : ∀ a, InGrid s.bw s.bh a → s.num a ≠ 0 → T.num a = s.num a) (k : Line) (e : Cell) : (openFields T k e).card ≤ emptyIn s k e := by
  refine Finset.card_le_card fun a ha => ?_
  obtain ⟨h1, h2⟩ := mem_open.1 ha
  have h1' : a ∈ unitFields s k e := by
    rw [mem_unitFields] at h1 ⊢
    rw [← hw, ← hh]; exact h1
  refine Finset.mem_filter.2 ⟨h1', ?_⟩
  by_contra h0
  exact h0 ((hn a (inGrid_of_unit h1') h0).symm.trans h2)

/-- **C116** A naked tuple of `n` fields is reported only if some row, column or box has at least `2 * n` empty fields: otherwise
the other empty fields are a smaller hidden tuple, which is found before. -/
theorem C116_naked (π : Orders Run) (hπ : π.Ok) (s : Sudoku) (hs : Solvable s.bw s.bh s.get) (fuel rounds : Nat)
    (hf : s.empty.length < fuel) (w : Run) (hw : solve π fuel rounds s = .ok (some w)) (st : Step) (hst : st ∈ w.2) (n : Nat)
    (hk : st.kind = .nakedTuple n) : ∃ k e, InGrid s.bw s.bh e ∧ 2 * n ≤ emptyIn s k e := by
  obtain ⟨h1, g, T, h2, h3, h4, h5, -, h7, h8⟩ := used_of hπ hs hf hw hst (by rw [hk]; simp) (by rw [hk]; simp)
  rw [hk] at h1 h7 h8
  simp only [Idle, not_forall, not_not] at h8
  obtain ⟨k, e, F, he, -, hp⟩ := h8
  have key : ∀ n, Kind.nakedTuple n ∈ solvers → Earlier (.nakedTuple n) .hiddenSingle ∧
      ∀ m, 2 ≤ m → m + 1 ≤ n → Earlier (.nakedTuple n) (.hiddenTuple m) := by
    intro n hn
    have : n = 2 ∨ n = 3 ∨ n = 4 ∨ n = 5 := by simpa [solvers] using hn
    rcases this with rfl | rfl | rfl | rfl
    · exact ⟨by unfold Earlier; decide, fun m _ _ => by omega⟩
    · exact ⟨by unfold Earlier; decide, fun m _ _ => by obtain rfl : m = 2 := by omega
                                                        unfold Earlier; decide⟩
    · refine ⟨by unfold Earlier; decide, fun m _ _ => ?_⟩
      have : m = 2 ∨ m = 3 := by omega
      rcases this with rfl | rfl <;> (unfold Earlier; decide)
    · refine ⟨by unfold Earlier; decide, fun m _ _ => ?_⟩
      have : m = 2 ∨ m = 3 ∨ m = 4 := by omega
      rcases this with rfl | rfl | rfl <;> (unfold Earlier; decide)
  obtain ⟨k1, k2⟩ := key n h1
  have h9 := naked_complement h2 (h7 _ k1) (fun m h h' => h7 _ (k2 m h h')) he hp
  exact ⟨k, e, by rw [← h3, ← h4]; exact he, h9.trans (emptyIn_ge h3 h4 h5 k e)⟩

/-- **C116** A hidden tuple of `n` numbers is reported only if some row, column or box has more than `2 * n` empty fields:
otherwise the other empty fields are a naked tuple, which is found before. -/
theorem C116_hidden (π : Orders Run) (hπ : π.Ok) (s : Sudoku) (hs : Solvable s.bw s.bh s.get) (fuel rounds : Nat)
    (hf : s.empty.length < fuel) (w : Run) (hw : solve π fuel rounds s = .ok (some w)) (st : Step) (hst : st ∈ w.2) (n : Nat)
    (hk : st.kind = .hiddenTuple n) : ∃ k e, InGrid s.bw s.bh e ∧ 2 * n < emptyIn s k e := by
  obtain ⟨h1, g, T, h2, h3, h4, h5, h6, h7, h8⟩ := used_of hπ hs hf hw hst (by rw [hk]; simp) (by rw [hk]; simp)
  rw [hk] at h1 h7 h8
  simp only [Idle, not_forall, not_not] at h8
  obtain ⟨k, e, V, he, -, hp⟩ := h8
  have key : ∀ n, Kind.hiddenTuple n ∈ solvers → Earlier (.hiddenTuple n) .nakedSingle ∧
      ∀ m, 2 ≤ m → m ≤ n → Earlier (.hiddenTuple n) (.nakedTuple m) := by
    intro n hn
    have : n = 2 ∨ n = 3 ∨ n = 4 ∨ n = 5 := by simpa [solvers] using hn
    rcases this with rfl | rfl | rfl | rfl
    · exact ⟨by unfold Earlier; decide, fun m _ _ => by obtain rfl : m = 2 := by omega
                                                        unfold Earlier; decide⟩
    · refine ⟨by unfold Earlier; decide, fun m _ _ => ?_⟩
      have : m = 2 ∨ m = 3 := by omega
      rcases this with rfl | rfl <;> (unfold Earlier; decide)
    · refine ⟨by unfold Earlier; decide, fun m _ _ => ?_⟩
      have : m = 2 ∨ m = 3 ∨ m = 4 := by omega
      rcases this with rfl | rfl | rfl <;> (unfold Earlier; decide)
    · refine ⟨by unfold Earlier; decide, fun m _ _ => ?_⟩
      have : m = 2 ∨ m = 3 ∨ m = 4 ∨ m = 5 := by omega
      rcases this with rfl | rfl | rfl | rfl <;> (unfold Earlier; decide)
  obtain ⟨k1, k2⟩ := key n h1
  have h9 := hidden_complement h2 (h7 _ k1) (fun m h h' => h7 _ (k2 m h h'))
    (fun a ha v hv => by rw [h3, h4] at ha ⊢; exact h6 a ha v hv) he hp
  exact ⟨k, e, by rw [← h3, ← h4]; exact he, lt_of_lt_of_le h9 (emptyIn_ge h3 h4 h5 k e)⟩

private theorem timesIn_le {s T : Sudoku} {g : Grid} (hg : Neat g T) (hw : T.bw = s.bw) (hh : T.bh = s.bh)
    (hn : ∀ a, InGrid s.bw s.bh a → s.num a ≠ 0 → T.num a = s.num a) (byRow : Bool) {v : Int} (hv : v ≠ 0) :
    timesIn s v + (openRows T byRow v).card ≤ s.bw * s.bh := by
  have h1 : timesIn s v ≤ ((Finset.range (T.bw * T.bh)).filter fun i => ¬ ∀ a ∈ unitFields T (along byRow) (i, i), T.num a ≠ v).card := by
    have hnum : ∀ a ∈ (fields s.bw s.bh).filter (fun a => s.get a = v), InGrid T.bw T.bh a ∧ T.num a = v := by
      intro a ha
      obtain ⟨h1, h2⟩ := Finset.mem_filter.1 ha
      rw [mem_fields] at h1
      have h2 : s.num a = v := h2
      refine ⟨by rw [hw, hh]; exact h1, ?_⟩
      rw [hn a h1 (by rw [h2]; exact hv), h2]
    refine Finset.card_le_card_of_injOn (across (!byRow)) (fun a ha => ?_) (fun a ha b hb e => ?_)
    · obtain ⟨h1, h2⟩ := hnum a ha
      rw [Finset.mem_coe, Finset.mem_filter, Finset.mem_range]
      refine ⟨by cases byRow <;> [exact h1.2; exact h1.1], fun h => h a ?_ h2⟩
      rw [mem_unitFields]
      exact ⟨h1, by cases byRow <;> rfl⟩
    · obtain ⟨h1, h2⟩ := hnum a ha
      obtain ⟨h3, h4⟩ := hnum b hb
      by_contra hne
      refine hg.cons.1.valid a b h1 h3 (peer_across e hne) ?_ ?_
      · rw [← hg.num h1 (by rw [h2]; exact hv), h2]; exact hv
      · rw [← hg.num h1 (by rw [h2]; exact hv), ← hg.num h3 (by rw [h4]; exact hv), h2, h4]
  have h2 : (openRows T byRow v).card + _ = _ := Finset.card_filter_add_card_filter_not (s := Finset.range (T.bw * T.bh))
    (fun i => ∀ a ∈ unitFields T (along byRow) (i, i), T.num a ≠ v)
  rw [Finset.card_range, hw, hh] at h2
  rw [hw, hh] at h1
  omega

/-- **C116** A fish of `n` rows is reported only if some number is missing in at least `2 * n` rows: otherwise the other columns
are a smaller fish, which is found before. -/
theorem C116_fish (π : Orders Run) (hπ : π.Ok) (s : Sudoku) (hs : Solvable s.bw s.bh s.get) (fuel rounds : Nat)
    (hf : s.empty.length < fuel) (w : Run) (hw : solve π fuel rounds s = .ok (some w)) (st : Step) (hst : st ∈ w.2) (n : Nat)
    (hk : st.kind = .basicFish n) : ∃ v, IsNumber s.bw s.bh v ∧ timesIn s v + 2 * n ≤ s.bw * s.bh := by
  obtain ⟨h1, g, T, h2, h3, h4, h5, -, h7, h8⟩ := used_of hπ hs hf hw hst (by rw [hk]; simp) (by rw [hk]; simp)
  rw [hk] at h1 h7 h8
  simp only [Idle, not_forall, not_not] at h8
  obtain ⟨byRow, v, I, hp⟩ := h8
  have key : ∀ n, Kind.basicFish n ∈ solvers → Earlier (.basicFish n) .hiddenSingle ∧
      ∀ m, 2 ≤ m → m + 1 ≤ n → Earlier (.basicFish n) (.basicFish m) := by
    intro n hn
    have : n = 2 ∨ n = 3 ∨ n = 4 := by simpa [solvers] using hn
    rcases this with rfl | rfl | rfl
    · exact ⟨by unfold Earlier; decide, fun m _ _ => by omega⟩
    · exact ⟨by unfold Earlier; decide, fun m _ _ => by obtain rfl : m = 2 := by omega
                                                        unfold Earlier; decide⟩
    · refine ⟨by unfold Earlier; decide, fun m _ _ => ?_⟩
      have : m = 2 ∨ m = 3 := by omega
      rcases this with rfl | rfl <;> (unfold Earlier; decide)
  obtain ⟨k1, k2⟩ := key n h1
  have h9 := fish_complement h2 (h7 _ k1) (fun m h h' => h7 _ (k2 m h h')) hp
  have h10 := timesIn_le h2 h3 h4 h5 byRow (v := v) (by have := hp.number.1; omega)
  exact ⟨v, by rw [← h3, ← h4]; exact hp.number, by omega⟩

/-- **C116** A pointing tuple of `n` fields is reported only if a box is `n` wide or high. -/
theorem C116_pointing (π : Orders Run) (hπ : π.Ok) (s : Sudoku) (hs : Solvable s.bw s.bh s.get) (fuel rounds : Nat)
    (hf : s.empty.length < fuel) (w : Run) (hw : solve π fuel rounds s = .ok (some w)) (st : Step) (hst : st ∈ w.2) (n : Nat)
    (hk : st.kind = .pointingTuple n) : n ≤ max s.bw s.bh := by
  obtain ⟨-, g, T, -, h3, h4, -, -, -, h8⟩ := used_of hπ hs hf hw hst (by rw [hk]; simp) (by rw [hk]; simp)
  rw [hk] at h8
  simp only [Idle, not_forall, not_not] at h8
  obtain ⟨k, k', e, f, v, hkk, hp⟩ := h8
  rw [← h3, ← h4]
  exact pointing_size hkk hp

private theorem emptyIn_le (s : Sudoku) (k : Line) {e : Cell} (he : InGrid s.bw s.bh e) : emptyIn s k e ≤ s.bw * s.bh := by
  refine le_trans (Finset.card_filter_le _ _) ?_
  obtain ⟨g, hg⟩ : ∃ g : Cell → Nat, Set.InjOn g (unitFields s k e) ∧ ∀ a ∈ unitFields s k e, g a ∈ Finset.range (s.bw * s.bh) := by
    have hpos : 0 < s.bw * s.bh := lt_of_le_of_lt (Nat.zero_le _) he.1
    have hw := Nat.pos_of_mul_pos_right hpos
    have hh := Nat.pos_of_mul_pos_left hpos
    cases k with
    | row =>
      refine ⟨fun a => a.2, fun a ha b hb e' => ?_, fun a ha => Finset.mem_range.2 (inGrid_of_unit ha).2⟩
      exact Prod.ext ((mem_unitFields.1 ha).2.symm.trans (mem_unitFields.1 hb).2) e'
    | column =>
      refine ⟨fun a => a.1, fun a ha b hb e' => ?_, fun a ha => Finset.mem_range.2 (inGrid_of_unit ha).1⟩
      exact Prod.ext e' ((mem_unitFields.1 ha).2.symm.trans (mem_unitFields.1 hb).2)
    | box =>
      refine ⟨fun a => (a.1 % s.bh) * s.bw + a.2 % s.bw, fun a ha b hb e' => ?_, fun a ha => Finset.mem_range.2 ?_⟩
      · obtain ⟨ha1, ha2⟩ := (mem_unitFields.1 ha).2
        obtain ⟨hb1, hb2⟩ := (mem_unitFields.1 hb).2
        have e' : (a.1 % s.bh) * s.bw + a.2 % s.bw = (b.1 % s.bh) * s.bw + b.2 % s.bw := e'
        have h1 : a.2 % s.bw = b.2 % s.bw := by
          have := congrArg (· % s.bw) e'
          simpa [Nat.add_mod, Nat.mul_mod] using this
        have h2 : a.1 % s.bh = b.1 % s.bh := by
          rw [h1] at e'
          exact Nat.eq_of_mul_eq_mul_right hw (by omega)
        refine Prod.ext ?_ ?_
        · rw [← Nat.div_add_mod a.1 s.bh, ← ha1, hb1, h2, Nat.div_add_mod]
        · rw [← Nat.div_add_mod a.2 s.bw, ← ha2, hb2, h1, Nat.div_add_mod]
      · have h1 := Nat.mod_lt a.1 hh
        have h2 := Nat.mod_lt a.2 hw
        calc (a.1 % s.bh) * s.bw + a.2 % s.bw < (a.1 % s.bh) * s.bw + s.bw := by omega
          _ = (a.1 % s.bh + 1) * s.bw := by rw [Nat.add_mul, Nat.one_mul]
          _ ≤ s.bh * s.bw := Nat.mul_le_mul_right _ h1
          _ = s.bw * s.bh := Nat.mul_comm _ _
  have := Finset.card_le_card_of_injOn g hg.2 hg.1
  rwa [Finset.card_range] at this

/-- **C116** So the classes with 5 fields or numbers are never used for sudokus of size 9 (or smaller). -/
theorem C116_quint (π : Orders Run) (hπ : π.Ok) (s : Sudoku) (hN : s.bw * s.bh ≤ 9) (hs : Solvable s.bw s.bh s.get) (fuel rounds : Nat)
    (hf : s.empty.length < fuel) (w : Run) (hw : solve π fuel rounds s = .ok (some w)) (st : Step) (hst : st ∈ w.2) :
    st.kind ≠ .nakedTuple 5 ∧ st.kind ≠ .hiddenTuple 5 := by
  constructor
  · intro hk
    obtain ⟨k, e, he, h⟩ := C116_naked π hπ s hs fuel rounds hf w hw st hst 5 hk
    have := emptyIn_le s k he
    omega
  · intro hk
    obtain ⟨k, e, he, h⟩ := C116_hidden π hπ s hs fuel rounds hf w hw st hst 5 hk
    have := emptyIn_le s k he
    omega

/-- **C116** For sudokus with boxes 2 wide and 2 high, only these classes are ever used. -/
theorem C116_four (π : Orders Run) (hπ : π.Ok) (s : Sudoku) (hbw : s.bw = 2) (hbh : s.bh = 2) (hs : Solvable s.bw s.bh s.get)
    (fuel rounds : Nat) (hf : s.empty.length < fuel) (w : Run) (hw : solve π fuel rounds s = .ok (some w)) (st : Step) (hst : st ∈ w.2) :
    st.kind ∈ [.calculateCandidates, .nakedSingle, .hiddenSingle, .nakedTuple 2, .pointingTuple 2, .basicFish 2, .bruteforce] := by
  by_cases h1 : st.kind = .calculateCandidates
  · rw [h1]; decide
  by_cases h2 : st.kind = .bruteforce
  · rw [h2]; decide
  have hN : s.bw * s.bh = 4 := by rw [hbw, hbh]
  have hmem := (used_of hπ hs hf hw hst h1 h2).1
  have hnaked : ∀ n, st.kind = .nakedTuple n → n ≤ 2 := by
    intro n hk
    obtain ⟨k, e, he, h⟩ := C116_naked π hπ s hs fuel rounds hf w hw st hst n hk
    have := emptyIn_le s k he
    omega
  have hhidden : ∀ n, st.kind = .hiddenTuple n → n ≤ 1 := by
    intro n hk
    obtain ⟨k, e, he, h⟩ := C116_hidden π hπ s hs fuel rounds hf w hw st hst n hk
    have := emptyIn_le s k he
    omega
  have hfish : ∀ n, st.kind = .basicFish n → n ≤ 2 := by
    intro n hk
    obtain ⟨v, -, h⟩ := C116_fish π hπ s hs fuel rounds hf w hw st hst n hk
    omega
  have hpoint : ∀ n, st.kind = .pointingTuple n → n ≤ 2 := by
    intro n hk
    have := C116_pointing π hπ s hs fuel rounds hf w hw st hst n hk
    rw [hbw, hbh] at this
    exact this
  generalize st.kind = k at *
  have : ∀ k ∈ solvers, (∀ n, k = .nakedTuple n → n ≤ 2) → (∀ n, k = .hiddenTuple n → n ≤ 1) → (∀ n, k = .basicFish n → n ≤ 2) →
      (∀ n, k = .pointingTuple n → n ≤ 2) →
      k ∈ [.calculateCandidates, .nakedSingle, .hiddenSingle, .nakedTuple 2, .pointingTuple 2, .basicFish 2, .bruteforce] := by
    intro k hk h1 h2 h3 h4
    cases k with
    | nakedTuple n =>
      have := h1 n rfl
      have h5 : n = 2 ∨ n = 3 ∨ n = 4 ∨ n = 5 := by simpa [solvers] using hk
      obtain rfl : n = 2 := by omega
      decide
    | hiddenTuple n =>
      have := h2 n rfl
      have h5 : n = 2 ∨ n = 3 ∨ n = 4 ∨ n = 5 := by simpa [solvers] using hk
      omega
    | basicFish n =>
      have := h3 n rfl
      have h5 : n = 2 ∨ n = 3 ∨ n = 4 := by simpa [solvers] using hk
      obtain rfl : n = 2 := by omega
      decide
    | pointingTuple n =>
      have := h4 n rfl
      have h5 : n = 2 ∨ n = 3 := by simpa [solvers] using hk
      obtain rfl : n = 2 := by omega
      decide
    | _ => decide
  exact this k hmem hnaked hhidden hfish hpoint

/-- **C116** The bounds are attained: in sudokus of size 6, where a unit has at most 6 empty fields, naked triples, hidden pairs (and
fishes of 2 rows) are reported. -/
theorem C116_attained :
    (∃ w, solve (plainWatch Run) 37 300 tripleUse = .ok (some w) ∧ ∃ st ∈ w.2, st.kind = .nakedTuple 3) ∧
    (∃ w, solve (plainWatch Run) 37 300 hiddenUse = .ok (some w) ∧ ∃ st ∈ w.2, st.kind = .hiddenTuple 2) ∧
    ∃ w, solve (plainWatch Run) 37 300 wingUse = .ok (some w) ∧ ∃ st ∈ w.2, st.kind = .basicFish 2 :=
  ⟨triple_uses, hidden_uses, wing_uses⟩

/-- A sample: the naked triple of `tripleUse` needs a unit with 6 empty fields, which its first row is. -/
example : (∃ k e, InGrid 3 2 e ∧ 2 * 3 ≤ emptyIn tripleUse k e) ∧ emptyIn tripleUse .row (0, 0) = 6 := by
  obtain ⟨w, hw, st, hst, hk⟩ := triple_uses
  exact ⟨C116_naked _ (plainWatch_ok Run) tripleUse ⟨tripleSol.num, (by decide +kernel : IsSolution 3 2 tripleUse.num tripleSol.num)⟩ 37 300
    (by decide +kernel) w hw st hst 3 hk, by decide +kernel⟩

/-- A sample: the hidden pair of `hiddenUse` needs a unit with 5 empty fields. -/
example : (∃ k e, InGrid 3 2 e ∧ 2 * 2 < emptyIn hiddenUse k e) ∧ emptyIn hiddenUse .row (4, 0) = 6 := by
  obtain ⟨w, hw, st, hst, hk⟩ := hidden_uses
  exact ⟨C116_hidden _ (plainWatch_ok Run) hiddenUse ⟨hiddenSol.num, (by decide +kernel : IsSolution 3 2 hiddenUse.num hiddenSol.num)⟩ 37 300
    (by decide +kernel) w hw st hst 2 hk, by decide +kernel⟩

/-- A sample: the fish of `wingUse` needs a number that is missing in 4 rows; 3 is such a number. -/
example : (∃ v, IsNumber 3 2 v ∧ timesIn wingUse v + 2 * 2 ≤ 3 * 2) ∧ timesIn wingUse 3 = 1 := by
  obtain ⟨w, hw, st, hst, hk⟩ := wing_uses
  exact ⟨C116_fish _ (plainWatch_ok Run) wingUse ⟨wingSol.num, (by decide +kernel : IsSolution 3 2 wingUse.num wingSol.num)⟩ 37 300
    (by decide +kernel) w hw st hst 2 hk, by decide +kernel⟩

/-- A sample for `C116_quint`. -/
example : ∃ w, solve (plainWatch Run) 37 300 tripleUse = .ok (some w) ∧ w.2 ≠ [] ∧ ∀ st ∈ w.2, st.kind ≠ .nakedTuple 5 ∧ st.kind ≠ .hiddenTuple 5 := by
  obtain ⟨w, hw, st, hst, -⟩ := triple_uses
  exact ⟨w, hw, List.ne_nil_of_mem hst, C116_quint _ (plainWatch_ok Run) tripleUse (by decide)
    ⟨tripleSol.num, (by decide +kernel : IsSolution 3 2 tripleUse.num tripleSol.num)⟩ 37 300 (by decide +kernel) w hw⟩

/-- A sample for `C116_four`: a fish is reported, so the list is not just the singles. -/
example : ∃ w, solve (plainWatch Run) 37 300 fourUse = .ok (some w) ∧ (∃ st ∈ w.2, st.kind = .basicFish 2) ∧ ∀ st ∈ w.2,
    st.kind ∈ [.calculateCandidates, .nakedSingle, .hiddenSingle, .nakedTuple 2, .pointingTuple 2, .basicFish 2, .bruteforce] := by
  obtain ⟨w, hw, h⟩ := four_uses
  exact ⟨w, hw, h, C116_four _ (plainWatch_ok Run) fourUse rfl rfl
    ⟨fourSol.num, (by decide +kernel : IsSolution 2 2 fourUse.num fourSol.num)⟩ 37 300 (by decide +kernel) w hw⟩

/-- A sample for `C116_pointing`. -/
example : (∃ w, solve (plainWatch Run) 20 300 pointUse = .ok (some w) ∧ ∃ st ∈ w.2, st.kind = .pointingTuple 2) ∧ 2 ≤ max pointUse.bw pointUse.bh := by
  obtain ⟨w, hw, st, hst, hk⟩ := point_uses
  exact ⟨point_uses, C116_pointing _ (plainWatch_ok Run) pointUse ⟨fewer6.num, (by decide +kernel : IsSolution 2 3 pointUse.num fewer6.num)⟩
    20 300 (by decide +kernel) w hw st hst 2 hk⟩

end Props
