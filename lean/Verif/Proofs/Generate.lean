import Verif.Model.Generate
import Verif.Props.Solve
import Verif.Proofs.Units
import Mathlib.Data.Nat.ModEq
import Mathlib.Data.List.Nodup
import Mathlib.Data.List.GetD

set_option autoImplicit false

/-! Helper lemmas for `generate.py`. -/

open Spec

namespace Generate

/-! ## Every filled first box can be completed -/

/-- The shifted grid: row `h*R+i` starts with `w*i+R`. -/
def shift (w h : Nat) (a : Cell) : Nat := (w * (a.1 % h) + a.1 / h + a.2) % (w * h)

theorem lt_of_cell {w h : Nat} {r : Nat} (hh : 0 < h) (hr : r < w * h) : w * (r % h) + r / h < w * h := by
  have h1 : r / h < w := Nat.div_lt_of_lt_mul (by rw [Nat.mul_comm]; exact hr)
  have h2 := Nat.mod_lt r hh
  calc w * (r % h) + r / h < w * (r % h) + w := by omega
    _ = w * (r % h + 1) := by rw [Nat.mul_succ]
    _ ≤ w * h := Nat.mul_le_mul_left _ h2

theorem shift_lt {w h : Nat} {a : Cell} (ha : InGrid w h a) : shift w h a < w * h :=
  Nat.mod_lt _ (Nat.lt_of_le_of_lt (Nat.zero_le _) ha.1)

theorem shift_ne {w h : Nat} {a b : Cell} (ha : InGrid w h a) (hb : InGrid w h b) (hp : Peer w h a b) :
    shift w h a ≠ shift w h b := by
  obtain ⟨hw, hh⟩ := Geometry.inGrid_pos ha
  obtain ⟨hne, hp⟩ := hp
  intro e
  apply hne
  rcases hp with h1 | h1 | ⟨h1, h2⟩
  · have h1 : a.1 = b.1 := h1
    unfold shift at e
    rw [h1] at e
    have : a.2 ≡ b.2 [MOD w * h] := Nat.ModEq.add_left_cancel' _ e
    refine Prod.ext h1 ?_
    rw [← Nat.mod_eq_of_lt ha.2, ← Nat.mod_eq_of_lt hb.2]
    exact this
  · have h1 : a.2 = b.2 := h1
    unfold shift at e
    rw [h1] at e
    have e' : w * (a.1 % h) + a.1 / h ≡ w * (b.1 % h) + b.1 / h [MOD w * h] := Nat.ModEq.add_right_cancel' _ e
    have e'' : w * (a.1 % h) + a.1 / h = w * (b.1 % h) + b.1 / h := by
      rw [← Nat.mod_eq_of_lt (lt_of_cell hh ha.1), ← Nat.mod_eq_of_lt (lt_of_cell hh hb.1)]
      exact e'
    have ha' : a.1 / h < w := Nat.div_lt_of_lt_mul (by rw [Nat.mul_comm]; exact ha.1)
    have hb' : b.1 / h < w := Nat.div_lt_of_lt_mul (by rw [Nat.mul_comm]; exact hb.1)
    have m : a.1 % h = b.1 % h := by
      have := congrArg (· / w) e''
      simp only [Nat.mul_add_div hw, Nat.div_eq_of_lt ha', Nat.div_eq_of_lt hb', Nat.add_zero] at this
      exact this
    have d : a.1 / h = b.1 / h := by rw [m] at e''; omega
    refine Prod.ext ?_ h1
    rw [← Nat.div_add_mod a.1 h, ← Nat.div_add_mod b.1 h, m, d]
  · have key : ∀ c : Cell, shift w h c = (c.1 / h + w * (c.2 / w) + Coordinates.partAt c.1 c.2 w h) % (w * h) := by
      intro c
      unfold shift Coordinates.partAt
      congr 1
      have := Nat.div_add_mod c.2 w
      rw [Nat.mul_comm (c.1 % h) w]
      omega
    rw [key, key, h1, h2] at e
    have e' : Coordinates.partAt a.1 a.2 w h ≡ Coordinates.partAt b.1 b.2 w h [MOD w * h] := Nat.ModEq.add_left_cancel' _ e
    have e'' : Coordinates.partAt a.1 a.2 w h = Coordinates.partAt b.1 b.2 w h := by
      rw [← Nat.mod_eq_of_lt (Coordinates.partAt_lt (row := a.1) (col := a.2) hw hh),
        ← Nat.mod_eq_of_lt (Coordinates.partAt_lt (row := b.1) (col := b.2) hw hh)]
      exact e'
    obtain ⟨m1, m2⟩ := (Coordinates.partAt_eq_iff hw).1 e''
    refine Prod.ext ?_ ?_
    · rw [← Nat.div_add_mod a.1 h, ← Nat.div_add_mod b.1 h, m1, h1]
    · rw [← Nat.div_add_mod a.2 w, ← Nat.div_add_mod b.2 w, m2, h2]

/-- The first box lists the fields in the order of `shift`. -/
theorem map_shift (w h : Nat) : ∀ k ≤ h, (((List.range k).flatMap fun i => (List.range w).map fun j => (0 + i, 0 + j)).map
    (shift w h)) = List.range (k * w) := by
  intro k
  induction k with
  | zero => intro _; simp
  | succ k ih =>
    intro hk
    rw [List.range_succ, List.flatMap_append, List.map_append, ih (by omega), Nat.succ_mul, List.range_add]
    congr 1
    simp only [List.flatMap_cons, List.flatMap_nil, List.append_nil, List.map_map]
    apply List.map_congr_left
    intro j hj
    rw [List.mem_range] at hj
    simp only [Function.comp, shift, Nat.zero_add]
    rw [Nat.mod_eq_of_lt (show k < h by omega), Nat.div_eq_of_lt (show k < h by omega), Nat.add_zero, Nat.mul_comm w k]
    apply Nat.mod_eq_of_lt
    calc k * w + j < k * w + w := by omega
      _ = (k + 1) * w := by rw [Nat.succ_mul]
      _ ≤ h * w := Nat.mul_le_mul_right _ hk
      _ = w * h := Nat.mul_comm _ _

theorem fillBox_eq : ∀ (l : List Cell) (m : List Int) (s : Sudoku), l.length ≤ m.length →
    fillBox l m.reverse s = .ok ((l.zip m).foldl (fun s p => s.setNumber p.1 p.2) s)
  | [], m, s, _ => by simp [fillBox]
  | a :: l, [], s, h => by simp at h
  | a :: l, v :: m, s, h => by
    unfold fillBox
    rw [List.getLast?_reverse, List.head?_cons]
    simp only
    have : (v :: m).reverse.dropLast = m.reverse := by simp
    rw [this, fillBox_eq l m _ (by simpa using h)]
    simp

theorem foldl_pairs (ps : List (Cell × Int)) : ∀ (s : Sudoku), (ps.map Prod.fst).Nodup →
    (ps.foldl (fun s p => s.setNumber p.1 p.2) s).bw = s.bw ∧ (ps.foldl (fun s p => s.setNumber p.1 p.2) s).bh = s.bh ∧
    (∀ p ∈ ps, (ps.foldl (fun s p => s.setNumber p.1 p.2) s).num p.1 = p.2) ∧
    ∀ a, a ∉ ps.map Prod.fst → (ps.foldl (fun s p => s.setNumber p.1 p.2) s).num a = s.num a := by
  induction ps with
  | nil => intro s _; simp
  | cons q ps ih =>
    intro s hn
    rw [List.map_cons, List.nodup_cons] at hn
    obtain ⟨h1, h2, h3, h4⟩ := ih (s.setNumber q.1 q.2) hn.2
    simp only [List.foldl_cons]
    refine ⟨h1, h2, ?_, ?_⟩
    · intro p hp
      rcases List.mem_cons.1 hp with rfl | hp
      · rw [h4 _ hn.1]; simp [Sudoku.setNumber]
      · exact h3 p hp
    · intro a ha
      rw [List.map_cons, List.mem_cons, not_or] at ha
      rw [h4 a ha.2]
      simp [Sudoku.setNumber, ha.1]

theorem box_first {w h r c : Nat} (hr : r < h) (hc : c < w) :
    (Sudoku.new w h).boxOf (r, c) true = (List.range h).flatMap fun i => (List.range w).map fun j => (0 + i, 0 + j) := by
  unfold Sudoku.boxOf
  simp only [Sudoku.new_bw, Sudoku.new_bh, Bool.not_true, Bool.false_eq_true, if_false]
  rw [Nat.mod_eq_of_lt hr, Nat.mod_eq_of_lt hc]
  simp

/-- The sudoku with one filled box has a solution. -/
theorem filled_solvable {w h : Nat} {c : Choices} (hc : c.Ok w h) :
    ∃ s, fillBox ((Sudoku.new w h).boxOf (c.row, c.col) true) c.numbers (Sudoku.new w h) = .ok s ∧
      s.bw = w ∧ s.bh = h ∧ Solvable w h s.get := by
  obtain ⟨row, col, ns⟩ := c
  have hr : row < h := hc.row
  have hcol : col < w := hc.col
  have hns : ns.Perm (Sudoku.new w h).numbers := hc.numbers
  rw [box_first hr hcol]
  set l := (List.range h).flatMap fun i => (List.range w).map fun j => (0 + i, 0 + j) with hl
  have hlen : l.length = w * h := by rw [hl]; simp [Nat.mul_comm]
  have hnd : l.Nodup := by rw [hl]; exact Geometry.nodup_boxList 0 0 w h
  have hms : l.map (shift w h) = List.range (w * h) := by rw [hl, map_shift w h h le_rfl, Nat.mul_comm]
  set m := ns.reverse with hm
  have hmlen : m.length = w * h := by
    rw [hm, List.length_reverse, hns.length_eq, Sudoku.length_numbers]; rfl
  have hmp : m.Perm (Sudoku.new w h).numbers := (List.reverse_perm ns).trans hns
  have hmn : m.Nodup := hmp.nodup_iff.2 (Sudoku.nodup_numbers _)
  have hfill := fillBox_eq l m (Sudoku.new w h) (by rw [hlen, hmlen])
  rw [hm, List.reverse_reverse, ← hm] at hfill
  simp only
  rw [hfill]
  have hfst : (l.zip m).map Prod.fst = l := List.map_fst_zip (by rw [hlen, hmlen])
  obtain ⟨h1, h2, h3, h4⟩ := foldl_pairs (l.zip m) (Sudoku.new w h) (by rw [hfst]; exact hnd)
  refine ⟨_, rfl, h1, h2, fun a => m.getD (shift w h a) 0, ?_, ?_, ?_⟩
  · intro a ha h0
    by_cases hal : a ∈ l
    · obtain ⟨k, hk, e⟩ := List.mem_iff_getElem.1 hal
      have hk' : k < m.length := by rw [hmlen, ← hlen]; exact hk
      have : (a, m[k]) ∈ l.zip m := by
        rw [List.mem_iff_getElem]
        refine ⟨k, by rw [List.length_zip]; omega, ?_⟩
        rw [List.getElem_zip, e]
      have h5 := h3 _ this
      show m.getD (shift w h a) 0 = Sudoku.num _ a
      rw [h5]
      have hs : shift w h a = k := by
        have : (l.map (shift w h))[k]'(by rw [List.length_map]; exact hk) = shift w h a := by rw [List.getElem_map, e]
        rw [← this]
        simp only [hms, List.getElem_range]
      rw [hs, List.getD_eq_getElem _ _ hk']
    · rw [show Sudoku.get _ a = Sudoku.num _ a from rfl, h4 a (by rw [hfst]; exact hal)] at h0
      exact absurd rfl h0
  · intro a ha
    have := shift_lt ha
    rw [List.getD_eq_getElem _ _ (by rw [hmlen]; exact this)]
    have := hmp.mem_iff.1 (List.getElem_mem (l := m) (by rw [hmlen]; exact this))
    exact (Sudoku.mem_numbers _).1 this
  · intro a b ha hb hp _
    have h5 := shift_lt ha
    have h6 := shift_lt hb
    simp only
    rw [List.getD_eq_getElem _ _ (by rw [hmlen]; exact h5), List.getD_eq_getElem _ _ (by rw [hmlen]; exact h6)]
    intro e
    exact shift_ne ha hb hp ((List.Nodup.getElem_inj_iff hmn).1 e)

theorem length_empty_le (s : Sudoku) : s.empty.length ≤ (s.bw * s.bh) ^ 2 := by
  unfold Sudoku.empty
  refine le_trans (List.length_filter_le _ _) ?_
  unfold Sudoku.cells Coordinates.product Sudoku.indices Sudoku.n
  simp [pow_two]

theorem createSolution_spec {π : Dlx.Orders} (hπ : π.Ok) {fuel : Nat} {c : Choices} {w h : Nat} (hc : c.Ok w h)
    (hf : (w * h) ^ 2 < fuel) :
    ∃ t, createSolution π fuel c w h = .ok t ∧ Props.Plain w h t ∧ IsSolution w h (fun _ => 0) t.get := by
  obtain ⟨s, h1, h2, h3, h4⟩ := filled_solvable hc
  have hle := length_empty_le s
  rw [h2, h3] at hle
  obtain ⟨sols, h5, -, h6⟩ := Props.C18_dlx_complete π hπ fuel s (by omega)
  have h7 := Props.C17_dlx_sound π hπ fuel s sols h5
  rw [h2, h3] at h6 h7
  unfold createSolution
  have hpos : ¬ ((Sudoku.new w h).bh = 0 ∨ (Sudoku.new w h).bw = 0) := by
    have := hc.row; have := hc.col
    simp only [Sudoku.new_bw, Sudoku.new_bh]; omega
  simp only [if_neg hpos, h1, h5]
  cases sols with
  | nil => exact absurd h4 (h6.1 rfl)
  | cons t l =>
    obtain ⟨h8, h9⟩ := h7 t List.mem_cons_self
    exact ⟨t, rfl, h8, fun a _ h0 => absurd rfl h0, h9.full, h9.valid⟩

/-! ## Symmetries -/

theorem fields_self (w h : Nat) (a : Cell) (sym : Sym) : a ∈ sym.fields w h a := by
  cases sym <;> simp [Sym.fields]

theorem fields_inGrid {w h : Nat} {a b : Cell} (ha : InGrid w h a) {sym : Sym} (hb : b ∈ sym.fields w h a) : InGrid w h b := by
  obtain ⟨r, c⟩ := a
  have h1 : r < w * h := ha.1
  have h2 : c < w * h := ha.2
  cases sym <;> simp only [Sym.fields, List.mem_cons, List.not_mem_nil, or_false] at hb
  · subst hb; exact ha
  all_goals
    rcases hb with rfl | rfl | rfl | rfl <;> constructor <;> simp only <;> omega

theorem fields_eq {w h : Nat} {a b : Cell} (ha : InGrid w h a) {sym : Sym} (hb : b ∈ sym.fields w h a) (c : Cell) :
    c ∈ sym.fields w h b ↔ c ∈ sym.fields w h a := by
  obtain ⟨r, k⟩ := a
  have h1 : r ≤ w * h - 1 := Nat.le_sub_one_of_lt ha.1
  have h2 : k ≤ w * h - 1 := Nat.le_sub_one_of_lt ha.2
  have e1 := Nat.sub_sub_self h1
  have e2 := Nat.sub_sub_self h2
  cases sym <;> simp only [Sym.fields, List.mem_cons, List.not_mem_nil, or_false] at hb
  · subst hb; rfl
  · rcases hb with rfl | rfl | rfl | rfl <;>
      simp only [Sym.fields, List.mem_cons, List.not_mem_nil, or_false, e1, e2] <;> tauto
  · rcases hb with rfl | rfl <;>
      simp only [Sym.fields, List.mem_cons, List.not_mem_nil, or_false, e1, e2] <;> tauto
  · rcases hb with rfl | rfl <;>
      simp only [Sym.fields, List.mem_cons, List.not_mem_nil, or_false, e1] <;> tauto
  · rcases hb with rfl | rfl <;>
      simp only [Sym.fields, List.mem_cons, List.not_mem_nil, or_false, e2] <;> tauto
  · rcases hb with rfl | rfl | rfl | rfl <;>
      simp only [Sym.fields, List.mem_cons, List.not_mem_nil, or_false, e1, e2] <;> tauto

theorem fields_symm {w h : Nat} {a b : Cell} (ha : InGrid w h a) {sym : Sym} (hb : b ∈ sym.fields w h a) :
    a ∈ sym.fields w h b := (fields_eq ha hb a).2 (fields_self w h a sym)

/-! ## The loop -/

theorem removeFields_eq : ∀ (l coords : List Cell), l.Nodup → coords.Nodup → (∀ b ∈ l, b ∈ coords) →
    removeFields l coords = .ok (coords.diff l)
  | [], coords, _, _, _ => by simp [removeFields]
  | a :: l, coords, hl, hc, hs => by
    rw [List.nodup_cons] at hl
    unfold removeFields
    rw [if_pos (hs a List.mem_cons_self), List.diff_cons]
    refine removeFields_eq l _ hl.2 (hc.erase a) fun b hb => ?_
    rw [hc.mem_erase_iff]
    exact ⟨fun e => hl.1 (e ▸ hb), hs b (List.mem_cons_of_mem _ hb)⟩

theorem clear_fold (f : Cell → Int) (d : Int) : ∀ (l : List Cell) (s : Sudoku) (n : Int),
    l.foldl (fun (p : Sudoku × Int) b => (p.1.setNumber b (f b), p.2 + d)) (s, n) =
      ({ s with num := fun b => if b ∈ l then f b else s.num b }, n + l.length * d)
  | [], s, n => by simp
  | a :: l, s, n => by
    rw [List.foldl_cons, clear_fold f d l]
    simp only [Sudoku.setNumber, List.mem_cons, Prod.mk.injEq, Sudoku.mk.injEq, true_and, and_true]
    constructor
    · funext b
      by_cases hb : b ∈ l <;> by_cases h : b = a <;> simp [hb, h]
    · rw [List.length_cons, Nat.cast_succ, Int.add_mul, Int.one_mul]; omega

/-- Clearing the fields of a list. -/
def cleared (l : List Cell) (g : Grid) : Grid := fun b => if b ∈ l then 0 else g b

theorem unique_mono {w h : Nat} {s s' g : Grid} (hs : ∀ a, InGrid w h a → s a ≠ 0 → s' a = s a) (hg : IsSolution w h s' g)
    (hu : UniqueSolution w h s) : UniqueSolution w h s' := by
  have down : ∀ g, IsSolution w h s' g → IsSolution w h s g := fun g hg =>
    ⟨fun a ha h0 => by rw [hg.keeps a ha (by rw [hs a ha h0]; exact h0), hs a ha h0], hg.full, hg.valid⟩
  obtain ⟨g0, h1, h2⟩ := hu
  refine ⟨g, hg, fun g' hg' a ha => ?_⟩
  rw [← h2 g (down g hg) a ha, ← h2 g' (down g' hg') a ha]

/-- What holds at the beginning of each round. -/
structure Inv (w h : Nat) (sym : Sym) (minCount : Int) (sol : Grid) (coords : List Cell) (count : Int) (s : Sudoku) : Prop where
  bw : s.bw = w
  bh : s.bh = h
  cand : ∀ a, s.cand a = ∅
  out : ∀ a, ¬ InGrid w h a → s.num a = 0
  nodup : coords.Nodup
  grid : ∀ a ∈ coords, InGrid w h a
  closed : ∀ a ∈ coords, ∀ b ∈ sym.fields w h a, b ∈ coords
  clues : ∀ a, InGrid w h a → s.num a ≠ 0 → s.num a = sol a
  todo : ∀ a ∈ coords, s.num a ≠ 0
  symm : ∀ a, InGrid w h a → ∀ b ∈ sym.fields w h a, s.num a = 0 → s.num b = 0
  unique : UniqueSolution w h s.num
  countEq : count = s.count
  minOk : minCount ≤ count
  irred : ∀ a, InGrid w h a → a ∉ coords → s.num a ≠ 0 → ¬ UniqueSolution w h (cleared (sym.fields w h a) s.num)

theorem count_cleared {s : Sudoku} {l : List Cell} (hl : l.Nodup) (hg : ∀ a ∈ l, InGrid s.bw s.bh a ∧ s.num a ≠ 0) :
    ({ s with num := cleared l s.num } : Sudoku).count + l.length = s.count := by
  have e : ({ s with num := cleared l s.num } : Sudoku).filled = s.filled.filter fun a => decide (a ∉ l) := by
    unfold Sudoku.filled
    rw [List.filter_filter]
    show List.filter _ s.cells = _
    apply List.filter_congr
    intro a _
    show (cleared l s.num a != 0) = (decide (a ∉ l) && (s.num a != 0))
    unfold cleared
    by_cases h : a ∈ l <;> simp [h]
  have p : (s.filled.filter fun a => decide (a ∈ l)).Perm l := by
    rw [List.perm_ext_iff_of_nodup ((show s.filled.Nodup from s.nodup_cells.filter _).filter _) hl]
    intro a
    rw [List.mem_filter]
    constructor
    · rintro ⟨-, h⟩; exact of_decide_eq_true h
    · intro h
      refine ⟨?_, by simpa using h⟩
      unfold Sudoku.filled
      rw [List.mem_filter, Sudoku.mem_cells]
      exact ⟨(hg a h).1, by simpa [Sudoku.get] using (hg a h).2⟩
  unfold Sudoku.count
  rw [e, ← p.length_eq, List.length_eq_length_filter_add (l := s.filled) (fun a => decide (a ∈ l)), Nat.add_comm]
  congr 3
  funext a
  by_cases h : a ∈ l <;> simp [h]

theorem Inv.step {w h : Nat} {sym : Sym} {minCount : Int} {sol : Grid} (hsol : IsSolution w h (fun _ => 0) sol) {a : Cell}
    {l : List Cell} {count : Int} {s : Sudoku} (inv : Inv w h sym minCount sol (a :: l) count s)
    (hmin : minCount ≤ count - (sym.fields w h a).dedup.length) :
    let coords := (a :: l).diff (sym.fields w h a).dedup
    let s' : Sudoku := { s with num := cleared (sym.fields w h a) s.num }
    (UniqueSolution w h s'.num → Inv w h sym minCount sol coords (count - (sym.fields w h a).dedup.length) s') ∧
    (¬ UniqueSolution w h s'.num → Inv w h sym minCount sol coords count s) := by
  intro coords s'
  have ha := inv.grid a List.mem_cons_self
  have hmem : ∀ b, b ∈ coords ↔ b ∈ a :: l ∧ b ∉ sym.fields w h a := by
    intro b
    rw [show coords = _ from rfl, inv.nodup.mem_sdiff_iff, List.mem_dedup]
  have hnd : coords.Nodup := inv.nodup.diff
  have hcl : ∀ b ∈ coords, ∀ c ∈ sym.fields w h b, c ∈ coords := by
    intro b hb c hc
    rw [hmem] at hb ⊢
    refine ⟨inv.closed b hb.1 c hc, fun h1 => hb.2 ?_⟩
    have hbg := inv.grid b hb.1
    rw [← fields_eq ha h1]
    exact fields_symm hbg hc
  have hsolves : IsSolution w h s.num sol :=
    ⟨fun b hb h0 => (inv.clues b hb h0).symm, hsol.full, hsol.valid⟩
  constructor
  · intro hu
    refine ⟨inv.bw, inv.bh, inv.cand, ?_, hnd, fun b hb => inv.grid b ((hmem b).1 hb).1, hcl, ?_, ?_, ?_, hu, ?_, hmin, ?_⟩
    · intro b hb
      show cleared _ _ b = 0
      unfold cleared
      split
      · rfl
      · exact inv.out b hb
    · intro b hb
      show cleared _ _ b ≠ 0 → cleared _ _ b = _
      unfold cleared
      split
      · intro h; exact absurd rfl h
      · exact inv.clues b hb
    · intro b hb
      rw [hmem] at hb
      show cleared _ _ b ≠ 0
      unfold cleared
      rw [if_neg hb.2]
      exact inv.todo b hb.1
    · intro b hb c hc
      show cleared _ _ b = 0 → cleared _ _ c = 0
      unfold cleared
      by_cases h1 : b ∈ sym.fields w h a
      · rw [if_pos ((fields_eq ha h1 c).1 hc)]; exact fun _ => rfl
      · by_cases h2 : c ∈ sym.fields w h a
        · rw [if_pos h2]; exact fun _ => rfl
        · rw [if_neg h1, if_neg h2]; exact inv.symm b hb c hc
    · have := count_cleared (s := s) (l := (sym.fields w h a).dedup) (List.nodup_dedup _) (by
        intro b hb
        rw [List.mem_dedup] at hb
        have := inv.closed a List.mem_cons_self b hb
        rw [inv.bw, inv.bh]
        exact ⟨inv.grid b this, inv.todo b this⟩)
      have e : cleared (sym.fields w h a).dedup s.num = cleared (sym.fields w h a) s.num := by
        funext b; unfold cleared; simp only [List.mem_dedup]
      rw [e] at this
      rw [inv.countEq, ← this]
      show ((_ + _ : Nat) : Int) - _ = (Sudoku.count _ : Int)
      push_cast
      rw [Int.add_sub_cancel]
    · intro b hb hbc
      show cleared _ _ b ≠ 0 → _
      intro h0
      have h1 : b ∉ sym.fields w h a := by
        intro h1; unfold cleared at h0; rw [if_pos h1] at h0; exact h0 rfl
      have h2 : s.num b ≠ 0 := by unfold cleared at h0; rw [if_neg h1] at h0; exact h0
      have h3 : b ∉ a :: l := fun h => hbc ((hmem b).2 ⟨h, h1⟩)
      intro hu'
      refine inv.irred b hb h3 h2 (unique_mono ?_ (g := sol) ?_ hu')
      · intro c _
        show cleared _ (cleared _ _) c ≠ 0 → _ = cleared _ (cleared _ _) c
        unfold cleared
        by_cases h4 : c ∈ sym.fields w h b
        · simp [h4]
        · by_cases h5 : c ∈ sym.fields w h a
          · simp [h4, h5]
          · simp [h4, h5]
      · refine ⟨fun c hc h0 => ?_, hsol.full, hsol.valid⟩
        unfold cleared at h0 ⊢
        by_cases h4 : c ∈ sym.fields w h b
        · rw [if_pos h4] at h0; exact absurd rfl h0
        · rw [if_neg h4] at h0 ⊢; exact (inv.clues c hc h0).symm
  · intro hu
    refine ⟨inv.bw, inv.bh, inv.cand, inv.out, hnd, fun b hb => inv.grid b ((hmem b).1 hb).1, hcl, inv.clues,
      fun b hb => inv.todo b ((hmem b).1 hb).1, inv.symm, inv.unique, inv.countEq, inv.minOk, ?_⟩
    intro b hb hbc h0
    by_cases h1 : b ∈ a :: l
    · have h2 : b ∈ sym.fields w h a := by by_contra h2; exact hbc ((hmem b).2 ⟨h1, h2⟩)
      have e : cleared (sym.fields w h b) s.num = cleared (sym.fields w h a) s.num := by
        funext c; unfold cleared
        by_cases h3 : c ∈ sym.fields w h a
        · rw [if_pos h3, if_pos ((fields_eq ha h2 c).2 h3)]
        · rw [if_neg h3, if_neg fun h4 => h3 ((fields_eq ha h2 c).1 h4)]
      rw [e]; exact hu
    · exact inv.irred b hb h1 h0

/-- The loop ends without exception; the invariant holds at the end, and it ends because there are no coordinates left or
because the next orbit would bring `count` below `minCount`. -/
theorem reduce_spec {ρ : List Cell → RoundOrders} (hρ : ∀ l, (ρ l).Ok) {fuel w h : Nat} (hf : (w * h) ^ 2 < fuel) {sym : Sym}
    {minCount : Int} {sol : Sudoku} (hsol : IsSolution w h (fun _ => 0) sol.get) :
    ∀ (rounds : Nat) (coords : List Cell) (count : Int) (s : Sudoku), coords.length < rounds →
      Inv w h sym minCount sol.get coords count s →
      ∃ t coords' count', reduce ρ fuel sym minCount sol rounds coords count s = .ok (some t) ∧
        Inv w h sym minCount sol.get coords' count' t ∧
        (coords' = [] ∨ ∃ a, InGrid w h a ∧ (∀ b ∈ sym.fields w h a, t.num b ≠ 0) ∧
          count' - (sym.fields w h a).dedup.length < minCount) := by
  intro rounds
  induction rounds with
  | zero => intro coords _ _ h; exact absurd h (Nat.not_lt_zero _)
  | succ rounds ih =>
    intro coords count s hlen inv
    cases coords with
    | nil => exact ⟨s, [], count, rfl, inv, Or.inl rfl⟩
    | cons a l =>
      have ha := inv.grid a List.mem_cons_self
      have hρa := hρ (a :: l)
      have hpr := hρa.remove (sym.fields w h a).dedup
      have hpc := hρa.clear (sym.fields w h a).dedup
      have hpv := hρa.revert (sym.fields w h a).dedup
      unfold reduce
      simp only
      rw [inv.bw, inv.bh, removeFields_eq _ _ (hpr.nodup_iff.2 (List.nodup_dedup _)) inv.nodup (by
        intro b hb
        exact inv.closed a List.mem_cons_self b (List.mem_dedup.1 (hpr.mem_iff.1 hb)))]
      simp only
      by_cases hbreak : count - (sym.fields w h a).dedup.length < minCount
      · rw [if_pos hbreak]
        exact ⟨s, a :: l, count, rfl, inv, Or.inr ⟨a, ha,
          fun b hb => inv.todo b (inv.closed a List.mem_cons_self b hb), hbreak⟩⟩
      · rw [if_neg hbreak]
        obtain ⟨k1, k2⟩ := inv.step hsol (not_lt.1 hbreak)
        have hclear : ((ρ (a :: l)).clear (sym.fields w h a).dedup).foldl
            (fun (p : Sudoku × Int) b => (p.1.setNumber b 0, p.2 - 1)) (s, count) =
            ({ s with num := cleared (sym.fields w h a) s.num }, count - (sym.fields w h a).dedup.length) := by
          have := clear_fold (fun _ => 0) (-1) ((ρ (a :: l)).clear (sym.fields w h a).dedup) s count
          simp only [← Int.sub_eq_add_neg] at this
          rw [this, hpc.length_eq]
          simp only [Prod.mk.injEq, Sudoku.mk.injEq, true_and, and_true]
          constructor
          · funext b; unfold cleared; simp only [hpc.mem_iff, List.mem_dedup]
          · omega
        rw [hclear]
        simp only
        have hdiff : (a :: l).diff ((ρ (a :: l)).remove (sym.fields w h a).dedup) = (a :: l).diff (sym.fields w h a).dedup :=
          List.Perm.diff_left _ hpr
        have hlt : ((a :: l).diff (sym.fields w h a).dedup).length < rounds := by
          have hsub : (a :: l).diff (sym.fields w h a).dedup ⊆ l := by
            intro b hb
            rw [inv.nodup.mem_sdiff_iff, List.mem_dedup] at hb
            rcases List.mem_cons.1 hb.1 with rfl | hb'
            · exact absurd (fields_self w h b sym) hb.2
            · exact hb'
          have := (List.subperm_of_subset (inv.nodup.diff) hsub).length_le
          rw [List.length_cons] at hlen
          omega
        rw [hdiff]
        obtain ⟨b, hb, hbu⟩ := Props.C22_is_unique (ρ (a :: l)).dlx hρa.dlx fuel
          { s with num := cleared (sym.fields w h a) s.num } (by
            refine lt_of_le_of_lt (length_empty_le _) ?_
            simp only [inv.bw, inv.bh]; exact hf)
        have hbu : b = true ↔ UniqueSolution w h (cleared (sym.fields w h a) s.num) := by
          rw [hbu]; simp only [inv.bw, inv.bh]; rfl
        rw [hb]
        cases b with
        | true =>
          simp only
          exact ih _ _ _ hlt (k1 (hbu.1 rfl))
        | false =>
          simp only
          have hno : ¬ UniqueSolution w h (cleared (sym.fields w h a) s.num) := fun h => absurd (hbu.2 h) (by simp)
          have hrevert : ((ρ (a :: l)).revert (sym.fields w h a).dedup).foldl
              (fun (p : Sudoku × Int) b => (p.1.setNumber b (sol.get b), p.2 + 1))
              ({ s with num := cleared (sym.fields w h a) s.num }, count - (sym.fields w h a).dedup.length) = (s, count) := by
            rw [clear_fold sol.get 1, hpv.length_eq]
            refine Prod.ext ?_ (by simp)
            refine Sudoku.ext rfl rfl ?_ rfl
            funext b
            simp only [hpv.mem_iff, List.mem_dedup]
            by_cases h1 : b ∈ sym.fields w h a
            · rw [if_pos h1]
              have := inv.closed a List.mem_cons_self b h1
              exact (inv.clues b (inv.grid b this) (inv.todo b this)).symm
            · rw [if_neg h1]; unfold cleared; rw [if_neg h1]
          rw [hrevert]
          exact ih _ _ _ hlt (k2 hno)

theorem length_cells (s : Sudoku) : s.cells.length = s.len := by
  unfold Sudoku.cells Coordinates.product Sudoku.indices Sudoku.n Sudoku.len
  simp [pow_two, Nat.mul_assoc, Nat.mul_comm, Nat.mul_left_comm]

theorem full_unique {w h : Nat} {s : Grid} (hs : IsSolution w h s s) : UniqueSolution w h s :=
  ⟨s, hs, fun g' hg' a ha => (hg'.keeps a ha (by
    have := (hs.full a ha).1
    intro h0; rw [h0] at this; exact absurd this (by decide))).symm⟩

theorem copy_plain {w h : Nat} {s : Sudoku} (hp : Props.Plain w h s) : s.copy = s := by
  obtain ⟨h1, h2, h3, h4⟩ := hp
  rw [Sudoku.copy_eq]
  refine Sudoku.ext rfl rfl ?_ ?_
  · funext a
    simp only [h1, h2]
    split
    · rfl
    · rename_i hn; exact (h3 a hn).symm
  · funext a; simp [h4]

theorem start_inv {w h : Nat} {sym : Sym} {minCount : Int} {sol : Sudoku} (hp : Props.Plain w h sol)
    (hsol : IsSolution w h (fun _ => 0) sol.get) {coords : List Cell} (hc : coords.Perm (Sudoku.new w h).cells)
    (hmin : minCount ≤ (w ^ 2 * h ^ 2 : Nat)) :
    Inv w h sym minCount sol.get coords ((sol.copy).len : Nat) sol.copy := by
  obtain ⟨h1, h2, h3, h4⟩ := hp
  have hmem : ∀ a, a ∈ coords ↔ InGrid w h a := fun a => by rw [hc.mem_iff, Sudoku.mem_cells]; rfl
  have hcopy : sol.copy = sol := copy_plain ⟨h1, h2, h3, h4⟩
  have hne : ∀ a, InGrid w h a → sol.num a ≠ 0 := fun a ha h0 => by
    have := (hsol.full a ha).1
    rw [show sol.get a = sol.num a from rfl, h0] at this; exact absurd this (by decide)
  have hcount : sol.count = sol.len := by
    unfold Sudoku.count
    rw [← length_cells]
    congr 1
    unfold Sudoku.filled
    rw [List.filter_eq_self]
    intro a ha
    rw [Sudoku.mem_cells, h1, h2] at ha
    simpa [Sudoku.get] using hne a ha
  rw [hcopy]
  refine ⟨h1, h2, h4, h3, hc.nodup_iff.2 (Sudoku.nodup_cells _), fun a ha => (hmem a).1 ha,
    fun a ha b hb => (hmem b).2 (fields_inGrid ((hmem a).1 ha) hb), fun a _ _ => rfl, fun a ha => hne a ((hmem a).1 ha),
    fun a ha b _ h0 => absurd h0 (hne a ha), full_unique ⟨fun _ _ _ => rfl, hsol.full, hsol.valid⟩, by rw [hcount], ?_,
    fun a ha hn => absurd ((hmem a).2 ha) hn⟩
  unfold Sudoku.len
  rw [h1, h2]; exact hmin

theorem generate_spec {π : Dlx.Orders} (hπ : π.Ok) {ρ : List Cell → RoundOrders} (hρ : ∀ l, (ρ l).Ok) {fuel rounds w h : Nat}
    (hf : (w * h) ^ 2 < fuel) (hr : (w * h) ^ 2 < rounds) {c : Choices} (hc : c.Ok w h) {coords : List Cell}
    (hco : coords.Perm (Sudoku.new w h).cells) {minCount : Int} (hmin : minCount ≤ (w ^ 2 * h ^ 2 : Nat))
    {symmetry : Option String} {sym : Sym} (hs : Sym.lookup symmetry = some sym) :
    ∃ sol t coords' count', generate π ρ fuel rounds c coords minCount symmetry w h = .ok (some t) ∧
      createSolution π fuel c w h = .ok sol ∧
      IsSolution w h (fun _ => 0) sol.get ∧ Inv w h sym minCount sol.get coords' count' t ∧
      (coords' = [] ∨ ∃ a, InGrid w h a ∧ (∀ b ∈ sym.fields w h a, t.num b ≠ 0) ∧
          count' - (sym.fields w h a).dedup.length < minCount) := by
  obtain ⟨sol, h1, h2, h3⟩ := createSolution_spec hπ hc hf
  have hl : coords.length = (w * h) ^ 2 := by
    rw [hco.length_eq, length_cells]
    unfold Sudoku.len
    simp [Nat.mul_pow]
  obtain ⟨t, coords', count', h4, h5, h6⟩ := reduce_spec hρ hf h3 rounds coords _ _ (by rw [hl]; exact hr)
    (start_inv (sym := sym) h2 h3 hco hmin)
  refine ⟨sol, t, coords', count', ?_, h1, h3, h5, h6⟩
  unfold generate
  simp only
  rw [if_neg (not_lt.2 hmin), hs]
  simp only
  rw [h1]
  exact h4

/-! ## Templates -/

theorem mask_eq (template s : Sudoku) :
    mask template s = { s with num := fun a => if InGrid template.bw template.bh a ∧ template.get a = 0 then 0 else s.num a } := by
  unfold mask
  have key : ∀ (l : List Cell) (s : Sudoku),
      l.foldl (fun s a => if template.get a = 0 then s.setNumber a 0 else s) s =
        { s with num := fun a => if a ∈ l ∧ template.get a = 0 then 0 else s.num a } := by
    intro l
    induction l with
    | nil => intro s; simp
    | cons x l ih =>
      intro s
      rw [List.foldl_cons, ih]
      by_cases h0 : template.get x = 0
      · rw [if_pos h0]
        refine Sudoku.ext rfl rfl ?_ rfl
        funext a
        simp only [List.mem_cons, Sudoku.setNumber]
        by_cases hx : a = x
        · subst hx; simp [h0]
        · by_cases hl : a ∈ l <;> by_cases hz : template.get a = 0 <;> simp [hx, hl, hz]
      · rw [if_neg h0]
        refine Sudoku.ext rfl rfl ?_ rfl
        funext a
        simp only [List.mem_cons]
        by_cases hx : a = x
        · subst hx; simp [h0]
        · simp [hx]
  rw [key]
  simp only [Sudoku.mem_cells]

end Generate
