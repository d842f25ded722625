import Verif.Proofs.Generate

set_option autoImplicit false

/-! Helper lemmas: which sudokus `create_solution` and `generate` can return. -/

open Spec

namespace Dlx

variable {R C : Nat}

/-- If the rows of the cover `T` are tried first, `T` is found first. -/
theorem search_first {π : Orders} (hπ : π.Ok) (T₀ : Finset Row)
    (hfirst : ∀ p l r, (π.rows p l).head? = some r → (∃ x ∈ l, x ∈ T₀) → r ∈ T₀) (fuel : Nat) :
    ∀ (D : Finset Col) (X : Dict Col (List Row)) (sol : List Row) (T : Finset Row) (sols : List (List Row))
      (X' : Dict Col (List Row)), Rep R C X D → IsCover R C D T → T ⊆ T₀ →
      (∀ i ∈ T₀, ∀ i' ∈ T₀, ∀ j ∈ colsOf R C i, j ∈ colsOf R C i' → i = i') →
      search π (matrix R C) fuel X sol = .ok (sols, X') →
      ∃ ext rest, sols = (sol ++ ext) :: rest ∧ ext.toFinset = T := by
  induction fuel with
  | zero => intro D X sol T sols X' _ _ _ _ h; cases h
  | succ fuel ih =>
    intro D X sol T sols X' h hT hsub huniq hs
    unfold search at hs
    cases hm : minKey X (π.keys sol (X.map Prod.fst)) with
    | none =>
      rw [hm] at hs
      cases hs
      rw [Cover.minKey_none] at hm
      have hkeys : X.map Prod.fst = [] := List.perm_nil.1 ((hπ.1 sol _).symm.trans (by rw [hm]))
      refine ⟨[], [], by simp, ?_⟩
      rw [List.toFinset_nil, eq_comm, Finset.eq_empty_iff_forall_notMem]
      intro i hi
      obtain ⟨j, hj⟩ := colsOf_ne_nil (R := R) (C := C) i
      obtain ⟨l, hl⟩ := h.key (colsOf_sub (hT.legal i hi) j hj) (hT.disj i hi j hj)
      have := (lookup_isSome_iff j X).1 ⟨l, hl⟩
      rw [hkeys] at this; cases this
    | some c =>
      rw [hm] at hs
      have hc : c ∈ X.map Prod.fst := (hπ.1 sol _).mem_iff.1 (Cover.minKey_mem X _ c hm)
      obtain ⟨rs, hrs⟩ := (lookup_isSome_iff c X).2 hc
      obtain ⟨hcc, hcD⟩ := h.of_key hrs
      simp only [get_ok hrs] at hs
      have hmem := h.mem c rs hrs
      obtain ⟨i, hi, hci⟩ := hT.ex c hcc hcD
      have hirs : i ∈ rs := (hmem i).2 ⟨hT.legal i hi, hci, hT.disj i hi⟩
      cases hp : π.rows sol rs with
      | nil =>
        have := (hπ.2 sol rs).mem_iff.2 hirs
        rw [hp] at this; cases this
      | cons r rs' =>
        have hr0 : r ∈ T₀ := hfirst sol rs r (by rw [hp]; rfl) ⟨i, hirs, hsub hi⟩
        have hrm : r ∈ rs := (hπ.2 sol rs).mem_iff.1 (by rw [hp]; exact List.mem_cons_self)
        obtain ⟨hr, hcr, hd⟩ := (hmem r).1 hrm
        have hri : r = i := huniq r hr0 i (hsub hi) c hcr hci
        subst hri
        rw [hp] at hs
        obtain ⟨X1, st, e1, r1⟩ := select_ok h hr hd
        unfold searchLoop at hs
        rw [e1] at hs
        simp only at hs
        cases hrec : search π (matrix R C) fuel X1 (sol ++ [r]) with
        | error e => rw [hrec] at hs; cases hs
        | ok q =>
          obtain ⟨sols1, X2⟩ := q
          rw [hrec] at hs
          simp only at hs
          obtain ⟨ext, rest, e2, e3⟩ := ih _ X1 (sol ++ [r]) (T.erase r) sols1 X2 r1 (hT.erase hi)
            (fun x hx => hsub (Finset.mem_of_mem_erase hx)) huniq hrec
          cases hds : deselect X2 (matrix R C) r st with
          | error e => rw [hds] at hs; cases hs
          | ok X3 =>
            rw [hds] at hs
            simp only at hs
            cases hl : searchLoop (search π (matrix R C) fuel) (matrix R C) rs' X3 sol with
            | error e => rw [hl] at hs; cases hs
            | ok q =>
              rw [hl] at hs
              cases hs
              refine ⟨r :: ext, rest ++ q.1, by rw [e2]; simp, ?_⟩
              rw [List.toFinset_cons, e3, Finset.insert_erase hi]

/-- Orders that try the rows of a grid first. -/
def favour (T : Finset Row) : Orders where
  keys := fun _ l => l
  rows := fun _ l => l.filter (fun r => decide (r ∈ T)) ++ l.filter fun r => !decide (r ∈ T)

theorem favour_ok (T : Finset Row) : (favour T).Ok :=
  ⟨fun _ _ => List.Perm.refl _, fun _ l => List.filter_append_perm _ l⟩

theorem favour_first (T : Finset Row) (p l : List Row) (r : Row) (hr : ((favour T).rows p l).head? = some r)
    (hx : ∃ x ∈ l, x ∈ T) : r ∈ T := by
  obtain ⟨x, hx, hxT⟩ := hx
  have hne : l.filter (fun r => decide (r ∈ T)) ≠ [] := by
    intro e
    have : x ∈ l.filter (fun r => decide (r ∈ T)) := by simp [hx, hxT]
    rw [e] at this; cases this
  unfold favour at hr
  simp only at hr
  rw [List.head?_append_of_ne_nil _ hne] at hr
  have := List.mem_of_mem_head? hr
  simp at this
  exact this.2

/-- With these orders the first result of `dlx` is the grid. -/
theorem dlx_first {s t : Sudoku} (hw : s.bw = t.bw) (hh : s.bh = t.bh) (hc : Solve.Canon t.bw t.bh t)
    (hs : IsSolution s.bw s.bh s.num t.num) (hcs : s.copy = s) {fuel : Nat} (hf : s.empty.length < fuel) :
    ∃ rest, dlx (favour (gridRows s.bw s.bh t.num)) fuel s = .ok (t :: rest) := by
  obtain ⟨sols, h1, -, -⟩ := dlx_spec (favour_ok (gridRows s.bw s.bh t.num)) s fuel hf
  have h2 := h1
  unfold dlx at h2
  simp only at h2
  rw [hcs] at h2
  obtain ⟨X, e, r⟩ := exactCover_ok (R := s.bh) (C := s.bw)
  rw [e] at h2
  simp only at h2
  have hcl := clues_sub_gridRows.2 hs.keeps
  have hcov := cover_of_grid hs.full hs.valid
  have hcc := (cover_clues (R := s.bh) (C := s.bw) (clues s s.cells) ∅ (gridRows s.bw s.bh t.num) (clues_nodup s)).1
    ⟨hcov, hcl⟩
  rcases selectGiven_spec s s.cells X ∅ r with ⟨hok, X1, e1, r1⟩ | ⟨hno, e1⟩
  · rw [e1] at h2
    simp only at h2
    cases hse : search (favour (gridRows s.bw s.bh t.num)) (matrix s.bh s.bw) fuel X1 [] with
    | error e => rw [hse] at h2; cases h2
    | ok q =>
      obtain ⟨found, X2⟩ := q
      obtain ⟨ext, rest, e2, e3⟩ := search_first (favour_ok (gridRows s.bw s.bh t.num)) (gridRows s.bw s.bh t.num)
        (favour_first _) fuel _ X1 [] _ found X2 r1 hcc.2.2 Finset.sdiff_subset hcov.uniq hse
      rw [hse] at h2
      simp only [e2, List.nil_append] at h2
      obtain ⟨w1, w2⟩ := writeSolutions_spec s [ext] s rfl rfl (fun _ _ => rfl) (by
        intro sol hsol
        rw [List.mem_singleton] at hsol
        subst hsol
        exact ⟨t.num, hs.full, hs.keeps, e3⟩)
      unfold writeSolutions at h2
      simp only [Except.ok.injEq] at h2
      have hhead : writeSolutions [ext] s =
          [(ext.foldl (fun s (i : Row) => s.setNumber (i.1, i.2.1) i.2.2) s).copy] := rfl
      rw [hhead] at w1 w2
      obtain ⟨c1, c2⟩ := w1 _ List.mem_cons_self
      simp only [List.map_cons, List.map_nil, List.cons.injEq, and_true, e3] at w2
      have hsub1 : (clues s s.cells).toFinset ⊆ gridRows s.bw s.bh t.num := fun i hi => hcl i (List.mem_toFinset.1 hi)
      have hsub2 : (clues s s.cells).toFinset ⊆ gridRows s.bw s.bh
          (ext.foldl (fun s (i : Row) => s.setNumber (i.1, i.2.1) i.2.2) s).copy.num :=
        fun i hi => c2 i (List.mem_toFinset.1 hi)
      have eg : gridRows s.bw s.bh (ext.foldl (fun s (i : Row) => s.setNumber (i.1, i.2.1) i.2.2) s).copy.num =
          gridRows s.bw s.bh t.num := by
        rw [← Finset.sdiff_union_of_subset hsub1, ← Finset.sdiff_union_of_subset hsub2, w2]
      have := canon_ext c1 (by rw [hw, hh]; exact hc) (gridRows_inj eg)
      rw [this] at h2
      exact ⟨_, by rw [h1, ← h2]⟩
  · exact absurd hcc.1 hno

end Dlx

namespace Generate

/-- What `create_solution` writes into the first box. -/
theorem fillBox_first {w h : Nat} {c : Choices} (hc : c.Ok w h) :
    ∃ s, fillBox ((Sudoku.new w h).boxOf (c.row, c.col) true) c.numbers (Sudoku.new w h) = .ok s ∧
      s.bw = w ∧ s.bh = h ∧ (∀ a, s.cand a = ∅) ∧
      (∀ p ∈ ((List.range h).flatMap fun i => (List.range w).map fun j => (0 + i, 0 + j)).zip c.numbers.reverse,
        s.num p.1 = p.2) ∧
      ∀ a, a ∉ ((List.range h).flatMap fun i => (List.range w).map fun j => (0 + i, 0 + j)) → s.num a = 0 := by
  obtain ⟨row, col, ns⟩ := c
  have hr : row < h := hc.row
  have hcol : col < w := hc.col
  have hns : ns.Perm (Sudoku.new w h).numbers := hc.numbers
  rw [box_first hr hcol]
  set l := (List.range h).flatMap fun i => (List.range w).map fun j => (0 + i, 0 + j) with hl
  have hlen : l.length = w * h := by rw [hl]; simp [Nat.mul_comm]
  have hnd : l.Nodup := by rw [hl]; exact Geometry.nodup_boxList 0 0 w h
  have hmlen : ns.reverse.length = w * h := by
    rw [List.length_reverse, hns.length_eq, Sudoku.length_numbers]; rfl
  have hfill := fillBox_eq l ns.reverse (Sudoku.new w h) (by rw [hlen, hmlen])
  rw [List.reverse_reverse] at hfill
  simp only
  rw [hfill]
  have hfst : (l.zip ns.reverse).map Prod.fst = l := List.map_fst_zip (by rw [hlen, hmlen])
  obtain ⟨h1, h2, h3, h4⟩ := foldl_pairs (l.zip ns.reverse) (Sudoku.new w h) (by rw [hfst]; exact hnd)
  refine ⟨_, rfl, h1, h2, ?_, h3, ?_⟩
  · have : ∀ (ps : List (Cell × Int)) (s : Sudoku), (ps.foldl (fun s p => s.setNumber p.1 p.2) s).cand = s.cand := by
      intro ps
      induction ps with
      | nil => intro s; rfl
      | cons q ps ih => intro s; rw [List.foldl_cons, ih]; rfl
    intro a
    rw [this]; rfl
  · intro a ha
    rw [h4 a (by rw [hfst]; exact ha)]; rfl

/-- The fields of the first box. -/
def firstBox (w h : Nat) : List Cell := (List.range h).flatMap fun i => (List.range w).map fun j => (0 + i, 0 + j)

theorem mem_firstBox {w h : Nat} {a : Cell} : a ∈ firstBox w h ↔ a.1 < h ∧ a.2 < w := by
  unfold firstBox
  simp only [List.mem_flatMap, List.mem_map, List.mem_range, Nat.zero_add]
  constructor
  · rintro ⟨i, hi, j, hj, rfl⟩; exact ⟨hi, hj⟩
  · rintro ⟨h1, h2⟩; exact ⟨a.1, h1, a.2, h2, rfl⟩

theorem nodup_firstBox (w h : Nat) : (firstBox w h).Nodup := Geometry.nodup_boxList 0 0 w h

theorem length_firstBox (w h : Nat) : (firstBox w h).length = w * h := by simp [firstBox, Nat.mul_comm]

theorem firstBox_inGrid {w h : Nat} {a : Cell} (ha : a ∈ firstBox w h) : InGrid w h a := by
  rw [mem_firstBox] at ha
  have hw : 0 < w := by omega
  have hh : 0 < h := by omega
  exact ⟨lt_of_lt_of_le ha.1 (Nat.le_mul_of_pos_left h hw), lt_of_lt_of_le ha.2 (Nat.le_mul_of_pos_right w hh)⟩

/-- The numbers of a full grid in the first box, in the order needed. -/
def boxNumbers (w h : Nat) (g : Grid) : List Int := ((firstBox w h).map g).reverse

theorem boxNumbers_perm {w h : Nat} {g : Grid} (full : ∀ a, InGrid w h a → IsNumber w h (g a)) (valid : NoConflict w h g) :
    (boxNumbers w h g).Perm (Sudoku.new w h).numbers := by
  refine (List.reverse_perm _).trans ?_
  have hnd : ((firstBox w h).map g).Nodup := by
    refine List.Nodup.map_on ?_ (nodup_firstBox w h)
    intro a ha b hb e
    by_contra hne
    have hag := firstBox_inGrid ha
    refine valid a b hag (firstBox_inGrid hb) ⟨hne, Or.inr (Or.inr ?_)⟩ (by have := (full a hag).1; omega) e
    rw [mem_firstBox] at ha hb
    exact ⟨by rw [Nat.div_eq_of_lt ha.1, Nat.div_eq_of_lt hb.1], by rw [Nat.div_eq_of_lt ha.2, Nat.div_eq_of_lt hb.2]⟩
  refine (List.subperm_of_subset hnd ?_).perm_of_length_le ?_
  · intro v hv
    obtain ⟨a, ha, rfl⟩ := List.mem_map.1 hv
    exact (Sudoku.mem_numbers _).2 (full a (firstBox_inGrid ha))
  · rw [Sudoku.length_numbers, List.length_map, length_firstBox]; rfl

/-- Every full grid without conflicts can be returned by `create_solution`. -/
theorem create_reach {w h : Nat} {t : Sudoku} (ht : Props.Plain w h t) (hsol : IsSolution w h (fun _ => 0) t.get) {row col : Nat}
    (hr : row < h) (hc : col < w) {fuel : Nat} (hf : (w * h) ^ 2 < fuel) :
    (Choices.mk row col (boxNumbers w h t.num)).Ok w h ∧
    createSolution (Dlx.favour (Dlx.gridRows w h t.num)) fuel ⟨row, col, boxNumbers w h t.num⟩ w h = .ok t := by
  have hok : (Choices.mk row col (boxNumbers w h t.num)).Ok w h := ⟨hr, hc, boxNumbers_perm hsol.full hsol.valid⟩
  refine ⟨hok, ?_⟩
  obtain ⟨s, h1, h2, h3, h4, h5, h6⟩ := fillBox_first hok
  have hsame : ∀ a ∈ firstBox w h, s.num a = t.num a := by
    intro a ha
    refine h5 (a, t.num a) ?_
    show _ ∈ (firstBox w h).zip (boxNumbers w h t.num).reverse
    unfold boxNumbers
    rw [List.reverse_reverse, List.mem_iff_getElem]
    obtain ⟨k, hk, e⟩ := List.mem_iff_getElem.1 ha
    exact ⟨k, by simpa using hk, by simp [e]⟩
  have hcopy : s.copy = s := copy_plain ⟨h2, h3, fun a ha => h6 a fun hb => ha (firstBox_inGrid hb), h4⟩
  have hss : IsSolution s.bw s.bh s.num t.num := by
    rw [h2, h3]
    refine ⟨fun a _ h0 => ?_, hsol.full, hsol.valid⟩
    by_cases ha : a ∈ firstBox w h
    · exact (hsame a ha).symm
    · exact absurd (h6 a ha) h0
  have hle := length_empty_le s
  rw [h2, h3] at hle
  obtain ⟨rest, hd⟩ := Dlx.dlx_first (s := s) (t := t) (h2.trans ht.1.symm) (h3.trans ht.2.1.symm)
    (by rw [ht.1, ht.2.1]; exact ht) hss hcopy (fuel := fuel) (by omega)
  rw [h2, h3] at hd
  unfold createSolution
  have hpos : ¬ ((Sudoku.new w h).bh = 0 ∨ (Sudoku.new w h).bw = 0) := by
    simp only [Sudoku.new_bw, Sudoku.new_bh]; omega
  simp only [if_neg hpos]
  simp only at h1
  rw [h1]
  simp only [hd]

/-- The first box of the result shows the shuffled numbers. -/
theorem create_box {π : Dlx.Orders} (hπ : π.Ok) {fuel : Nat} {c : Choices} {w h : Nat} (hc : c.Ok w h)
    (hf : (w * h) ^ 2 < fuel) {t : Sudoku} (ht : createSolution π fuel c w h = .ok t) : boxNumbers w h t.num = c.numbers := by
  obtain ⟨s, h1, h2, h3, -, h5, h6⟩ := fillBox_first hc
  have hle := length_empty_le s
  rw [h2, h3] at hle
  obtain ⟨sols, h7, -, h8⟩ := Props.C18_dlx_complete π hπ fuel s (by omega)
  have h9 := Props.C17_dlx_sound π hπ fuel s sols h7
  unfold createSolution at ht
  have hpos : ¬ ((Sudoku.new w h).bh = 0 ∨ (Sudoku.new w h).bw = 0) := by
    have := hc.row; have := hc.col
    simp only [Sudoku.new_bw, Sudoku.new_bh]; omega
  simp only [if_neg hpos, h1, h7] at ht
  cases sols with
  | nil => cases ht
  | cons t' l =>
    cases ht
    obtain ⟨-, h10⟩ := h9 t List.mem_cons_self
    have hlen : c.numbers.reverse.length = w * h := by
      rw [List.length_reverse, hc.numbers.length_eq, Sudoku.length_numbers]; rfl
    have e : (firstBox w h).map t.num = c.numbers.reverse := by
      refine List.ext_getElem (by rw [List.length_map, length_firstBox, hlen]) ?_
      intro k hk1 hk2
      rw [List.getElem_map]
      rw [List.length_map] at hk1
      have hm : ((firstBox w h)[k], c.numbers.reverse[k]) ∈ (firstBox w h).zip c.numbers.reverse := by
        rw [List.mem_iff_getElem]
        exact ⟨k, by rw [List.length_zip]; omega, by rw [List.getElem_zip]⟩
      have hv := h5 _ hm
      simp only at hv
      have hg := firstBox_inGrid (List.getElem_mem hk1)
      have hn : c.numbers.reverse[k] ≠ 0 := by
        have : c.numbers.reverse[k] ∈ (Sudoku.new w h).numbers :=
          hc.numbers.mem_iff.1 (List.mem_reverse.1 (List.getElem_mem hk2))
        have := ((Sudoku.mem_numbers _).1 this).1
        omega
      have := h10.keeps (firstBox w h)[k] (by rw [h2, h3]; exact hg) (by rw [show s.get _ = s.num _ from rfl, hv]; exact hn)
      rw [← hv]; exact this
    unfold boxNumbers
    rw [e, List.reverse_reverse]

/-! ## The loop of `generate` -/

/-- How the fields are to be shuffled for the target `t`: empty fields first, then those whose group may not be cleared. -/
def rank (w h : Nat) (sym : Sym) (minCount : Int) (t : Sudoku) (a : Cell) : Nat :=
  if t.num a = 0 then 0
  else if (t.count : Int) - (sym.fields w h a).dedup.length < minCount then 1 else 2

theorem count_le {s t : Sudoku} (hw : s.bw = t.bw) (hh : s.bh = t.bh)
    (hst : ∀ a, InGrid s.bw s.bh a → s.num a ≠ 0 → t.num a ≠ 0) : s.count ≤ t.count := by
  have hc : s.cells = t.cells := by unfold Sudoku.cells Sudoku.indices Sudoku.n; rw [hw, hh]
  unfold Sudoku.count Sudoku.filled
  rw [← hc, ← List.countP_eq_length_filter, ← List.countP_eq_length_filter]
  refine List.countP_mono_left fun a ha h0 => ?_
  rw [Sudoku.mem_cells] at ha
  rw [bne_iff_ne] at h0 ⊢
  exact hst a ha h0

/-- One round. -/
theorem reduce_step {ρ : List Cell → RoundOrders} (hρ : ∀ l, (ρ l).Ok) {fuel w h : Nat} (hf : (w * h) ^ 2 < fuel) {sym : Sym}
    {minCount : Int} {sol : Sudoku} {rounds : Nat} {a : Cell} {l : List Cell} {count : Int} {s : Sudoku}
    (inv : Inv w h sym minCount sol.get (a :: l) count s) :
    (count - (sym.fields w h a).dedup.length < minCount →
      reduce ρ fuel sym minCount sol (rounds + 1) (a :: l) count s = .ok (some s)) ∧
    (¬ count - (sym.fields w h a).dedup.length < minCount → UniqueSolution w h (cleared (sym.fields w h a) s.num) →
      reduce ρ fuel sym minCount sol (rounds + 1) (a :: l) count s =
        reduce ρ fuel sym minCount sol rounds ((a :: l).diff (sym.fields w h a).dedup)
          (count - (sym.fields w h a).dedup.length) { s with num := cleared (sym.fields w h a) s.num }) ∧
    (¬ count - (sym.fields w h a).dedup.length < minCount → ¬ UniqueSolution w h (cleared (sym.fields w h a) s.num) →
      reduce ρ fuel sym minCount sol (rounds + 1) (a :: l) count s =
        reduce ρ fuel sym minCount sol rounds ((a :: l).diff (sym.fields w h a).dedup) count s) := by
  have hρa := hρ (a :: l)
  have hpr := hρa.remove (sym.fields w h a).dedup
  have hpc := hρa.clear (sym.fields w h a).dedup
  have hpv := hρa.revert (sym.fields w h a).dedup
  have hrem : removeFields ((ρ (a :: l)).remove (sym.fields s.bw s.bh a).dedup) (a :: l) =
      .ok ((a :: l).diff (sym.fields w h a).dedup) := by
    rw [inv.bw, inv.bh, removeFields_eq _ _ (hpr.nodup_iff.2 (List.nodup_dedup _)) inv.nodup (by
      intro b hb
      exact inv.closed a List.mem_cons_self b (List.mem_dedup.1 (hpr.mem_iff.1 hb)))]
    rw [List.Perm.diff_left _ hpr]
  have hclear : ((ρ (a :: l)).clear (sym.fields w h a).dedup).foldl
      (fun (p : Sudoku × Int) b => (p.1.setNumber b 0, p.2 - 1)) (s, count) =
      ({ s with num := cleared (sym.fields w h a) s.num }, count - (sym.fields w h a).dedup.length) := by
    have := clear_fold (fun _ => 0) (-1) ((ρ (a :: l)).clear (sym.fields w h a).dedup) s count
    simp only [← Int.sub_eq_add_neg] at this
    rw [this, hpc.length_eq]
    simp only [Prod.mk.injEq, Sudoku.mk.injEq, true_and, and_true]
    constructor
    · funext b; unfold cleared; simp only [hpc.mem_iff, List.mem_dedup]
    · omega
  have hrevert : ((ρ (a :: l)).revert (sym.fields w h a).dedup).foldl
      (fun (p : Sudoku × Int) b => (p.1.setNumber b (sol.get b), p.2 + 1))
      ({ s with num := cleared (sym.fields w h a) s.num }, count - (sym.fields w h a).dedup.length) = (s, count) := by
    rw [clear_fold sol.get 1, hpv.length_eq]
    refine Prod.ext ?_ (by simp)
    refine Sudoku.ext rfl rfl ?_ rfl
    funext b
    simp only [hpv.mem_iff, List.mem_dedup]
    by_cases h1 : b ∈ sym.fields w h a
    · rw [if_pos h1]
      have := inv.closed a List.mem_cons_self b h1
      exact (inv.clues b (inv.grid b this) (inv.todo b this)).symm
    · rw [if_neg h1]; unfold cleared; rw [if_neg h1]
  obtain ⟨b, hb, hbu⟩ := Props.C22_is_unique (ρ (a :: l)).dlx hρa.dlx fuel
    { s with num := cleared (sym.fields w h a) s.num } (by
      refine lt_of_le_of_lt (length_empty_le _) ?_
      simp only [inv.bw, inv.bh]; exact hf)
  have hbu : b = true ↔ UniqueSolution w h (cleared (sym.fields w h a) s.num) := by
    rw [hbu]; simp only [inv.bw, inv.bh]; rfl
  refine ⟨fun h1 => ?_, fun h1 h2 => ?_, fun h1 h2 => ?_⟩
  · rw [reduce]
    simp only
    rw [hrem]
    simp only [inv.bw, inv.bh]
    rw [if_pos h1]
  · conv => lhs; unfold reduce
    simp only
    rw [hrem]
    simp only [inv.bw, inv.bh]
    rw [if_neg h1, hclear]
    simp only
    rw [hb, hbu.2 h2]
    simp only [inv.bw, inv.bh]
  · conv => lhs; unfold reduce
    simp only
    rw [hrem]
    simp only [inv.bw, inv.bh]
    rw [if_neg h1, hclear]
    simp only
    have : b = false := by
      cases b with
      | true => exact absurd (hbu.1 rfl) h2
      | false => rfl
    rw [hb, this]
    simp only
    rw [hrevert]

/-- If the fields come in the order of `rank`, the target is what the loop ends with. -/
theorem reduce_reach {ρ : List Cell → RoundOrders} (hρ : ∀ l, (ρ l).Ok) {fuel w h : Nat} (hf : (w * h) ^ 2 < fuel) {sym : Sym}
    {minCount : Int} {sol t : Sudoku} (hsol : IsSolution w h (fun _ => 0) sol.get) (ht : Props.Plain w h t)
    (hclues : ∀ a, InGrid w h a → t.num a ≠ 0 → t.num a = sol.get a) (hu : UniqueSolution w h t.num)
    (hsym : ∀ a, InGrid w h a → ∀ b ∈ sym.fields w h a, t.num a = 0 → t.num b = 0) (hmin : minCount ≤ t.count) :
    ∀ (rounds : Nat) (coords : List Cell) (count : Int) (s : Sudoku), coords.length < rounds →
      Inv w h sym minCount sol.get coords count s →
      (∀ a, InGrid w h a → t.num a ≠ 0 → s.num a ≠ 0) →
      (∀ a, InGrid w h a → s.num a ≠ 0 → t.num a = 0 → a ∈ coords) →
      coords.Pairwise (fun a b => rank w h sym minCount t a ≤ rank w h sym minCount t b) →
      ((∀ a, InGrid w h a → t.num a ≠ 0 → ¬ UniqueSolution w h (cleared (sym.fields w h a) t.num)) ∨
        ∃ b ∈ coords, rank w h sym minCount t b = 1) →
      reduce ρ fuel sym minCount sol rounds coords count s = .ok (some t) := by
  obtain ⟨t1, t2, t3, t4⟩ := ht
  intro rounds
  induction rounds with
  | zero => intro coords _ _ h; exact absurd h (Nat.not_lt_zero _)
  | succ rounds ih =>
    intro coords count s hlen inv hts hrest hord hend
    -- without open fields the target is reached
    have hdone : (∀ a ∈ coords, t.num a ≠ 0) → s = t := by
      intro hall
      refine Sudoku.ext (inv.bw.trans t1.symm) (inv.bh.trans t2.symm) ?_ ?_
      · funext a
        by_cases ha : InGrid w h a
        · by_cases h0 : t.num a = 0
          · rw [h0]
            by_contra hs
            exact hall a (hrest a ha hs h0) h0
          · rw [inv.clues a ha (hts a ha h0), hclues a ha h0]
        · rw [inv.out a ha, t3 a ha]
      · funext a; rw [inv.cand, t4]
    cases coords with
    | nil =>
      rw [hdone (by simp)]
      rfl
    | cons a l =>
      have ha := inv.grid a List.mem_cons_self
      obtain ⟨r1, r2, r3⟩ := reduce_step hρ hf (sol := sol) (rounds := rounds) inv
      have hmem : ∀ b, b ∈ (a :: l).diff (sym.fields w h a).dedup ↔ b ∈ a :: l ∧ b ∉ sym.fields w h a := by
        intro b
        rw [inv.nodup.mem_sdiff_iff, List.mem_dedup]
      have hlt : ((a :: l).diff (sym.fields w h a).dedup).length < rounds := by
        have hsub : (a :: l).diff (sym.fields w h a).dedup ⊆ l := by
          intro b hb
          rw [hmem] at hb
          rcases List.mem_cons.1 hb.1 with rfl | hb'
          · exact absurd (fields_self w h b sym) hb.2
          · exact hb'
        have := (List.subperm_of_subset (inv.nodup.diff) hsub).length_le
        rw [List.length_cons] at hlen
        omega
      have hord' := hord.sublist (List.diff_sublist (a :: l) (sym.fields w h a).dedup)
      by_cases h0 : t.num a = 0
      · -- an open field of the target
        have hzero : ∀ b ∈ sym.fields w h a, t.num b = 0 := fun b hb => hsym a ha b hb h0
        have hts' : ∀ b, InGrid w h b → t.num b ≠ 0 → cleared (sym.fields w h a) s.num b = s.num b := by
          intro b _ hb0
          unfold cleared
          rw [if_neg fun hb => hb0 (hzero b hb)]
        have hnb : ¬ count - (sym.fields w h a).dedup.length < minCount := by
          have hcc := count_cleared (s := s) (l := (sym.fields w h a).dedup) (List.nodup_dedup _) (by
            intro b hb
            rw [List.mem_dedup] at hb
            have := inv.closed a List.mem_cons_self b hb
            rw [inv.bw, inv.bh]
            exact ⟨inv.grid b this, inv.todo b this⟩)
          have hle := count_le (s := t) (t := { s with num := cleared (sym.fields w h a).dedup s.num })
            (t1.trans inv.bw.symm) (t2.trans inv.bh.symm) (by
              intro b hb hb0
              rw [t1, t2] at hb
              have e : cleared (sym.fields w h a).dedup s.num b = cleared (sym.fields w h a) s.num b := by
                unfold cleared; simp only [List.mem_dedup]
              rw [show ({ s with num := cleared (sym.fields w h a).dedup s.num } : Sudoku).num b = _ from e, hts' b hb hb0]
              exact hts b hb hb0)
          rw [inv.countEq]
          omega
        have hun : UniqueSolution w h (cleared (sym.fields w h a) s.num) := by
          refine unique_mono (g := sol.get) ?_ ?_ hu
          · intro b hb hb0
            rw [hts' b hb hb0, inv.clues b hb (hts b hb hb0), hclues b hb hb0]
          · refine ⟨fun b hb hb0 => ?_, hsol.full, hsol.valid⟩
            unfold cleared at hb0 ⊢
            by_cases h4 : b ∈ sym.fields w h a
            · rw [if_pos h4] at hb0; exact absurd rfl hb0
            · rw [if_neg h4] at hb0 ⊢; exact (inv.clues b hb hb0).symm
        rw [r2 hnb hun]
        refine ih _ _ _ hlt ((inv.step hsol (not_lt.1 hnb)).1 hun) ?_ ?_ hord' ?_
        · intro b hb hb0
          show cleared _ _ b ≠ 0
          rw [hts' b hb hb0]; exact hts b hb hb0
        · intro b hb hb0 hb1
          have hbf : b ∉ sym.fields w h a := fun hbf => hb0 (by
            show cleared _ _ b = 0
            unfold cleared; rw [if_pos hbf])
          have hbs : s.num b ≠ 0 := fun e => hb0 (by
            show cleared _ _ b = 0
            unfold cleared; rw [if_neg hbf]; exact e)
          exact (hmem b).2 ⟨hrest b hb hbs hb1, hbf⟩
        · refine hend.imp id ?_
          rintro ⟨b, hb, hb1⟩
          refine ⟨b, (hmem b).2 ⟨hb, fun hbf => ?_⟩, hb1⟩
          unfold rank at hb1
          rw [if_pos (hzero b hbf)] at hb1
          exact absurd hb1 (by decide)
      · -- the target is reached
        have hpos : ∀ b, t.num b = 0 ↔ rank w h sym minCount t b = 0 := by
          intro b
          unfold rank
          by_cases hb : t.num b = 0
          · simp [hb]
          · simp only [hb, if_false, false_iff]
            split <;> decide
        have hall : ∀ b ∈ a :: l, t.num b ≠ 0 := by
          intro b hb hb0
          rcases List.mem_cons.1 hb with rfl | hb'
          · exact h0 hb0
          · have := (List.pairwise_cons.1 hord).1 b hb'
            rw [(hpos b).1 hb0, Nat.le_zero] at this
            exact h0 ((hpos a).2 this)
        have hst := hdone hall
        by_cases hbreak : count - (sym.fields w h a).dedup.length < minCount
        · rw [r1 hbreak, hst]
        · have hcount : count = t.count := by rw [inv.countEq, hst]
          have hir : ∀ a, InGrid w h a → t.num a ≠ 0 → ¬ UniqueSolution w h (cleared (sym.fields w h a) t.num) := by
            rcases hend with hend | ⟨b, hb, hb1⟩
            · exact hend
            · exfalso
              have hra : rank w h sym minCount t a = 2 := by
                unfold rank; rw [if_neg h0, if_neg (by rw [← hcount]; exact hbreak)]
              rcases List.mem_cons.1 hb with rfl | hb'
              · omega
              · have := (List.pairwise_cons.1 hord).1 b hb'
                omega
          have hno : ¬ UniqueSolution w h (cleared (sym.fields w h a) s.num) := by rw [hst]; exact hir a ha h0
          rw [r3 hbreak hno]
          exact ih _ _ _ hlt ((inv.step hsol (not_lt.1 hbreak)).2 hno) hts
            (fun b hb hb0 hb1 => absurd (by rw [hst] at hb0; exact hb0) (not_not.2 hb1)) hord' (Or.inl hir)

/-- The fields in the order of `rank`. -/
def target (w h : Nat) (sym : Sym) (minCount : Int) (t : Sudoku) : List Cell :=
  (Sudoku.new w h).cells.mergeSort fun a b => decide (rank w h sym minCount t a ≤ rank w h sym minCount t b)

theorem target_perm (w h : Nat) (sym : Sym) (minCount : Int) (t : Sudoku) :
    (target w h sym minCount t).Perm (Sudoku.new w h).cells := List.mergeSort_perm _ _

theorem target_sorted (w h : Nat) (sym : Sym) (minCount : Int) (t : Sudoku) :
    (target w h sym minCount t).Pairwise (fun a b => rank w h sym minCount t a ≤ rank w h sym minCount t b) := by
  refine (List.pairwise_mergeSort (le := fun a b => decide (rank w h sym minCount t a ≤ rank w h sym minCount t b)) ?_ ?_
    (Sudoku.new w h).cells).imp fun h => of_decide_eq_true h
  · intro a b c h1 h2
    exact decide_eq_true (le_trans (of_decide_eq_true h1) (of_decide_eq_true h2))
  · intro a b
    simp only [Bool.or_eq_true, decide_eq_true_eq]
    exact le_total _ _

/-- `generate` can return every such `t`. -/
theorem generate_reach {ρ : List Cell → RoundOrders} (hρ : ∀ l, (ρ l).Ok) {π : Dlx.Orders} {c : Choices} {fuel rounds w h : Nat}
    (hf : (w * h) ^ 2 < fuel) (hr : (w * h) ^ 2 < rounds) {symmetry : Option String} {sym : Sym}
    (hs : Sym.lookup symmetry = some sym) {minCount : Int} {sol t : Sudoku} (hcs : createSolution π fuel c w h = .ok sol)
    (hp : Props.Plain w h sol) (hsol : IsSolution w h (fun _ => 0) sol.get) (ht : Props.Plain w h t)
    (hclues : ∀ a, InGrid w h a → t.num a ≠ 0 → t.num a = sol.get a) (hu : UniqueSolution w h t.num)
    (hsym : ∀ a, InGrid w h a → ∀ b ∈ sym.fields w h a, t.num a = 0 → t.num b = 0) (hmin : minCount ≤ t.count)
    (hend : (∀ a, InGrid w h a → t.num a ≠ 0 → ¬ UniqueSolution w h (cleared (sym.fields w h a) t.num)) ∨
      ∃ a, InGrid w h a ∧ t.num a ≠ 0 ∧ (t.count : Int) - (sym.fields w h a).dedup.length < minCount) :
    generate π ρ fuel rounds c (target w h sym minCount t) minCount symmetry w h = .ok (some t) := by
  have hlen : t.count ≤ w ^ 2 * h ^ 2 := by
    unfold Sudoku.count Sudoku.filled
    refine le_trans (List.length_filter_le _ _) ?_
    rw [length_cells]; unfold Sudoku.len; rw [ht.1, ht.2.1]
  have hm : minCount ≤ (w ^ 2 * h ^ 2 : Nat) := le_trans hmin (by exact_mod_cast hlen)
  have hperm := target_perm w h sym minCount t
  have hl : (target w h sym minCount t).length = (w * h) ^ 2 := by
    rw [hperm.length_eq, length_cells]
    unfold Sudoku.len
    simp [Nat.mul_pow]
  have inv := start_inv (sym := sym) hp hsol hperm hm
  unfold generate
  simp only
  rw [if_neg (not_lt.2 hm), hs]
  simp only
  rw [hcs]
  simp only
  have hmem : ∀ a, InGrid w h a → a ∈ target w h sym minCount t := fun a ha => by
    rw [hperm.mem_iff, Sudoku.mem_cells]; exact ha
  refine reduce_reach hρ hf hsol ht hclues hu hsym hmin rounds _ _ _ (by rw [hl]; exact hr) inv
    (fun a ha _ => inv.todo a (hmem a ha)) (fun a ha _ _ => hmem a ha) (target_sorted _ _ _ _ _) ?_
  refine hend.imp id ?_
  rintro ⟨a, ha, h0, h1⟩
  refine ⟨a, hmem a ha, ?_⟩
  unfold rank
  rw [if_neg h0, if_pos h1]

end Generate
