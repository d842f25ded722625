import Verif.Model.FirstSolutions
import Verif.Proofs.UniqueCalls

set_option autoImplicit false

/-! # The first solutions -/

open Spec

namespace Dlx

theorem take_writeSolutions (k : Nat) (sols : List (List Row)) : ∀ s : Sudoku, writeSolutions (sols.take k) s = (writeSolutions sols s).take k := by
  induction sols generalizing k with
  | nil => intro s; simp [writeSolutions]
  | cons x sols ih =>
    intro s
    cases k with
    | zero => rfl
    | succ k => simp [writeSolutions, ih]

theorem dlxK_spec {π : Orders} {fuel k : Nat} (hk : 1 ≤ k) {s : Sudoku} {sols : List Sudoku} {n : Nat} (h : dlxN π fuel s = .ok (sols, n)) :
    ∃ m, dlxK π fuel k s = .ok (sols.take k, m) ∧ (sols.length < k → m = n) ∧ m + (sols.length - k) ≤ n := by
  unfold dlxN at h
  unfold dlxK
  simp only at h ⊢
  cases e : exactCover (columns (s.copy.bh * s.copy.bw)) (matrix s.copy.bh s.copy.bw) with
  | error x => rw [e] at h; cases h
  | ok X =>
    rw [e] at h
    simp only at h ⊢
    cases e1 : selectGiven s.copy (matrix s.copy.bh s.copy.bw) s.copy.cells X with
    | error x => rw [e1] at h; cases h
    | ok o =>
      cases o with
      | none =>
        rw [e1] at h
        cases h
        exact ⟨0, by simp, fun _ => rfl, by simp⟩
      | some X1 =>
        rw [e1] at h
        simp only at h ⊢
        cases e2 : searchN π (matrix s.copy.bh s.copy.bw) fuel X1 [] with
        | error x => rw [e2] at h; cases h
        | ok q =>
          obtain ⟨a, X', n'⟩ := q
          rw [e2] at h
          cases h
          obtain ⟨X2, m, f1, f2, f3, -⟩ := searchK_spec π _ fuel k X1 [] a X' n hk e2
          rw [f1, length_writeSolutions]
          exact ⟨m, by simp only [take_writeSolutions], fun hl => (f2 hl).2, f3⟩

theorem dlxK_error {π : Orders} (hπ : π.Ok) {fuel k : Nat} (hk : 1 ≤ k) {s : Sudoku} {e : PyErr} (h : dlx π fuel s = .error e) :
    dlxK π fuel k s = .error e := by
  unfold dlx at h
  unfold dlxK
  simp only at h ⊢
  obtain ⟨X, e0, r⟩ := exactCover_ok (R := s.copy.bh) (C := s.copy.bw)
  rw [e0] at h ⊢
  simp only at h ⊢
  rcases selectGiven_spec s.copy s.copy.cells X ∅ r with ⟨hok, X1, e1, r1⟩ | ⟨hno, e1⟩
  · rw [e1] at h ⊢
    simp only at h ⊢
    rcases search_spec hπ fuel _ X1 [] r1 with ⟨⟨_, _, e2, -⟩, -⟩ | ⟨e2, hc⟩
    · rw [e2] at h
      cases h
    · rw [e2] at h
      cases h
      have h1 := (Cover.searchK_deep (K := columns (s.copy.bh * s.copy.bw)) (L := rows (s.copy.bh * s.copy.bw)) (f := colsOf s.copy.bh s.copy.bw) hπ
        (m := 4) (by omega) (fun r _ => Nat.le_refl 4) hk fuel _ X1 [] r1 hc).1
      have h2 := searchN_same π (matrix s.copy.bh s.copy.bw) fuel X1 []
      rw [e2] at h2
      have h3 : searchK π (matrix s.copy.bh s.copy.bw) fuel k X1 [] = searchN π (matrix s.copy.bh s.copy.bw) fuel X1 [] := h1
      rw [h3]
      cases e3 : searchN π (matrix s.copy.bh s.copy.bw) fuel X1 [] with
      | error x => rw [e3] at h2; cases h2; rfl
      | ok q => rw [e3] at h2; cases h2
  · rw [e1] at h
    cases h

end Dlx

namespace Solve

theorem bfLoopK_cons {rec : Nat → List (Cell × Int) → Sudoku → Option (List Sudoku × Sudoku × Nat)} {path : List (Cell × Int)} {a : Cell}
    {c : Int} {cs : List Int} {k : Nat} {s : Sudoku} (ha : InGrid s.bw s.bh a) (h0 : s.num a = 0)
    (hrec : ∀ sols s' n, rec k ((a, c) :: path) (place s a c) = some (sols, s', n) → sols.length ≠ k → s' = place s a c) :
    bfLoopK rec path a (c :: cs) k s = match rec k ((a, c) :: path) (place s a c) with
      | none => none
      | some (sols, s', n) => if sols.length = k then some (sols, s', n) else match bfLoopK rec path a cs (k - sols.length) s with
        | none => none
        | some (sols', s', n') => some (sols ++ sols', s', n + n') := by
  have hsur : (s.setNumber a c).surroundingOf a false = s.surroundingOf a false := rfl
  have hnd := Sudoku.nodup_surroundingOf_false s (a := a) ha
  have hna : a ∉ s.surroundingOf a false := fun h => ((Sudoku.mem_surroundingOf_false s ha).1 h).2.1 rfl
  have hsave : saveAndRemove c (s.surroundingOf a false) (s.setNumber a c) [(a, s.cand a)] =
      (place s a c, (a :: s.surroundingOf a false).map fun b => (b, s.cand b)) :=
    saveAndRemove_eq c (s.surroundingOf a false) (s.setNumber a c) [(a, s.cand a)] hnd (by
    intro b hb; simp only [List.map_cons, List.map_nil, List.mem_singleton]; rintro rfl; exact hna hb)
  have hres : (restore (place s a c) ((a :: s.surroundingOf a false).map
      fun b => (b, s.cand b))).setNumber a 0 = s := by
    rw [restore_eq]
    ext1
    · rfl
    · rfl
    · funext b
      simp only [place, Sudoku.setNumber]
      by_cases hb : b = a
      · subst hb; simp [h0]
      · simp [hb]
    · funext b
      simp only [place, Sudoku.setNumber]
      by_cases hb : b ∈ a :: s.surroundingOf a false
      · rw [if_pos hb]
      · rw [if_neg hb, if_neg (fun h => hb (List.mem_cons_of_mem _ h))]
  conv_lhs => unfold bfLoopK
  simp only [hsur, show (s.setNumber a c).getCandidates a = s.cand a from rfl]
  rw [hsave]
  simp only
  cases e : rec k ((a, c) :: path) (place s a c) with
  | none => rfl
  | some q =>
    obtain ⟨sols, s', n⟩ := q
    simp only
    by_cases hl : sols.length = k
    · rw [if_pos hl, if_pos hl]
    · rw [if_neg hl, if_neg hl]
      have := hrec _ _ _ e hl
      subst this
      rw [hres]
      cases bfLoopK rec path a cs (k - sols.length) s <;> rfl

/-- What a run until the `k`-th solution has in common with the whole run. -/
def Follows (k : Nat) (whole part : Option (List Sudoku × Sudoku × Nat)) : Prop := ∀ a s' n, whole = some (a, s', n) →
  ∃ s'' m, part = some (a.take k, s'', m) ∧ (a.length < k → s'' = s' ∧ m = n) ∧ m + (a.length - k) ≤ n ∧ a.length ≤ n

theorem bfLoopK_spec {recN : List (Cell × Int) → Sudoku → Option (List Sudoku × Sudoku × Nat)}
    {recK : Nat → List (Cell × Int) → Sudoku → Option (List Sudoku × Sudoku × Nat)} {path : List (Cell × Int)} {a : Cell} {s : Sudoku}
    (ha : InGrid s.bw s.bh a) (h0 : s.num a = 0) (cs : List Int) :
    (∀ c ∈ cs, ∀ sols s' n, recN ((a, c) :: path) (place s a c) = some (sols, s', n) → s' = place s a c) →
    (∀ c ∈ cs, ∀ k, 1 ≤ k → Follows k (recN ((a, c) :: path) (place s a c)) (recK k ((a, c) :: path) (place s a c))) →
    ∀ k, 1 ≤ k → Follows k (bfLoopN recN path a cs s) (bfLoopK recK path a cs k s) := by
  induction cs with
  | nil =>
    intro _ _ k _ sols s' n e
    cases e
    exact ⟨s, 0, by simp [bfLoopK], fun _ => ⟨rfl, rfl⟩, by simp, by simp⟩
  | cons c cs ih =>
    intro hN hK k hk sols s' n e
    rw [bfLoopN_cons ha h0 (hN c (by simp))] at e
    cases e1 : recN ((a, c) :: path) (place s a c) with
    | none => rw [e1] at e; cases e
    | some q =>
      obtain ⟨a1, s1, n1⟩ := q
      rw [e1] at e
      simp only at e
      obtain ⟨s2, m1, f1, f2, f3, f4⟩ := hK c (by simp) k hk _ _ _ e1
      have hs1 := hN c (by simp) _ _ _ e1
      rw [bfLoopK_cons ha h0 (fun sols s' n hr hl => by
        rw [f1] at hr
        cases hr
        rw [List.length_take] at hl
        rw [(f2 (by omega)).1, hs1]), f1]
      simp only
      cases e2 : bfLoopN recN path a cs s with
      | none => rw [e2] at e; cases e
      | some q =>
        obtain ⟨a2, s3, n2⟩ := q
        rw [e2] at e
        cases e
        have hi := ih (fun d hd => hN d (by simp [hd])) (fun d hd => hK d (by simp [hd]))
        by_cases hlt : a1.length < k
        · obtain ⟨rfl, rfl⟩ := f2 hlt
          have ht : a1.take k = a1 := List.take_of_length_le (Nat.le_of_lt hlt)
          obtain ⟨s4, m2, g1, g2, g3, g4⟩ := hi (k - a1.length) (by omega) _ _ _ e2
          rw [ht, if_neg (by omega), g1]
          refine ⟨s4, m1 + m2, ?_, fun hl => ?_, ?_, ?_⟩
          · rw [List.take_append, ht]
          · rw [List.length_append] at hl
            obtain ⟨rfl, rfl⟩ := g2 (by omega)
            exact ⟨rfl, rfl⟩
          · rw [List.length_append]; omega
          · rw [List.length_append]; omega
        · obtain ⟨-, -, -, -, -, g4⟩ := hi k hk _ _ _ e2
          rw [if_pos (by rw [List.length_take]; omega)]
          refine ⟨s2, m1, ?_, fun hl => ?_, ?_, ?_⟩
          · rw [List.take_append_of_le_length (by omega)]
          · rw [List.length_append] at hl; omega
          · rw [List.length_append]; omega
          · rw [List.length_append]; omega

theorem doBruteforceK_spec {π : SetOrder} (hπ : π.Ok) (fuel : Nat) : ∀ (path : List (Cell × Int)) (s : Sudoku), Inv s → ∀ k, 1 ≤ k →
    Follows k (doBruteforceN π fuel path s) (doBruteforceK π fuel k path s) := by
  induction fuel with
  | zero => intro path s _ k _ a s' n e; cases e
  | succ fuel ih =>
    intro path s inv k hk sols s' n e
    unfold doBruteforceN at e
    unfold doBruteforceK
    cases hp : pickEmpty s with
    | none =>
      rw [hp] at e
      cases e
      refine ⟨s, 1, ?_, fun _ => ⟨rfl, rfl⟩, by simp; omega, by simp⟩
      rw [List.take_of_length_le (by simpa using hk)]
    | some a =>
      obtain ⟨ha, h0⟩ := pickEmpty_some hp
      rw [hp] at e
      simp only at e ⊢
      obtain ⟨pn, pm⟩ := hπ path (s.getCandidates a)
      cases e1 : bfLoopN (doBruteforceN π fuel) path a (π path (s.getCandidates a)) s with
      | none => rw [e1] at e; cases e
      | some q =>
        obtain ⟨a1, s1, n1⟩ := q
        rw [e1] at e
        cases e
        have hi : ∀ c ∈ π path (s.getCandidates a), Inv (place s a c) := fun c hc => inv.place ha h0 ((pm c).1 hc)
        obtain ⟨s2, m, f1, f2, f3, f4⟩ := bfLoopK_spec (recN := doBruteforceN π fuel) (recK := doBruteforceK π fuel) ha h0 _
          (fun c hc sols s' n h => (doBruteforceN_count hπ fuel _ _ _ _ _ (hi c hc) h).1) (fun c hc => ih _ _ (hi c hc)) k hk _ _ _ e1
        rw [f1]
        refine ⟨s2, m + 1, rfl, fun hl => ?_, by omega, by omega⟩
        obtain ⟨rfl, rfl⟩ := f2 hl
        exact ⟨rfl, rfl⟩

theorem bfLoopK_deep {recN : List (Cell × Int) → Sudoku → Option (List Sudoku × Sudoku × Nat)}
    {recK : Nat → List (Cell × Int) → Sudoku → Option (List Sudoku × Sudoku × Nat)} {path : List (Cell × Int)} {a : Cell} {s : Sudoku}
    (ha : InGrid s.bw s.bh a) (h0 : s.num a = 0) {k : Nat} (hk : 1 ≤ k) (cs : List Int) :
    (∀ c ∈ cs, recK k ((a, c) :: path) (place s a c) = recN ((a, c) :: path) (place s a c) ∧
      ∀ sols s' n, recN ((a, c) :: path) (place s a c) = some (sols, s', n) → sols = [] ∧ s' = place s a c) →
    bfLoopK recK path a cs k s = bfLoopN recN path a cs s ∧ ∀ sols s' n, bfLoopN recN path a cs s = some (sols, s', n) → sols = [] := by
  induction cs with
  | nil =>
    intro _
    refine ⟨rfl, fun sols s' n e => ?_⟩
    cases e
    rfl
  | cons c cs ih =>
    intro hrec
    obtain ⟨h1, h2⟩ := hrec c (by simp)
    obtain ⟨i1, i2⟩ := ih fun d hd => hrec d (by simp [hd])
    rw [bfLoopN_cons ha h0 (fun sols s' n h => (h2 _ _ _ h).2),
      bfLoopK_cons ha h0 (fun sols s' n h _ => by rw [h1] at h; exact (h2 _ _ _ h).2), h1]
    cases e1 : recN ((a, c) :: path) (place s a c) with
    | none => exact ⟨rfl, fun sols s' n e => by (cases e)⟩
    | some q =>
      obtain ⟨a1, s1, n1⟩ := q
      obtain ⟨rfl, -⟩ := h2 _ _ _ e1
      simp only [List.length_nil, Nat.sub_zero]
      rw [if_neg (by omega), i1]
      cases e2 : bfLoopN recN path a cs s with
      | none => exact ⟨rfl, fun sols s' n e => by (cases e)⟩
      | some q =>
        obtain ⟨a2, s2, n2⟩ := q
        refine ⟨rfl, fun sols s' n e => ?_⟩
        cases e
        rw [i2 _ _ _ e2]
        rfl

theorem doBruteforceK_deep {π : SetOrder} (hπ : π.Ok) {k : Nat} (hk : 1 ≤ k) (fuel : Nat) : ∀ (path : List (Cell × Int)) (s : Sudoku), Inv s →
    fuel ≤ s.empty.length → doBruteforceK π fuel k path s = doBruteforceN π fuel path s ∧
    ∀ sols s' n, doBruteforceN π fuel path s = some (sols, s', n) → sols = [] := by
  induction fuel with
  | zero => intro path s _ _; exact ⟨rfl, fun sols s' n e => by (cases e)⟩
  | succ fuel ih =>
    intro path s inv hf
    unfold doBruteforceK doBruteforceN
    cases hp : pickEmpty s with
    | none =>
      exfalso
      have hall := (pickEmpty_none s).1 hp
      have : s.empty = [] := by
        rw [List.eq_nil_iff_forall_not_mem]
        intro a ha
        simp only [Sudoku.empty, List.mem_filter, Sudoku.mem_cells, Sudoku.get, beq_iff_eq] at ha
        exact hall a ha.1 ha.2
      rw [this] at hf
      cases hf
    | some a =>
      obtain ⟨ha, h0⟩ := pickEmpty_some hp
      simp only
      obtain ⟨pn, pm⟩ := hπ path (s.getCandidates a)
      obtain ⟨q1, q2⟩ := bfLoopK_deep (recN := doBruteforceN π fuel) (recK := doBruteforceK π fuel) (path := path) ha h0 hk
        (π path (s.getCandidates a)) (fun c hc => by
          have hi := inv.place ha h0 ((pm c).1 hc)
          have hc0 : c ≠ 0 := by
            have := ((inv.cand a ha h0 c).1 ((pm c).1 hc)).1.1
            omega
          have he := empty_place ha h0 hc0
          obtain ⟨p1, p2⟩ := ih ((a, c) :: path) _ hi (by omega)
          exact ⟨p1, fun sols s' n e => ⟨p2 _ _ _ e, (doBruteforceN_count hπ fuel _ _ _ _ _ hi e).1⟩⟩)
      rw [q1]
      cases e : bfLoopN (doBruteforceN π fuel) path a (π path (s.getCandidates a)) s with
      | none => exact ⟨rfl, fun sols s' n e' => by (cases e')⟩
      | some q =>
        obtain ⟨a1, s1, n1⟩ := q
        refine ⟨rfl, fun sols s' n e' => ?_⟩
        cases e'
        exact q2 _ _ _ e

theorem bruteforceK_spec {π : SetOrder} (hπ : π.Ok) {fuel k : Nat} (hk : 1 ≤ k) {s : Sudoku} {sols : List Sudoku} {n : Nat}
    (h : bruteforceN π fuel s = some (sols, n)) :
    ∃ m, bruteforceK π fuel k s = some (sols.take k, m) ∧ (sols.length < k → m = n) ∧ m + (sols.length - k) ≤ n := by
  unfold bruteforceN at h
  unfold bruteforceK
  by_cases hs : NoConflict s.bw s.bh s.num
  swap
  · rw [if_pos (by rw [hasConflict_iff]; exact hs)] at h ⊢
    cases h
    exact ⟨0, by simp, fun _ => rfl, by simp⟩
  rw [if_neg (by rw [hasConflict_iff, not_not]; exact hs)] at h ⊢
  simp only at h ⊢
  cases e : doBruteforceN π fuel [] (initCandidates s.copy) with
  | none => rw [e] at h; cases h
  | some q =>
    obtain ⟨a, s1, m⟩ := q
    rw [e] at h
    cases h
    obtain ⟨s2, m, f1, f2, f3, -⟩ := doBruteforceK_spec hπ fuel [] _ (inv_init hs) k hk _ _ _ e
    rw [f1]
    exact ⟨m, rfl, fun hl => (f2 hl).2, f3⟩

theorem bruteforceK_none {π : SetOrder} (hπ : π.Ok) {fuel k : Nat} (hk : 1 ≤ k) {s : Sudoku} (hf : fuel ≤ s.empty.length)
    (h : bruteforce π fuel s = none) : bruteforceK π fuel k s = none := by
  rw [← bruteforceN_same] at h
  unfold bruteforceN at h
  unfold bruteforceK
  by_cases hs : NoConflict s.bw s.bh s.num
  swap
  · rw [if_pos (by rw [hasConflict_iff]; exact hs)] at h
    cases h
  rw [if_neg (by rw [hasConflict_iff, not_not]; exact hs)] at h ⊢
  simp only at h ⊢
  have hemp : (initCandidates s.copy).empty = s.empty := by
    have hcells : (initCandidates s.copy).cells = s.cells := by rw [initCandidates_eq, Sudoku.copy_eq]; rfl
    unfold Sudoku.empty
    rw [hcells]
    refine List.filter_congr fun a ha => ?_
    have ha' := (Sudoku.mem_cells s).1 ha
    have : (initCandidates s.copy).num a = s.num a := by
      rw [initCandidates_eq, Sudoku.copy_eq]; simp [ha']
    simp [Sudoku.get, this]
  rw [(doBruteforceK_deep hπ hk fuel [] _ (inv_init hs) (by rw [hemp]; exact hf)).1]
  cases e : doBruteforceN π fuel [] (initCandidates s.copy) with
  | none => rfl
  | some q => rw [e] at h; cases h

end Solve
