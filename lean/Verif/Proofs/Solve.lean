import Verif.Model.Solve
import Verif.Proofs.Store
import Mathlib.Tactic.Tauto

set_option autoImplicit false

/-! Helper lemmas about candidates, conflicts and bruteforce. -/

open Spec Geometry

namespace Solve

theorem mem_foldl_erase {α : Type} (f : α → Int) (l : List α) (S : Finset Int) (v : Int) :
    v ∈ l.foldl (fun cs b => cs.erase (f b)) S ↔ v ∈ S ∧ ∀ b ∈ l, f b ≠ v := by
  induction l generalizing S with
  | nil => simp
  | cons b l ih =>
    rw [List.foldl_cons, ih, Finset.mem_erase]
    simp only [List.mem_cons, forall_eq_or_imp]
    constructor
    · rintro ⟨⟨h1, h2⟩, h3⟩; exact ⟨h2, fun h => h1 h.symm, h3⟩
    · rintro ⟨h2, h1, h3⟩; exact ⟨⟨fun h => h1 h.symm, h2⟩, h3⟩

/-- Admissible in an empty field. -/
def Admissible (w h : Nat) (g : Grid) (a : Cell) (v : Int) : Prop :=
  IsNumber w h v ∧ ∀ b, InGrid w h b → Peer w h a b → g b ≠ v

theorem mem_calc_empty {s : Sudoku} {a : Cell} (ha : InGrid s.bw s.bh a) (h0 : s.num a = 0) (v : Int) :
    v ∈ calcCandidates s a ↔ Admissible s.bw s.bh s.num a v := by
  unfold calcCandidates Admissible
  rw [if_neg (by simpa [Sudoku.get] using h0), mem_foldl_erase, List.mem_toFinset, Sudoku.mem_numbers]
  simp only [Sudoku.mem_surroundingOf_false s ha, Sudoku.get, and_imp]

theorem calc_filled {s : Sudoku} {a : Cell} (h0 : s.num a ≠ 0) : calcCandidates s a = {s.num a} := by
  unfold calcCandidates
  rw [if_pos (by simpa [Sudoku.get] using h0)]; rfl

theorem calc_congr {s t : Sudoku} (hw : s.bw = t.bw) (hh : s.bh = t.bh) (hn : s.num = t.num) (a : Cell) :
    calcCandidates s a = calcCandidates t a := by
  obtain ⟨w, h, n, c⟩ := s
  obtain ⟨w', h', n', c'⟩ := t
  simp only at hw hh hn
  subst hw hh hn
  rfl

theorem init_fold (fo : Bool) (u : Sudoku) (l : List Cell) (s : Sudoku) (hw : s.bw = u.bw) (hh : s.bh = u.bh)
    (hn : s.num = u.num) :
    l.foldl (fun s a => if !fo || s.get a != 0 then s.setCandidates a (calcCandidates s a) else s) s =
      { s with cand := fun a => if a ∈ l ∧ (fo = false ∨ u.num a ≠ 0) then calcCandidates u a else s.cand a } := by
  induction l generalizing s with
  | nil => simp
  | cons b l ih =>
    rw [List.foldl_cons]
    by_cases hc : fo = false ∨ u.num b ≠ 0
    · have hc' : (!fo || s.get b != 0) = true := by
        rw [Bool.or_eq_true]; rcases hc with h | h
        · left; simp [h]
        · right; simpa [Sudoku.get, hn] using h
      rw [if_pos hc', ih _ (by exact hw) (by exact hh) (by exact hn), calc_congr hw hh hn]
      ext1 <;> simp only [Sudoku.setCandidates]
      funext a
      by_cases hal : a ∈ l
      · by_cases hab : a = b
        · subst hab; simp [hal, hc]
        · simp [hal, hab]
      · by_cases hab : a = b
        · subst hab; simp [hal, hc]
        · simp [hal, hab]
    · have hc' : ¬ (!fo || s.get b != 0) = true := by
        rw [Bool.or_eq_true]; rintro (h | h)
        · exact hc (Or.inl (by simpa using h))
        · exact hc (Or.inr (by simpa [Sudoku.get, hn] using h))
      rw [if_neg hc', ih _ hw hh hn]
      ext1 <;> simp only
      funext a
      by_cases hab : a = b
      · subst hab; simp [hc]
      · simp [hab]

theorem initCandidates_eq (s : Sudoku) (fo : Bool) :
    initCandidates s fo =
      { s with cand := fun a => if InGrid s.bw s.bh a ∧ (fo = false ∨ s.num a ≠ 0)
                                then calcCandidates s a else s.cand a } := by
  unfold initCandidates
  rw [init_fold fo s _ s rfl rfl rfl]
  simp only [Sudoku.mem_cells]

theorem hasConflict_iff (s : Sudoku) : hasConflict s = true ↔ ¬ NoConflict s.bw s.bh s.num := by
  unfold hasConflict NoConflict
  simp only [List.any_eq_true, Bool.and_eq_true, bne_iff_ne, beq_iff_eq, Sudoku.mem_cells]
  push Not
  constructor
  · rintro ⟨a, ha, h0, b, hb, e⟩
    rw [Sudoku.mem_surroundingOf_false s ha] at hb
    exact ⟨a, b, ha, hb.1, hb.2, h0, e.symm⟩
  · rintro ⟨a, b, ha, hb, hp, h0, e⟩
    exact ⟨a, ha, h0, b, (Sudoku.mem_surroundingOf_false s ha).2 ⟨hb, hp⟩, e.symm⟩

/-! ### saving and restoring -/

theorem saveAndRemove_eq (c : Int) (l : List Cell) : ∀ (s : Sudoku) (d : List (Cell × Finset Int)), l.Nodup →
    (∀ b ∈ l, b ∉ d.map Prod.fst) →
    saveAndRemove c l s d =
      ({ s with cand := fun b => if b ∈ l then s.cand b \ {c} else s.cand b },
       d ++ l.map fun b => (b, s.cand b)) := by
  induction l with
  | nil => intro s d _ _; simp [saveAndRemove]
  | cons b l ih =>
    intro s d hnd hd
    have hb : b ∉ l := (List.nodup_cons.1 hnd).1
    have e1 : dictSet d b (s.getCandidates b) = d ++ [(b, s.cand b)] := by
      unfold dictSet
      rw [if_neg]
      · rfl
      · simp only [List.any_eq_true, beq_iff_eq]
        rintro ⟨p, hp, rfl⟩
        exact hd p.1 (by simp) (List.mem_map_of_mem hp)
    have := ih (s.removeCandidates b {c}) (d ++ [(b, s.cand b)]) (List.nodup_cons.1 hnd).2 (by
      intro b' hb'
      simp only [List.map_append, List.map_cons, List.map_nil, List.mem_append, List.mem_singleton, not_or]
      exact ⟨hd b' (by simp [hb']), by rintro rfl; exact hb hb'⟩)
    unfold saveAndRemove at this ⊢
    rw [List.foldl_cons, e1, this]
    refine Prod.ext ?_ ?_
    · ext1 <;> simp only [Sudoku.removeCandidates]
      funext x
      by_cases hx : x ∈ l
      · have : x ≠ b := by rintro rfl; exact hb hx
        simp [hx, this]
      · by_cases hxb : x = b
        · subst hxb; simp [hx]
        · simp [hx, hxb]
    · simp only [List.append_assoc, List.singleton_append, List.map_cons]
      congr 2
      apply List.map_congr_left
      intro x hx
      have : x ≠ b := by rintro rfl; exact hb hx
      simp [Sudoku.removeCandidates, this]

theorem restore_eq (l : List Cell) (f : Cell → Finset Int) (s : Sudoku) :
    restore s (l.map fun b => (b, f b)) = { s with cand := fun b => if b ∈ l then f b else s.cand b } := by
  unfold restore
  rw [List.foldl_map]
  exact Sudoku.foldl_setCandidates l f s

/-- `s` with `c` set in `a` and `c` removed from the candidates of the peers. -/
def place (s : Sudoku) (a : Cell) (c : Int) : Sudoku :=
  { s with num := fun b => if b = a then c else s.num b
           cand := fun b => if b ∈ s.surroundingOf a false then s.cand b \ {c} else s.cand b }

theorem bfLoop_cons {rec : List (Cell × Int) → Sudoku → Option (List Sudoku × Sudoku)} {path : List (Cell × Int)} {a : Cell}
    {c : Int} {cs : List Int} {s : Sudoku} (ha : InGrid s.bw s.bh a) (h0 : s.num a = 0) {sols : List Sudoku}
    (hrec : rec ((a, c) :: path) (place s a c) = some (sols, place s a c)) :
    bfLoop rec path a (c :: cs) s = match bfLoop rec path a cs s with
      | none => none
      | some (sols', s') => some (sols ++ sols', s') := by
  have hsur : (s.setNumber a c).surroundingOf a false = s.surroundingOf a false := rfl
  have hnd := Sudoku.nodup_surroundingOf_false s (a := a) ha
  have hna : a ∉ s.surroundingOf a false := fun h => ((Sudoku.mem_surroundingOf_false s ha).1 h).2.1 rfl
  have hsave : saveAndRemove c (s.surroundingOf a false) (s.setNumber a c) [(a, s.cand a)] =
      (place s a c, (a :: s.surroundingOf a false).map fun b => (b, s.cand b)) :=
    saveAndRemove_eq c (s.surroundingOf a false) (s.setNumber a c) [(a, s.cand a)] hnd (by
    intro b hb; simp only [List.map_cons, List.map_nil, List.mem_singleton]; rintro rfl; exact hna hb)
  conv_lhs => unfold bfLoop
  simp only [hsur, show (s.setNumber a c).getCandidates a = s.cand a from rfl]
  rw [hsave]
  simp only
  rw [hrec]
  simp only
  have hres : (restore (place s a c) ((a :: s.surroundingOf a false).map
      fun b => (b, s.cand b))).setNumber a 0 = s := by
    rw [restore_eq]
    ext1
    · rfl
    · rfl
    · funext b
      simp only [place, Sudoku.setNumber]
      by_cases hb : b = a
      · subst hb; simp [h0]
      · simp [hb]
    · funext b
      simp only [place, Sudoku.setNumber]
      by_cases hb : b ∈ a :: s.surroundingOf a false
      · rw [if_pos hb]
      · rw [if_neg hb, if_neg (fun h => hb (List.mem_cons_of_mem _ h))]
  rw [hres]
  cases bfLoop rec path a cs s <;> rfl

theorem bfLoop_cons_none {rec : List (Cell × Int) → Sudoku → Option (List Sudoku × Sudoku)} {path : List (Cell × Int)} {a : Cell}
    {c : Int} {cs : List Int} {s : Sudoku} (ha : InGrid s.bw s.bh a)
    (hrec : rec ((a, c) :: path) (place s a c) = none) : bfLoop rec path a (c :: cs) s = none := by
  have hsur : (s.setNumber a c).surroundingOf a false = s.surroundingOf a false := rfl
  have hnd := Sudoku.nodup_surroundingOf_false s (a := a) ha
  have hna : a ∉ s.surroundingOf a false := fun h => ((Sudoku.mem_surroundingOf_false s ha).1 h).2.1 rfl
  have hsave : saveAndRemove c (s.surroundingOf a false) (s.setNumber a c) [(a, s.cand a)] =
      (place s a c, (a :: s.surroundingOf a false).map fun b => (b, s.cand b)) :=
    saveAndRemove_eq c (s.surroundingOf a false) (s.setNumber a c) [(a, s.cand a)] hnd (by
    intro b hb; simp only [List.map_cons, List.map_nil, List.mem_singleton]; rintro rfl; exact hna hb)
  conv_lhs => unfold bfLoop
  simp only [hsur, show (s.setNumber a c).getCandidates a = s.cand a from rfl]
  rw [hsave]
  simp only
  rw [hrec]

/-! ### the search -/

/-- The candidates of the empty fields are the admissible numbers, and there is no conflict. -/
structure Inv (s : Sudoku) : Prop where
  cand : ∀ a, InGrid s.bw s.bh a → s.num a = 0 → ∀ v, v ∈ s.cand a ↔ Admissible s.bw s.bh s.num a v
  ok : NoConflict s.bw s.bh s.num

theorem Inv.place {s : Sudoku} (h : Inv s) {a : Cell} (ha : InGrid s.bw s.bh a) (h0 : s.num a = 0) {c : Int}
    (hc : c ∈ s.cand a) : Inv (place s a c) := by
  have hadm := (h.cand a ha h0 c).1 hc
  constructor
  · intro b hb hb0 v
    simp only [Solve.place] at hb hb0 ⊢
    have hba : b ≠ a := by
      rintro rfl
      rw [if_pos rfl] at hb0
      have := hadm.1.1; omega
    rw [if_neg hba] at hb0
    have hcb := h.cand b hb hb0 v
    by_cases hp : Peer s.bw s.bh a b
    · rw [if_pos ((Sudoku.mem_surroundingOf_false s ha).2 ⟨hb, hp⟩), Finset.mem_sdiff, Finset.mem_singleton, hcb]
      simp only [Admissible]
      constructor
      · rintro ⟨⟨h1, h2⟩, h3⟩
        refine ⟨h1, fun x hx hpx => ?_⟩
        split
        · exact fun e => h3 e.symm
        · exact h2 x hx hpx
      · rintro ⟨h1, h2⟩
        refine ⟨⟨h1, fun x hx hpx => ?_⟩, ?_⟩
        · have := h2 x hx hpx
          split at this
          · rename_i e; subst e; rw [h0]; have := h1.1; omega
          · exact this
        · have := h2 a ha (peer_symm.1 hp)
          rw [if_pos rfl] at this; exact fun e => this e.symm
    · rw [if_neg (fun hm => hp ((Sudoku.mem_surroundingOf_false s ha).1 hm).2), hcb]
      simp only [Admissible]
      refine and_congr_right fun h1 => forall_congr' fun x => forall_congr' fun hx => forall_congr' fun hpx => ?_
      rw [if_neg]
      rintro rfl; exact hp (peer_symm.1 hpx)
  · intro x y hx hy hp hx0
    simp only [Solve.place] at hx hy hp hx0 ⊢
    by_cases hxa : x = a
    · subst hxa
      have hyx : y ≠ x := fun e => hp.1 e.symm
      rw [if_pos rfl, if_neg hyx]
      exact fun e => hadm.2 y hy hp e.symm
    · rw [if_neg hxa] at hx0 ⊢
      split
      · rename_i e; subst e
        exact fun e => hadm.2 x hx (peer_symm.1 hp) e
      · exact h.ok x y hx hy hp hx0

/-- What `copy` makes of a completion. -/
def Canon (w h : Nat) (t : Sudoku) : Prop :=
  t.bw = w ∧ t.bh = h ∧ (∀ a, ¬ InGrid w h a → t.num a = 0) ∧ ∀ a, t.cand a = ∅

theorem insertionSort_head_none {α : Type} (r : α → α → Prop) [DecidableRel r] (l : List α) :
    (l.insertionSort r).head? = none ↔ l = [] := by
  rw [List.head?_eq_none_iff]
  constructor
  · intro h
    have := List.length_insertionSort r l
    rw [h] at this
    exact List.eq_nil_of_length_eq_zero this.symm
  · rintro rfl; rfl

theorem pickEmpty_none (s : Sudoku) : pickEmpty s = none ↔ ∀ a, InGrid s.bw s.bh a → s.num a ≠ 0 := by
  unfold pickEmpty
  rw [insertionSort_head_none, List.eq_nil_iff_forall_not_mem]
  refine forall_congr' fun a => ?_
  simp only [Sudoku.empty, List.mem_filter, Sudoku.mem_cells, Sudoku.get, beq_iff_eq]
  tauto

theorem pickEmpty_some {s : Sudoku} {a : Cell} (h : pickEmpty s = some a) : InGrid s.bw s.bh a ∧ s.num a = 0 := by
  unfold pickEmpty at h
  have h1 := List.mem_of_mem_head? (Option.mem_def.2 h)
  rw [List.mem_insertionSort] at h1
  simpa only [Sudoku.empty, List.mem_filter, Sudoku.mem_cells, Sudoku.get, beq_iff_eq] using h1

theorem empty_place {s : Sudoku} {a : Cell} (ha : InGrid s.bw s.bh a) (h0 : s.num a = 0) {c : Int} (hc : c ≠ 0) :
    (place s a c).empty.length + 1 = s.empty.length := by
  have e : (place s a c).empty = s.empty.filter (fun b => b != a) := by
    unfold Sudoku.empty
    rw [List.filter_filter]
    show List.filter _ s.cells = _
    refine List.filter_congr fun b _ => ?_
    simp only [Sudoku.get, place]
    by_cases hb : b = a
    · subst hb; simp [hc]
    · simp [hb]
  rw [e]
  have hm : a ∈ s.empty := by simp [Sudoku.empty, Sudoku.mem_cells, ha, Sudoku.get, h0]
  have hn : s.empty.Nodup := (Sudoku.nodup_cells s).filter _
  rw [← hn.erase_eq_filter, List.length_erase_of_mem hm]
  have := List.length_pos_of_mem hm
  omega

/-- All completions, or the recursion is too deep: more than `f` calls needed. -/
theorem bfLoop_spec {rec : List (Cell × Int) → Sudoku → Option (List Sudoku × Sudoku)} {path : List (Cell × Int)} {a : Cell}
    {s : Sudoku} (ha : InGrid s.bw s.bh a) (h0 : s.num a = 0) {P B : Prop} (cs : List Int) :
    cs.Nodup → (∀ c ∈ cs, c ≠ 0 ∧
      ((∃ sols, rec ((a, c) :: path) (place s a c) = some (sols, place s a c) ∧ sols.Nodup ∧
        (∀ t, t ∈ sols ↔ Canon s.bw s.bh t ∧ IsCompletion s.bw s.bh (place s a c).num t.num) ∧
        (∀ g, IsCompletion s.bw s.bh (place s a c).num g → P)) ∨
      (rec ((a, c) :: path) (place s a c) = none ∧ B))) →
    (∃ sols, bfLoop rec path a cs s = some (sols, s) ∧ sols.Nodup ∧
      (∀ t, t ∈ sols ↔ Canon s.bw s.bh t ∧ ∃ c ∈ cs, IsCompletion s.bw s.bh (place s a c).num t.num) ∧
      (∀ g, ∀ c ∈ cs, IsCompletion s.bw s.bh (place s a c).num g → P)) ∨
    (bfLoop rec path a cs s = none ∧ B) := by
  induction cs with
  | nil => intro _ _; exact Or.inl ⟨[], rfl, by simp, by simp, by simp⟩
  | cons c cs ih =>
    intro hnd hall
    obtain ⟨hc0, ⟨sols1, e1, n1, m1, b1⟩ | ⟨e1, hB⟩⟩ := hall c (by simp)
    swap
    · exact Or.inr ⟨bfLoop_cons_none ha e1, hB⟩
    rcases ih (List.nodup_cons.1 hnd).2 (fun d hd => hall d (by simp [hd])) with ⟨sols2, e2, n2, m2, b2⟩ | ⟨e2, hB⟩
    swap
    · right
      refine ⟨?_, hB⟩
      rw [bfLoop_cons ha h0 e1, e2]
    left
    refine ⟨sols1 ++ sols2, ?_, ?_, ?_, ?_⟩
    · rw [bfLoop_cons ha h0 e1, e2]
    · rw [List.nodup_append']
      refine ⟨n1, n2, fun t h1 h2 => ?_⟩
      obtain ⟨_, k1⟩ := (m1 t).1 h1
      obtain ⟨_, d, hd, k2⟩ := (m2 t).1 h2
      have v1 := k1.keeps a ha (by simpa [place] using hc0)
      have v2 := k2.keeps a ha (by simpa [place] using (hall d (by simp [hd])).1)
      simp only [place, if_pos] at v1 v2
      rw [v1] at v2; subst v2
      exact (List.nodup_cons.1 hnd).1 hd
    · intro t
      rw [List.mem_append, m1, m2]
      simp only [List.mem_cons, exists_eq_or_imp]
      tauto
    · intro g d hd k
      rcases List.mem_cons.1 hd with rfl | hd
      · exact b1 g k
      · exact b2 g d hd k

theorem completion_split {w h : Nat} {s g : Grid} {a : Cell} (ha : InGrid w h a) (h0 : s a = 0) :
    IsCompletion w h s g ↔ ∃ c, IsNumber w h c ∧ IsCompletion w h (fun b => if b = a then c else s b) g := by
  constructor
  · intro k
    refine ⟨g a, k.full a ha h0, ?_, ?_, k.valid⟩
    · intro b hb hb0
      by_cases e : b = a
      · subst e; simp
      · simp only [if_neg e] at hb0 ⊢; exact k.keeps b hb hb0
    · intro b hb hb0
      by_cases e : b = a
      · subst e; exact k.full b hb h0
      · simp only [if_neg e] at hb0; exact k.full b hb hb0
  · rintro ⟨c, hc, k⟩
    refine ⟨fun b hb hb0 => ?_, fun b hb hb0 => ?_, k.valid⟩
    · have e : b ≠ a := by rintro rfl; exact hb0 h0
      have := k.keeps b hb (by simpa [e] using hb0)
      simpa [e] using this
    · by_cases e : b = a
      · subst e
        have := k.keeps b hb (by simp only [if_pos]; have := hc.1; omega)
        simp only [if_pos] at this
        rw [this]; exact hc
      · exact k.full b hb (by simpa [e] using hb0)

theorem completion_admissible {w h : Nat} {s g : Grid} {a : Cell} (ha : InGrid w h a) {c : Int} (hc : IsNumber w h c)
    (k : IsCompletion w h (fun b => if b = a then c else s b) g) : Admissible w h s a c := by
  refine ⟨hc, fun b hb hp e => ?_⟩
  have hc0 : c ≠ 0 := by have := hc.1; omega
  have ga := k.keeps a ha (by simpa using hc0)
  simp only [if_pos] at ga
  have hba : b ≠ a := fun e => hp.1 e.symm
  have gb := k.keeps b hb (by simp only [if_neg hba]; rw [e]; exact hc0)
  simp only [if_neg hba] at gb
  exact k.valid a b ha hb hp (by rw [ga]; exact hc0) (by rw [ga, gb, e])

theorem doBruteforce_spec {π : SetOrder} (hπ : π.Ok) (fuel : Nat) : ∀ (path : List (Cell × Int)) (s : Sudoku), Inv s →
    (∃ sols, doBruteforce π fuel path s = some (sols, s) ∧ sols.Nodup ∧
      (∀ t, t ∈ sols ↔ Canon s.bw s.bh t ∧ IsCompletion s.bw s.bh s.num t.num) ∧
      (∀ g, IsCompletion s.bw s.bh s.num g → s.empty.length < fuel)) ∨
    (doBruteforce π fuel path s = none ∧ fuel ≤ s.empty.length) := by
  induction fuel with
  | zero => intro _ s _; exact Or.inr ⟨rfl, by omega⟩
  | succ fuel ih =>
    intro path s inv
    unfold doBruteforce
    cases hp : pickEmpty s with
    | none =>
      have hfull := (pickEmpty_none s).1 hp
      have hemp : s.empty = [] := by
        rw [List.eq_nil_iff_forall_not_mem]
        intro a ha
        simp only [Sudoku.empty, List.mem_filter, Sudoku.mem_cells, Sudoku.get, beq_iff_eq] at ha
        exact hfull a ha.1 ha.2
      refine Or.inl ⟨[s.copy], rfl, by simp, fun t => ?_, fun g _ => by rw [hemp]; simp⟩
      rw [List.mem_singleton, Sudoku.copy_eq]
      constructor
      · rintro rfl
        refine ⟨⟨rfl, rfl, fun a ha => by simp [ha], fun a => by simp⟩, ?_, ?_, ?_⟩
        · intro a ha _; simp [ha]
        · intro a ha h0; exact absurd h0 (hfull a ha)
        · intro a b ha hb hpe h0
          simp only [ha, hb, if_true] at h0 ⊢
          exact inv.ok a b ha hb hpe h0
      · rintro ⟨⟨h1, h2, h3, h4⟩, k⟩
        ext1
        · exact h1
        · exact h2
        · funext a
          by_cases ha : InGrid s.bw s.bh a
          · simp [ha, k.keeps a ha (hfull a ha)]
          · simp [ha, h3 a ha]
        · funext a; simp [h4]
    | some a =>
      obtain ⟨ha, h0⟩ := pickEmpty_some hp
      simp only
      obtain ⟨pn, pm⟩ := hπ path (s.getCandidates a)
      rcases bfLoop_spec (rec := doBruteforce π fuel) (path := path) ha h0
        (P := s.empty.length < fuel + 1) (B := fuel + 1 ≤ s.empty.length) (π path (s.getCandidates a)) pn (by
          intro c hc
          have hc' : c ∈ s.cand a := (pm c).1 hc
          have hadm := (inv.cand a ha h0 c).1 hc'
          have hc0 : c ≠ 0 := by have := hadm.1.1; omega
          refine ⟨hc0, ?_⟩
          have he := empty_place ha h0 hc0
          rcases ih ((a, c) :: path) (place s a c) (inv.place ha h0 hc') with ⟨sols, e, n, m, b⟩ | ⟨e, b⟩
          · exact Or.inl ⟨sols, e, n, m, fun g k => by have := b g k; omega⟩
          · exact Or.inr ⟨e, by omega⟩) with ⟨sols, e, n, m, b⟩ | h
      swap
      · exact Or.inr h
      have hsplit : ∀ g, IsCompletion s.bw s.bh s.num g ↔
          ∃ c ∈ π path (s.getCandidates a), IsCompletion s.bw s.bh (place s a c).num g := by
        intro g
        rw [completion_split ha h0]
        refine ⟨?_, ?_⟩
        · rintro ⟨c, hc, k⟩
          exact ⟨c, (pm c).2 ((inv.cand a ha h0 c).2 (completion_admissible ha hc k)), k⟩
        · rintro ⟨c, hc, k⟩
          exact ⟨c, ((inv.cand a ha h0 c).1 ((pm c).1 hc)).1, k⟩
      refine Or.inl ⟨sols, e, n, fun t => by rw [m, hsplit], fun g k => ?_⟩
      obtain ⟨c, hc, k⟩ := (hsplit g).1 k
      exact b g c hc k

theorem inv_init {s : Sudoku} (h : NoConflict s.bw s.bh s.num) : Inv (initCandidates s.copy) := by
  rw [initCandidates_eq, Sudoku.copy_eq]
  constructor
  · intro a ha h0 v
    simp only at ha h0 ⊢
    rw [if_pos ⟨ha, Or.inl trivial⟩, mem_calc_empty]
    · exact ha
    · exact h0
  · intro a b ha hb hp h0
    simp only at ha hb hp h0 ⊢
    rw [if_pos ha] at h0 ⊢
    rw [if_pos hb]
    exact h a b ha hb hp h0

theorem init_copy_num (s : Sudoku) : (initCandidates s.copy).num = s.copy.num := by rw [initCandidates_eq]

theorem completion_copy {s : Sudoku} {g : Grid} :
    IsCompletion s.bw s.bh s.copy.num g ↔ IsCompletion s.bw s.bh s.num g := by
  have e : ∀ a, InGrid s.bw s.bh a → s.copy.num a = s.num a := by
    intro a ha; rw [Sudoku.copy_eq]; simp [ha]
  constructor
  · intro k
    exact ⟨fun a ha h => (k.keeps a ha (by rw [e a ha]; exact h)).trans (e a ha),
      fun a ha h => k.full a ha (by rw [e a ha]; exact h), k.valid⟩
  · intro k
    exact ⟨fun a ha h => (k.keeps a ha (by rw [← e a ha]; exact h)).trans (e a ha).symm,
      fun a ha h => k.full a ha (by rw [← e a ha]; exact h), k.valid⟩

/-- What `bruteforce` delivers with recursion depth `fuel`. -/
def BfResult (fuel : Nat) (s : Sudoku) (res : Option (List Sudoku)) : Prop :=
  (∃ sols, res = some sols ∧ sols.Nodup ∧
    (∀ t, t ∈ sols ↔ Canon s.bw s.bh t ∧ IsCompletion s.bw s.bh s.num t.num) ∧
    ∀ g, IsCompletion s.bw s.bh s.num g → s.empty.length < fuel) ∨
  (res = none ∧ fuel ≤ s.empty.length)

theorem bruteforce_result {π : SetOrder} (hπ : π.Ok) (s : Sudoku) (fuel : Nat) : BfResult fuel s (bruteforce π fuel s) := by
  unfold bruteforce
  by_cases hc : hasConflict s = true
  · rw [if_pos hc]
    have hnone : ∀ g, ¬ IsCompletion s.bw s.bh s.num g := by
      intro g k
      rw [hasConflict_iff] at hc
      apply hc
      intro a b ha hb hp h0 e
      have ga := k.keeps a ha h0
      have gb := k.keeps b hb (by rw [← e]; exact h0)
      exact k.valid a b ha hb hp (by rw [ga]; exact h0) (by rw [ga, gb, e])
    refine Or.inl ⟨[], rfl, by simp, fun t => ?_, fun g k => absurd k (hnone g)⟩
    simp only [List.not_mem_nil, false_iff, not_and]
    exact fun _ => hnone _
  · rw [if_neg hc]
    rw [hasConflict_iff, not_not] at hc
    have hcells : (initCandidates s.copy).cells = s.cells := by rw [initCandidates_eq, Sudoku.copy_eq]; rfl
    have hemp : (initCandidates s.copy).empty = s.empty := by
      unfold Sudoku.empty
      rw [hcells]
      refine List.filter_congr fun a ha => ?_
      have := (Sudoku.mem_cells s).1 ha
      rw [initCandidates_eq, Sudoku.copy_eq]; simp [Sudoku.get, this]
    have hw : (initCandidates s.copy).bw = s.bw := by rw [initCandidates_eq, Sudoku.copy_eq]
    have hh : (initCandidates s.copy).bh = s.bh := by rw [initCandidates_eq, Sudoku.copy_eq]
    have main := doBruteforce_spec hπ fuel [] _ (inv_init hc)
    simp only [hw, hh, init_copy_num, completion_copy, hemp] at main
    rcases main with ⟨sols, e, n, m, b⟩ | ⟨e, b⟩
    · exact Or.inl ⟨sols, by simp [e], n, m, b⟩
    · exact Or.inr ⟨by simp [e], b⟩

theorem bruteforce_spec {π : SetOrder} (hπ : π.Ok) (s : Sudoku) (fuel : Nat) (hf : s.empty.length < fuel) :
    ∃ sols, bruteforce π fuel s = some sols ∧ sols.Nodup ∧
      ∀ t, t ∈ sols ↔ Canon s.bw s.bh t ∧ IsCompletion s.bw s.bh s.num t.num := by
  rcases bruteforce_result hπ s fuel with ⟨sols, e, n, m, -⟩ | ⟨-, h⟩
  · exact ⟨sols, e, n, m⟩
  · omega

end Solve
