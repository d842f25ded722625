import Verif.Props.GameCommands
import Verif.Props.NewGame

set_option autoImplicit false

/-! # C91: every game can be won -/

open Spec

namespace Props

open Game

/-- `line` is the text for entering `v` in the field `a`, such as `r1c2=5`. -/
def Entry (w h : Nat) (a : Cell) (v : Int) (line : List Char) : Prop :=
  ∃ t, Notation.encode [Notation.toPair a] w h none [','] [] = .ok t ∧ line = t ++ '=' :: Py.intStr v

private theorem valid_one {w h : Nat} {a : Cell} (ha : InGrid w h a) : Text.Valid w h [Notation.toPair a] := by
  intro rc hrc
  rw [List.mem_singleton] at hrc
  subst hrc
  obtain ⟨h1, h2⟩ := ha
  show ((0 : Int) ≤ (a.1 : Int) ∧ (a.1 : Int) < _) ∧ (0 : Int) ≤ (a.2 : Int) ∧ (a.2 : Int) < _
  omega

/-- There is such a line for each field of the grid. -/
theorem C91_line {w h : Nat} (hw : 0 < w) (hh : 0 < h) {a : Cell} (ha : InGrid w h a) (v : Int) : ∃ line, Entry w h a v line := by
  obtain ⟨t, -, h1, -⟩ := C48_set w h hw hh _ (valid_one ha) (by simp) none v [] [] (by simp) (by simp)
  exact ⟨_, t, h1, rfl⟩

private theorem entry_decode {w h : Nat} (hw : 0 < w) (hh : 0 < h) {a : Cell} (ha : InGrid w h a) {v : Int} {line : List Char}
    (hl : Entry w h a v line) : Notation.decodeAction line w h = .ok (.setNumber [Notation.toPair a] v) := by
  obtain ⟨t, h1, rfl⟩ := hl
  obtain ⟨t', l, h2, h3, h4⟩ := C48_set w h hw hh _ (valid_one ha) (by simp) none v [] [] (by simp) (by simp)
  rw [h1] at h2
  cases h2
  have hmem : ∀ b, b ∈ l ↔ b = a := fun b => by
    rw [h3.2]
    simp only [Text.Among, List.mem_singleton, Notation.toPair, Prod.mk.injEq, Int.natCast_inj]
    exact Prod.ext_iff.symm
  have hnd : l.Nodup := h3.1.imp fun {b c} h e => by
    subst e
    rcases h with h | ⟨_, h⟩ <;> exact Nat.lt_irrefl _ h
  rw [List.perm_singleton.1 ((List.perm_ext_iff_of_nodup hnd (List.nodup_singleton a)).2 fun b => by rw [hmem, List.mem_singleton])] at h4
  simpa using h4

private theorem entry_word {w h : Nat} (hw : 0 < w) (hh : 0 < h) {a : Cell} (ha : InGrid w h a) {v : Int} {line : List Char}
    (hl : Entry w h a v line) : firstWord line = some line ∧ '=' ∈ line := by
  obtain ⟨t, h1, rfl⟩ := hl
  obtain ⟨⟨lt, h6⟩, h7, h8⟩ := Notation.encode_chars hw hh (valid_one ha) (by simp) h1
  have hsp : ∀ c ∈ t ++ '=' :: Py.intStr v, Py.isSpace c = false := by
    intro c hc
    rcases List.mem_append.1 hc with hc | hc
    · rcases h7 c hc with h | rfl
      · unfold Text.Special at h
        rcases h with h | rfl | rfl | rfl | rfl
        · exact Py.not_isSpace_of_digit h
        all_goals decide
      · decide
    · rcases List.mem_cons.1 hc with rfl | hc
      · decide
      · rcases Py.intStr_chars v c hc with h | rfl
        · exact Py.not_isSpace_of_digit h
        · decide
  refine ⟨?_, by simp⟩
  unfold firstWord
  have e : (t ++ '=' :: Py.intStr v).dropWhile Py.isSpace = t ++ '=' :: Py.intStr v := by
    cases t with
    | nil => exact absurd rfl h8
    | cons c t =>
      rw [List.cons_append, List.dropWhile_cons_of_neg]
      rw [hsp c (by simp)]
      decide
  have e2 : (t ++ '=' :: Py.intStr v).takeWhile (fun c => !Py.isSpace c) = t ++ '=' :: Py.intStr v := by
    rw [← List.append_nil (t ++ '=' :: Py.intStr v), List.takeWhile_append_of_pos]
    · simp
    · intro c hc
      rw [hsp c hc]
      rfl
  rw [e]
  split
  · rename_i h0
    simp at h0
  · rw [e2]

private theorem size_shrinks {s t : Sudoku} (h : Game.Shrinks s t) : size t ≤ size s := by
  have hc : t.cells = s.cells := by unfold Sudoku.cells Sudoku.indices Sudoku.n; rw [h.bw, h.bh]
  unfold size
  rw [hc]
  refine sum_le _ _ _ fun a _ => ?_
  unfold weight
  have h1 := Finset.card_le_card (h.cand a)
  rcases h.num a with h2 | h2
  · rw [h2]; omega
  · rw [if_pos h2.1]; split <;> omega

private theorem sum_one {α : Type} (l : List α) (hl : l.Nodup) (f g : α → Nat) (a : α) (h : ∀ b ∈ l, b ≠ a → f b = g b) (ha : f a ≤ g a + 2) :
    (l.map f).sum ≤ (l.map g).sum + 2 := by
  induction l with
  | nil => simp
  | cons b l ih =>
    rw [List.nodup_cons] at hl
    simp only [List.map_cons, List.sum_cons]
    by_cases hb : b = a
    · subst hb
      have : l.map f = l.map g := List.map_congr_left fun c hc => h c (by simp [hc]) fun e => hl.1 (e ▸ hc)
      rw [this]
      omega
    · have := ih hl.2 fun c hc => h c (by simp [hc])
      rw [h b (by simp) hb]
      omega

/-- What is asked of a state: no empty field has the candidate 0, if numbers are set automatically. -/
def Sane (set : Settings) (s : State) : Prop :=
  set.autoset = true → ∀ a, InGrid s.now.bw s.now.bh a → s.now.num a = 0 → (0 : Int) ∉ s.now.cand a

private theorem size_copy (x : Sudoku) : size (x.copy true) = size x := by
  have hc : (x.copy true).cells = x.cells := by rw [Sudoku.copy_eq]; rfl
  unfold size
  rw [hc]
  congr 1
  refine List.map_congr_left fun a ha => ?_
  have := (Sudoku.mem_cells _).1 ha
  unfold weight
  rw [copy_num x a this, copy_cand x a this]

private theorem entry_step {w h : Nat} (hw : 0 < w) (hh : 0 < h) (set : Settings) (π : HintOrders) (rounds : Nat) (s : State) (hs : Fine w h s)
    (hz : Sane set s) (a : Cell) (ha : InGrid w h a) (v : Int) (hv : set.autoset = true → v ≠ 0) (line : List Char) (hl : Entry w h a v line)
    (hr : size s.now + 2 < rounds) :
    ∃ t, step set π rounds line s = (t, none) ∧ Fine w h t ∧ t.solution = s.solution ∧ Sane set t ∧ size t.now ≤ size s.now + 2 ∧
      t.now.num a = v ∧ (∀ b, InGrid w h b → b ≠ a → t.now.num b = s.now.num b ∨ (set.autoset = true ∧ s.now.num b = 0)) := by
  obtain ⟨e1, e2⟩ := now_size hs
  obtain ⟨f1, f2⟩ := copy_size s.now
  have hdec := entry_decode hw hh ha hl
  obtain ⟨hword, heq⟩ := entry_word hw hh ha hl
  have hcw : line ∉ commandWords := by
    intro hm
    have : ∀ u ∈ commandWords, '=' ∉ u := by decide
    exact this _ hm heq
  -- the move
  have hleg : Legal (s.now.copy true).n [Notation.toPair a] := by
    intro rc hrc
    rw [List.mem_singleton] at hrc
    subst hrc
    refine ⟨a, ?_, ?_⟩ <;>
    · unfold Sudoku.n
      rw [f1, f2, e1, e2]
      first | exact ⟨ha.1, .inl rfl⟩ | exact ⟨ha.2, .inl rfl⟩
  obtain ⟨y, hy, y1, y2, y3⟩ := C47_set (s.now.copy true) [Notation.toPair a] v hleg
  have hit : ∀ b, InGrid w h b → (Actions.Hit (s.now.copy true).n [Notation.toPair a] b ↔ b = a) := by
    intro b hb
    have hN : (s.now.copy true).n = w * h := by unfold Sudoku.n; rw [f1, f2, e1, e2]
    unfold Actions.Hit Actions.Means
    rw [hN]
    simp only [List.mem_singleton, exists_eq_left, Notation.toPair]
    have := ha.1
    have := ha.2
    have := hb.1
    have := hb.2
    rw [Prod.ext_iff]
    constructor
    · rintro ⟨⟨_, h1⟩, _, h2⟩
      constructor <;> omega
    · rintro ⟨h1, h2⟩
      rw [h1, h2]
      exact ⟨⟨ha.1, .inl rfl⟩, ha.2, .inl rfl⟩
  have hsame : ∀ b, InGrid w h b → b ≠ a → y.num b = s.now.num b ∧ y.cand b = s.now.cand b := by
    intro b hb hne
    obtain ⟨k1, k2⟩ := (y3 b).2 fun hh => hne ((hit b hb).1 hh)
    have hb' : InGrid s.now.bw s.now.bh b := by rw [e1, e2]; exact hb
    rw [k1, k2, copy_num _ _ hb', copy_cand _ _ hb']
    exact ⟨rfl, rfl⟩
  obtain ⟨ya, yc⟩ := (y3 a).1 ((hit a ha).2 rfl)
  have y1' : y.bw = w := by rw [y1, f1, e1]
  have y2' : y.bh = h := by rw [y2, f2, e2]
  have hzero : NoZero set y := by
    intro hset b hb hn h0
    rw [y1', y2'] at hb
    by_cases hba : b = a
    · subst hba
      rw [yc, Finset.mem_singleton] at h0
      exact hv hset h0.symm
    · rw [(hsame b hb hba).2] at h0
      exact hz hset b (by rw [e1, e2]; exact hb) ((hsame b hb hba).1 ▸ hn) h0
  have hsize : size y ≤ size s.now + 2 := by
    have hc : y.cells = s.now.cells := by unfold Sudoku.cells Sudoku.indices Sudoku.n; rw [y1', y2', e1, e2]
    unfold size
    rw [hc]
    refine sum_one _ (Sudoku.nodup_cells _) _ _ a (fun b hb hne => ?_) ?_
    · have hb := (Sudoku.mem_cells _).1 hb
      rw [e1, e2] at hb
      unfold weight
      rw [(hsame b hb hne).1, (hsame b hb hne).2]
    · unfold weight
      rw [yc, Finset.card_singleton]
      split <;> omega
  obtain ⟨r, hr'⟩ := loop_ends set true rounds ⟨y, true, []⟩ hzero (by show size y < rounds; omega)
  have haf : autofill set true rounds y [] = some r := hr'
  have hsh : Game.Shrinks y r.1.sudoku := loop_inv (keeps_shrinks set y) true rounds (s := ⟨y, true, []⟩) (Shrinks.refl y) haf
  -- the shell does not end
  cases hst : step set π rounds line s with
  | mk t e =>
  cases e with
  | some e =>
    exfalso
    rcases (C72_endings hw hh set π rounds line s hs e).1 ⟨t, hst⟩ with ⟨hb, -⟩ | ⟨hb, -⟩ | ⟨-, hb, -⟩ | ⟨-, -, act, hb, hb'⟩
    · exact absurd (hb _ heq) (by decide)
    · rw [hword] at hb
      cases hb
      exact hcw (by decide)
    · rw [hdec] at hb
      cases hb
    · rw [hdec] at hb
      cases hb
      rw [hy, haf] at hb'
      cases hb'
  | none =>
  obtain ⟨ft, k1, -, -, -, -, k2⟩ := C53_step set π rounds line s t hs hst
  have heff : effect set rounds line (s.now.copy true) = r.1.sudoku := by
    unfold effect
    rw [hword, if_neg (by rintro ⟨⟩; exact hcw (by decide)), if_neg (by
      rintro ⟨word, hm, he⟩
      cases he
      exact hcw hm), f1, f2, e1, e2, hdec]
    simp only
    rw [hy]
    simp only [haf]
  obtain ⟨k3, k4⟩ := k2 (by rw [hword]; rintro ⟨⟩; exact hcw (by decide)) (by rw [hword]; rintro ⟨⟩; exact hcw (by decide))
  rw [heff] at k3 k4
  have r1 : r.1.sudoku.bw = w := hsh.bw.trans y1'
  have r2 : r.1.sudoku.bh = h := hsh.bh.trans y2'
  have hsp : ∀ b, InGrid w h b → t.now.num b = r.1.sudoku.num b ∧ t.now.cand b = r.1.sudoku.cand b := by
    by_cases hsp : SamePosition r.1.sudoku s.now
    · have e := k3 hsp
      have n1 := history_now ft
      rw [e, history_now hs] at n1
      have n1 := Option.some.inj n1
      intro b hb
      have := hsp b (by rw [r1, r2]; exact hb)
      rw [← n1]
      exact ⟨this.1.symm, this.2.symm⟩
    · have e := k4 hsp
      have n1 := history_now ft
      rw [e] at n1
      have hi : s.index < s.sudokus.length := hs.index
      unfold History.add State.history at n1
      simp only at n1
      rw [List.getElem?_append_right (by simp)] at n1
      simp only [List.length_take, List.length_map] at n1
      rw [show s.index + 1 - min (s.index + 1) s.sudokus.length = 0 by omega] at n1
      simp at n1
      intro b _
      rw [← n1]
      exact ⟨rfl, rfl⟩
  obtain ⟨g1, g2⟩ := now_size ft
  refine ⟨t, rfl, ft, k1, ?_, ?_, ?_, ?_⟩
  · intro hset b hb hn h0
    rw [g1, g2] at hb
    rw [(hsp b hb).2] at h0
    rw [(hsp b hb).1] at hn
    have hn' : y.num b = 0 := by
      rcases hsh.num b with k | k
      · exact k.symm.trans hn
      · exact k.1
    exact hzero hset b (by rw [y1', y2']; exact hb) hn' (hsh.cand b h0)
  · have hc : t.now.cells = r.1.sudoku.cells := by unfold Sudoku.cells Sudoku.indices Sudoku.n; rw [g1, g2, r1, r2]
    have : size t.now = size r.1.sudoku := by
      unfold size
      rw [hc]
      congr 1
      refine List.map_congr_left fun b hb => ?_
      have hb := (Sudoku.mem_cells _).1 hb
      rw [r1, r2] at hb
      unfold weight
      rw [(hsp b hb).1, (hsp b hb).2]
    rw [this]
    exact Nat.le_trans (size_shrinks hsh) hsize
  · rw [(hsp a ha).1]
    by_cases hset : set.autoset = true
    · rcases hsh.num a with k | k
      · rw [k, ya]
      · exact absurd (ya.symm.trans k.1) (hv hset)
    · have := loop_inv (keeps_exact set (by simpa using hset) y) true rounds (s := ⟨y, true, []⟩)
        ⟨⟨rfl, rfl⟩, rfl, fun b => ⟨Finset.Subset.refl _, fun v hv hn => absurd hv hn⟩⟩ haf
      rw [this.2.1, ya]
  · intro b hb hne
    rw [(hsp b hb).1]
    by_cases hset : set.autoset = true
    · rcases hsh.num b with k | k
      · rw [k, (hsame b hb hne).1]; exact .inl rfl
      · rw [(hsame b hb hne).1] at k; exact .inr ⟨hset, k.1⟩
    · have := loop_inv (keeps_exact set (by simpa using hset) y) true rounds (s := ⟨y, true, []⟩)
        ⟨⟨rfl, rfl⟩, rfl, fun b => ⟨Finset.Subset.refl _, fun v hv hn => absurd hv hn⟩⟩ haf
      rw [this.2.1, (hsame b hb hne).1]
      exact .inl rfl

/-- **C91** Entering a number, in whatever state the game is: the field has the number afterwards; other fields keep theirs, unless empty ones are
filled automatically. -/
theorem C91_entry {w h : Nat} (hw : 0 < w) (hh : 0 < h) (set : Settings) (π : HintOrders) (s : State) (hs : Fine w h s)
    (hz : Sane set s) (a : Cell) (ha : InGrid w h a) (v : Int) (hv : set.autoset = true → v ≠ 0) (line : List Char) (hl : Entry w h a v line) :
    ∃ m, ∀ rounds, m ≤ rounds → ∃ t, step set π rounds line s = (t, none) ∧ Fine w h t ∧ t.solution = s.solution ∧ Sane set t ∧
      t.now.get a = v ∧ ∀ b, InGrid w h b → b ≠ a → t.now.get b = s.now.get b ∨ (set.autoset = true ∧ s.now.get b = 0) := by
  refine ⟨size s.now + 3, fun rounds hr => ?_⟩
  obtain ⟨t, h1, h2, h3, h4, -, h5, h6⟩ := entry_step hw hh set π rounds s hs hz a ha v hv line hl (by omega)
  exact ⟨t, h1, h2, h3, h4, h5, h6⟩

private theorem enter_all {w h : Nat} (hw : 0 < w) (hh : 0 < h) (set : Settings) (π : HintOrders) (rounds : Nat) (g : Grid)
    (hg : set.autoset = true → ∀ a, InGrid w h a → g a ≠ 0) (L : List Cell) (lines : List (List Char))
    (hL : ∀ a ∈ L, InGrid w h a) (hl : List.Forall₂ (fun a => Entry w h a (g a)) L lines) (s : State) (hs : Fine w h s) (hz : Sane set s)
    (hr : size s.now + 2 * L.length < rounds) :
    ∃ t, (∀ rest, run set π rounds (lines ++ rest) s = run set π rounds rest t) ∧ Fine w h t ∧ t.solution = s.solution ∧ Sane set t ∧
      (∀ a ∈ L, t.now.num a = g a) ∧
      ∀ b, InGrid w h b → b ∉ L → t.now.num b = s.now.num b ∨ (set.autoset = true ∧ s.now.num b = 0) := by
  induction hl generalizing s with
  | nil => exact ⟨s, fun _ => rfl, hs, rfl, hz, by simp, fun b _ _ => .inl rfl⟩
  | @cons a line L lines hline _ ih =>
    have ha := hL a (by simp)
    simp only [List.length_cons] at hr
    obtain ⟨u, h1, h2, h3, h4, h5, h6, h7⟩ := entry_step hw hh set π rounds s hs hz a ha (g a) (fun hset => hg hset a ha) line hline (by omega)
    obtain ⟨t, i1, i2, i3, i4, i5, i6⟩ := ih (fun b hb => hL b (by simp [hb])) u h2 h4 (by omega)
    refine ⟨t, ?_, i2, i3.trans h3, i4, fun b hb => ?_, fun b hb hn => ?_⟩
    · intro rest
      rw [List.cons_append, run, h1]
      exact i1 rest
    · by_cases hbL : b ∈ L
      · exact i5 b hbL
      · have hba : b = a := by simpa [hbL] using hb
        subst hba
        rcases i6 b ha hbL with h | ⟨h, h'⟩
        · rw [h, h6]
        · exact absurd (h6.symm.trans h') (hg h b ha)
    · simp only [List.mem_cons, not_or] at hn
      rcases i6 b hb hn.2 with h | h
      · rw [h]
        exact h7 b hb hn.1
      · rcases h7 b hb hn.1 with h' | h'
        · rw [← h']; exact .inr h
        · exact .inr h'

/-- **C91** Every game can be won, whatever has been typed before: entering the numbers of the solution in all fields that are empty or
wrong, in any order (and perhaps in others, too), leads to the solution; then "check" and "conflicts" print nothing. -/
theorem C91_won {w h : Nat} (hw : 0 < w) (hh : 0 < h) (set : Settings) (π : HintOrders) (s : State) (hs : Fine w h s) (hz : Sane set s)
    (x : Grid) (hsol : IsSolution w h x s.solution.get) (L : List Cell) (lines : List (List Char)) (hL : ∀ a ∈ L, InGrid w h a)
    (hall : ∀ a, InGrid w h a → s.now.get a ≠ s.solution.get a → a ∈ L)
    (hl : List.Forall₂ (fun a => Entry w h a (s.solution.get a)) L lines) :
    ∃ m, ∀ rounds, m ≤ rounds → ∃ t u v v',
      run set π rounds lines s = (t, .eof) ∧ SameGrid w h t.now.get s.solution.get ∧ Solve.isSolved t.now = true ∧
      run set π rounds (lines ++ ["check".toList, "conflicts".toList]) s = (u, .eof) ∧ u.out = t.out ++ [.view v, .view v'] ∧ u.history = t.history := by
  have hpos : ∀ a, InGrid w h a → s.solution.get a ≠ 0 := fun a ha => by
    have := (hsol.full a ha).1
    omega
  refine ⟨size s.now + 2 * L.length + 1, fun rounds hr => ?_⟩
  obtain ⟨t, h1, h2, h3, h4, h5, h6⟩ := enter_all hw hh set π rounds s.solution.get (fun _ => hpos) L lines hL hl s hs hz (by omega)
  have hnow : ∀ a, InGrid w h a → t.now.num a = s.solution.num a := by
    intro a ha
    by_cases hm : a ∈ L
    · exact h5 a hm
    · have hs0 : s.now.get a = s.solution.get a := by
        by_contra hne
        exact hm (hall a ha hne)
      rcases h6 a ha hm with k | ⟨-, k⟩
      · exact k.trans hs0
      · exact absurd (hs0.symm.trans k) (hpos a ha)
  obtain ⟨e1, e2⟩ := now_size h2
  obtain ⟨v, u1, l, name, k1, k2, k3, k4, k5⟩ := C73_check hw hh set π rounds "check".toList t h2 (by decide +kernel)
  obtain ⟨fu, -⟩ := C53_step set π rounds _ t u1 h2 k1
  have hl0 : l = [] := by
    rw [List.eq_nil_iff_forall_not_mem]
    intro a ha
    obtain ⟨i1, i2, i3⟩ := (k3.2 a).1 ha
    exact i3 (by rw [h3]; exact hnow a i1)
  obtain ⟨v', u2, l', name', j1, j2, j3, j4, j5, j6, j7⟩ := C73_conflicts hw hh set π rounds "conflicts".toList u1 fu (by decide +kernel)
  have hnow1 : u1.now = t.now := by
    have := history_now fu
    rw [k2, history_now h2] at this
    exact (Option.some.inj this).symm
  have hl1 : l' = [] := by
    rw [List.eq_nil_iff_forall_not_mem]
    rintro ⟨a, b, y⟩ ha
    obtain ⟨i1, i2, i3, i4, i5, i6⟩ := j4 a b y ha
    rw [hnow1, hnow _ i1] at i5
    rw [hnow1, hnow _ i2] at i6
    exact hsol.valid a b i1 i2 i3 (hpos a i1) (i5.trans i6.symm)
  refine ⟨t, u2, v, v', by rw [← List.append_nil lines, h1 []]; rfl, hnow, ?_, ?_, ?_, j2.trans k2⟩
  · rw [C16_is_solved, e1, e2]
    refine ⟨fun a ha h0 => hpos a ha ((hnow a ha).symm.trans h0), fun a b ha hb hp h0 he => ?_⟩
    refine hsol.valid a b ha hb hp (hpos a ha) ?_
    exact (hnow a ha).symm.trans (he.trans (hnow b hb))
  · rw [h1, run, k1]
    simp only
    rw [run, j1]
    rfl
  · rw [j7, hl1, k5, hl0]
    simp

/-- Lines as asked for exist, for any list of fields. -/
theorem C91_lines {w h : Nat} (hw : 0 < w) (hh : 0 < h) (g : Grid) (L : List Cell) (hL : ∀ a ∈ L, InGrid w h a) :
    ∃ lines, List.Forall₂ (fun a => Entry w h a (g a)) L lines := by
  induction L with
  | nil => exact ⟨[], .nil⟩
  | cons a L ih =>
    obtain ⟨lines, h1⟩ := ih fun b hb => hL b (by simp [hb])
    obtain ⟨line, h2⟩ := C91_line hw hh (hL a (by simp)) (g a)
    exact ⟨line :: lines, .cons h2 h1⟩

/-- **C91** In particular a new game with the settings the shell has, after any lines that did not end it. -/
theorem C91_new_game {w h : Nat} (hw : 0 < w) (hh : 0 < h) (set : Settings) (hset : set.autoset = false) (π : HintOrders) (x : Sudoku) (s : State)
    (hs : NewGame set w h x s) (rounds' : Nat) (u : State) (hu : After set π rounds' s u) :
    ∃ lines m, ∀ rounds, m ≤ rounds → ∃ t, run set π rounds lines u = (t, .eof) ∧ IsSolution w h x.get t.now.get := by
  obtain ⟨fu, hsol, -⟩ := C53_run set π rounds' s u hs.fine hu
  have hs' : IsSolution w h x.get u.solution.get := by rw [hsol]; exact hs.solves
  let L := u.now.cells
  obtain ⟨e1, e2⟩ := now_size fu
  have hL : ∀ a ∈ L, InGrid w h a := fun a ha => by
    have := (Sudoku.mem_cells _).1 ha
    rw [e1, e2] at this
    exact this
  obtain ⟨lines, hl⟩ := C91_lines hw hh u.solution.get L hL
  obtain ⟨m, hm⟩ := C91_won hw hh set π u fu (fun h => by rw [hset] at h; cases h) x.get hs' L lines hL (fun a ha _ => (Sudoku.mem_cells _).2 (by
    rw [e1, e2]
    exact ha)) hl
  refine ⟨lines, m, fun rounds hr => ?_⟩
  obtain ⟨t, -, -, -, h1, h2, -⟩ := hm rounds hr
  refine ⟨t, h1, fun a ha h0 => ?_, fun a ha => ?_, fun a b ha hb hp h0 he => ?_⟩
  · rw [h2 a ha]; exact hs'.keeps a ha h0
  · rw [h2 a ha]; exact hs'.full a ha
  · rw [h2 a ha] at h0 he
    rw [h2 b hb] at he
    exact hs'.valid a b ha hb hp h0 he

/-! Cases -/

example : Entry 3 3 (0, 1) 5 "r1c2=5".toList := ⟨"r1c2".toList, by decide +kernel, by decide +kernel⟩

/-- The little game from above, after a wrong number. -/
example :
    let t := (run {} plainHints 9 ["r1c2=1".toList, "r2c2=2".toList, "r1c2=2".toList, "r2c1=2".toList, "r2c2=1".toList, "check".toList] tinyGame)
    t.2 = .eof ∧ Solve.isSolved t.1.now = true := by
  decide +kernel

end Props
