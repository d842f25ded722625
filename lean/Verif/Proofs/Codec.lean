import Verif.Model.Codec
import Verif.Proofs.Strings
import Verif.Proofs.Solvers
import Mathlib.Data.Nat.Prime.Basic
import Mathlib.Tactic.IntervalCases

set_option autoImplicit false

/-! # Lemmas about `encode` and `decode` -/

open Spec

namespace Codec

/-! ## Numbering the fields -/

theorem product_range (m N : Nat) :
    Coordinates.product (List.range m) (List.range N) = (List.range (m * N)).map fun i => (i / N, i % N) := by
  unfold Coordinates.product
  induction m with
  | zero => simp
  | succ m ih =>
    rw [List.range_succ, List.flatMap_append, ih, Nat.succ_mul, List.range_add, List.map_append]
    congr 1
    rw [List.flatMap_cons, List.flatMap_nil, List.append_nil, List.map_map]
    refine List.map_congr_left fun i hi => ?_
    have hi := List.mem_range.1 hi
    have hN : 0 < N := by omega
    simp only [Function.comp_apply]
    rw [Nat.mul_comm, Nat.mul_add_div hN, Nat.mul_add_mod, Nat.div_eq_of_lt hi, Nat.mod_eq_of_lt hi, Nat.add_zero]

theorem cells_eq (s : Sudoku) : s.cells = (List.range (s.n * s.n)).map fun i => (i / s.n, i % s.n) := product_range _ _

theorem pos_div {N r c : Nat} (hc : c < N) : (r * N + c) / N = r := by
  rw [Nat.mul_comm, Nat.mul_add_div (by omega), Nat.div_eq_of_lt hc, Nat.add_zero]

theorem pos_mod {N r c : Nat} (hc : c < N) : (r * N + c) % N = c := by
  rw [Nat.mul_comm, Nat.mul_add_mod, Nat.mod_eq_of_lt hc]

theorem pos_lt {N r c : Nat} (hr : r < N) (hc : c < N) : r * N + c < N * N := by
  have := Nat.mul_le_mul_right N (show r + 1 ≤ N from hr)
  rw [Nat.succ_mul] at this
  omega

theorem pos_inj {N r c r' c' : Nat} (hc : c < N) (hc' : c' < N) (h : r * N + c = r' * N + c') : r = r' ∧ c = c' := by
  have h1 := congrArg (· / N) h
  have h2 := congrArg (· % N) h
  simp only [pos_div hc, pos_div hc', pos_mod hc, pos_mod hc'] at h1 h2
  exact ⟨h1, h2⟩

/-! ## Whitespace -/

theorem replace_fold {special sep : List Char} (hsep : ∀ c ∈ sep, c ∈ special) (ws : List Char) (s : List Char) :
    ws.foldl (fun s c => if c ∉ special then Py.replaceChar c sep s else s) s =
      s.flatMap fun c => if c ∈ ws ∧ c ∉ special then sep else [c] := by
  induction ws generalizing s with
  | nil => simp
  | cons d ws ih =>
    rw [List.foldl_cons, ih]
    by_cases hd : d ∈ special
    · rw [if_neg (not_not.2 hd)]
      refine List.flatMap_congr fun c _ => ?_
      by_cases hcd : c = d
      · subst hcd; simp [hd]
      · simp [hcd]
    · rw [if_pos hd]
      unfold Py.replaceChar
      rw [List.flatMap_assoc]
      refine List.flatMap_congr fun c _ => ?_
      by_cases hcd : c = d
      · subst hcd
        rw [if_pos rfl, if_pos ⟨List.mem_cons_self, hd⟩]
        have : ∀ l : List Char, (∀ x ∈ l, x ∈ special) → l.flatMap (fun c => if c ∈ ws ∧ c ∉ special then sep else [c]) = l := by
          intro l hl
          induction l with
          | nil => rfl
          | cons x l ih =>
            rw [List.flatMap_cons, if_neg (fun h => h.2 (hl x List.mem_cons_self)), ih fun y hy => hl y (List.mem_cons_of_mem _ hy)]
            rfl
        exact this sep hsep
      · rw [if_neg hcd]
        simp [hcd]

/-- The special characters. -/
def special (p : Args) : List Char := p.empty ++ p.sudokuSep ++ p.candidateSep ++ p.numberSep

theorem removeSpace_eq (p : Args) (s : List Char) :
    removeSpace p s = s.flatMap fun c => if c ∈ Py.whitespace ∧ c ∉ special p then p.numberSep else [c] := by
  unfold removeSpace
  exact replace_fold (by intro c hc; simp [hc]) _ _

theorem removeSpace_filter (p : Args) (hp : p.numberSep = []) (hs : ∀ c ∈ Py.whitespace, c ∉ special p) (s : List Char) :
    removeSpace p s = s.filter fun c => decide (c ∉ Py.whitespace) := by
  rw [removeSpace_eq, hp]
  induction s with
  | nil => rfl
  | cons c s ih =>
    rw [List.flatMap_cons, ih, List.filter_cons]
    by_cases hc : c ∈ Py.whitespace
    · rw [if_pos ⟨hc, hs c hc⟩]; simp [hc]
    · rw [if_neg fun h => hc h.1]; simp [hc]

theorem removeSpace_id (p : Args) {s : List Char} (h : ∀ c ∈ s, c ∈ Py.whitespace → c ∈ special p) : removeSpace p s = s := by
  rw [removeSpace_eq]
  induction s with
  | nil => rfl
  | cons c s ih =>
    rw [List.flatMap_cons, ih fun d hd => h d (List.mem_cons_of_mem _ hd), if_neg fun k => k.2 (h c List.mem_cons_self k.1)]
    rfl

theorem filter_dropWhile {p q : Char → Bool} (h : ∀ c, p c = true → q c = false) (s : List Char) :
    (s.dropWhile p).filter q = s.filter q := by
  induction s with
  | nil => rfl
  | cons c s ih =>
    by_cases hc : p c = true
    · rw [List.dropWhile_cons_of_pos hc, ih, List.filter_cons, h c hc]; rfl
    · rw [List.dropWhile_cons_of_neg hc]

theorem dropWhile_congr' {p q : Char → Bool} {s : List Char} (h : ∀ c ∈ s, p c = q c) : s.dropWhile p = s.dropWhile q := by
  induction s with
  | nil => rfl
  | cons c s ih =>
    have ih := ih fun d hd => h d (List.mem_cons_of_mem _ hd)
    have hc := h c List.mem_cons_self
    by_cases hp : p c = true
    · rw [List.dropWhile_cons_of_pos hp, List.dropWhile_cons_of_pos (hc ▸ hp), ih]
    · rw [List.dropWhile_cons_of_neg hp, List.dropWhile_cons_of_neg (hc ▸ hp)]

theorem whitespace_isSpace {c : Char} (h : c ∈ Py.whitespace) : Py.isSpace c = true := by
  revert c; unfold Py.whitespace; decide

/-- Stripping does not matter if whitespace is removed anyway. -/
theorem filter_strip {s : List Char} (h : ∀ c ∈ s, Py.isSpace c = true → c ∈ Py.whitespace) :
    (Py.strip s).filter (fun c => decide (c ∉ Py.whitespace)) = s.filter fun c => decide (c ∉ Py.whitespace) := by
  have hiff : ∀ c ∈ s, Py.isSpace c = decide (c ∈ Py.whitespace) := by
    intro c hc
    by_cases hw : c ∈ Py.whitespace
    · simp [hw, whitespace_isSpace hw]
    · have : ¬ Py.isSpace c = true := fun k => hw (h c hc k)
      simp [hw, this]
  unfold Py.strip Py.stripBy
  rw [dropWhile_congr' hiff]
  have hsub : ∀ c ∈ (s.dropWhile fun c => decide (c ∈ Py.whitespace)).reverse, Py.isSpace c = decide (c ∈ Py.whitespace) := by
    intro c hc
    exact hiff c ((List.dropWhile_sublist _).subset (List.mem_reverse.1 hc))
  rw [dropWhile_congr' hsub, List.filter_reverse, filter_dropWhile (by intro c hc; simpa using hc), List.filter_reverse,
    List.reverse_reverse, filter_dropWhile (by intro c hc; simpa using hc)]

/-! ## Reading the fields -/

/-- Both reading loops, with the fields numbered row by row. -/
def fill {α β : Type} (N : Nat) (val : α → Except PyErr β) : List α → Nat → (Cell → β) → Except PyErr (Cell → β)
  | [], _, g => .ok g
  | x :: l, k, g => match val x with
    | .error e => .error e
    | .ok v =>
      let g' := fun b => if b = (k / N, k % N) then v else g b
      if k + 1 ≥ N * N then .ok g' else fill N val l (k + 1) g'

theorem next_pos {N k : Nat} (hk : k < N * N) :
    (if k % N + 1 ≥ N then k / N + 1 else k / N) = (k + 1) / N ∧ (if k % N + 1 ≥ N then 0 else k % N + 1) = (k + 1) % N := by
  have hN : 0 < N := Nat.pos_of_ne_zero (by rintro rfl; simp at hk)
  have h1 := Nat.mod_lt k hN
  have h2 := Nat.div_add_mod k N
  by_cases h : k % N + 1 ≥ N
  · rw [if_pos h, if_pos h]
    have h3 : k + 1 = N * (k / N + 1) + 0 := by rw [Nat.mul_succ]; omega
    rw [h3, Nat.mul_add_div hN, Nat.mul_add_mod]
    simp
  · rw [if_neg h, if_neg h]
    have h3 : k + 1 = N * (k / N) + (k % N + 1) := by omega
    have h4 : (k % N + 1) / N = 0 := Nat.div_eq_of_lt (by omega)
    have h5 : (k % N + 1) % N = k % N + 1 := Nat.mod_eq_of_lt (by omega)
    constructor
    · conv_rhs => rw [h3, Nat.mul_add_div hN, h4, Nat.add_zero]
    · conv_rhs => rw [h3, Nat.mul_add_mod, h5]

theorem next_end {N k : Nat} (hk : k < N * N) : (k + 1) / N ≥ N ↔ k + 1 ≥ N * N := by
  have hN : 0 < N := Nat.pos_of_ne_zero (by rintro rfl; simp at hk)
  exact Nat.le_div_iff_mul_le hN

theorem readNumbers_fill (p : Args) {N : Nat} : ∀ (l : List (List Char)) (k : Nat) (s : Sudoku), s.n = N → k < N * N →
    readNumbers p l (k / N) (k % N) s = (fill N (itemNumber p) l k s.num).map fun g => { s with num := g } := by
  intro l
  induction l with
  | nil => intro k s _ _; rfl
  | cons x l ih =>
    intro k s hn hk
    have hN : 0 < N := Nat.pos_of_ne_zero (by rintro rfl; simp at hk)
    rw [readNumbers, fill]
    cases hv : itemNumber p x with
    | error e => rfl
    | ok v =>
      simp only
      have hn' : (s.setNumber (k / N, k % N) v).n = N := hn
      rw [hn', hn, if_pos ⟨Nat.div_lt_of_lt_mul hk, Nat.mod_lt k hN⟩, (next_pos hk).1, (next_pos hk).2]
      by_cases hend : k + 1 ≥ N * N
      · rw [if_pos hend, if_pos ((next_end hk).2 hend)]; rfl
      · rw [if_neg hend, if_neg (mt (next_end hk).1 hend), ih (k + 1) _ hn' (by omega)]
        rfl

theorem readCandidates_fill (p : Args) {N : Nat} : ∀ (l : List (List Char)) (k : Nat) (s : Sudoku), s.n = N → k < N * N →
    readCandidates p l (k / N) (k % N) s =
      (fill N (fun c => (pieceCandidates p c).map List.toFinset) l k s.cand).map fun g => { s with cand := g } := by
  intro l
  induction l with
  | nil => intro k s _ _; rfl
  | cons x l ih =>
    intro k s hn hk
    have hN : 0 < N := Nat.pos_of_ne_zero (by rintro rfl; simp at hk)
    rw [readCandidates, fill]
    cases hv : pieceCandidates p x with
    | error e => rfl
    | ok v =>
      simp only [Except.map]
      have hn' : (s.setCandidates (k / N, k % N) v.toFinset).n = N := hn
      have hm := Nat.mod_lt k hN
      have he : (k % N + 1 = N) = (k % N + 1 ≥ N) := propext ⟨fun h => h.ge, fun h => by omega⟩
      have hd : (k + 1) / N ≤ N := by
        rw [Nat.div_le_iff_le_mul_add_pred hN]; omega
      have he' : ((k + 1) / N = N) = ((k + 1) / N ≥ N) := propext ⟨fun h => h.ge, fun h => by omega⟩
      rw [hn', hn, if_pos ⟨Nat.div_lt_of_lt_mul hk, hm⟩]
      simp only [he]
      rw [(next_pos hk).1, (next_pos hk).2]
      simp only [he']
      by_cases hend : k + 1 ≥ N * N
      · rw [if_pos hend, if_pos ((next_end hk).2 hend)]; rfl
      · rw [if_neg hend, if_neg (mt (next_end hk).1 hend), ih (k + 1) _ hn' (by omega)]
        rfl

theorem cell_pos {N k : Nat} (hk : k < N * N) (a : Cell) :
    a = (k / N, k % N) ↔ a.1 < N ∧ a.2 < N ∧ a.1 * N + a.2 = k := by
  have hN : 0 < N := Nat.pos_of_ne_zero (by rintro rfl; simp at hk)
  constructor
  · rintro rfl
    exact ⟨Nat.div_lt_of_lt_mul hk, Nat.mod_lt k hN, by rw [Nat.mul_comm]; exact Nat.div_add_mod k N⟩
  · rintro ⟨h1, h2, rfl⟩
    rw [pos_div h2, pos_mod h2]

theorem fill_ok {α β : Type} {N : Nat} {val : α → Except PyErr β} (f : Nat → β) : ∀ (l : List α) (k : Nat) (g : Cell → β),
    k < N * N → (∀ i, (hi : i < l.length) → k + i < N * N → val l[i] = .ok (f (k + i))) →
    fill N val l k g = .ok fun a =>
      if a.1 < N ∧ a.2 < N ∧ k ≤ a.1 * N + a.2 ∧ a.1 * N + a.2 < k + l.length then f (a.1 * N + a.2) else g a := by
  intro l
  induction l with
  | nil =>
    intro k g _ _
    rw [fill]
    congr 1
    funext a
    rw [if_neg]
    rintro ⟨-, -, h1, h2⟩
    rw [List.length_nil] at h2
    omega
  | cons x l ih =>
    intro k g hk hf
    have h0 : val x = .ok (f k) := hf 0 (by simp) (by simpa using hk)
    rw [fill, h0]
    simp only
    by_cases hend : k + 1 ≥ N * N
    · rw [if_pos hend]
      congr 1
      funext a
      simp only [cell_pos hk, List.length_cons]
      by_cases hg : a.1 < N ∧ a.2 < N
      · have h1 := pos_lt hg.1 hg.2
        by_cases ha : a.1 * N + a.2 = k
        · rw [if_pos ⟨hg.1, hg.2, ha⟩, if_pos ⟨hg.1, hg.2, by omega, by omega⟩, ha]
        · rw [if_neg fun h => ha h.2.2, if_neg fun h => ha (by omega)]
      · rw [if_neg fun h => hg ⟨h.1, h.2.1⟩, if_neg fun h => hg ⟨h.1, h.2.1⟩]
    · rw [if_neg hend, ih (k + 1) _ (by omega) (by
        intro i hi h1
        have := hf (i + 1) (by simpa using hi) (by omega)
        rw [List.getElem_cons_succ] at this
        rw [this]; congr 2; omega)]
      congr 1
      funext a
      simp only [cell_pos hk, List.length_cons]
      by_cases hg : a.1 < N ∧ a.2 < N
      · by_cases ha : a.1 * N + a.2 = k
        · rw [if_neg fun h => by omega, if_pos ⟨hg.1, hg.2, ha⟩, if_pos ⟨hg.1, hg.2, by omega, by omega⟩, ha]
        · rw [if_neg fun (h : a.1 < N ∧ a.2 < N ∧ a.1 * N + a.2 = k) => ha h.2.2]
          congr 1
          apply propext
          constructor <;> rintro ⟨h1, h2, h3, h4⟩ <;> exact ⟨h1, h2, by omega, by omega⟩
      · rw [if_neg fun h => hg ⟨h.1, h.2.1⟩, if_neg fun h => hg ⟨h.1, h.2.1⟩, if_neg fun h => hg ⟨h.1, h.2.1⟩]

/-- The loop fails if one of the items it looks at is bad. -/
theorem fill_error {α β : Type} {N : Nat} {val : α → Except PyErr β} {e : PyErr} (hval : ∀ x e', val x = .error e' → e' = e) :
    ∀ (l : List α) (k : Nat) (g : Cell → β), (∃ i, ∃ hi : i < l.length, k + i < N * N ∧ val l[i] = .error e) →
      fill N val l k g = .error e := by
  intro l
  induction l with
  | nil => rintro k g ⟨i, hi, -⟩; simp at hi
  | cons x l ih =>
    rintro k g ⟨i, hi, h1, h2⟩
    rw [fill]
    cases hv : val x with
    | error e' => rw [hval x e' hv]
    | ok v =>
      cases i with
      | zero => rw [List.getElem_cons_zero] at h2; rw [h2] at hv; cases hv
      | succ i =>
        simp only
        rw [if_neg (by omega), ih (k + 1) _ ⟨i, by simpa using hi, by omega, by simpa using h2⟩]

theorem fill_error_eq {α β : Type} {N : Nat} {val : α → Except PyErr β} {e : PyErr} :
    ∀ (l : List α) (k : Nat) (g : Cell → β), fill N val l k g = .error e → ∃ x ∈ l, val x = .error e := by
  intro l
  induction l with
  | nil => intro k g h; cases h
  | cons x l ih =>
    intro k g h
    rw [fill] at h
    cases hv : val x with
    | error e' => rw [hv] at h; cases h; exact ⟨x, by simp, hv⟩
    | ok v =>
      rw [hv] at h
      simp only at h
      split at h
      · cases h
      · obtain ⟨y, hy, h⟩ := ih _ _ h
        exact ⟨y, List.mem_cons_of_mem _ hy, h⟩

theorem itemNumber_error {p : Args} {x : List Char} {e : PyErr} (h : itemNumber p x = .error e) : e = .ValueError := by
  unfold itemNumber at h
  split at h
  · cases h
  · exact Py.int_error h

theorem split_error {s sep : List Char} {e : PyErr} (h : Py.split s sep = .error e) : e = .ValueError := by
  unfold Py.split at h
  split at h
  · cases h; rfl
  · cases h

theorem pieceCandidates_error {p : Args} {x : List Char} {e : PyErr} (h : pieceCandidates p x = .error e) : e = .ValueError := by
  unfold pieceCandidates at h
  split at h
  · split at h
    · rename_i heq; cases h; exact split_error heq
    · exact Py.ints_error h
  · exact Py.ints_error h

end Codec

namespace Codec

/-! ## The box size -/

theorem firstDivisor_eq {length : Nat} (h2 : 2 ≤ length) : ∀ (fuel i : Nat), 2 ≤ i → length < fuel + i → i ≤ length.minFac →
    firstDivisor length fuel i = length.minFac := by
  intro fuel
  induction fuel with
  | zero => intro i _ h1 h3; exact absurd (Nat.minFac_le (n := length) (by omega)) (by omega)
  | succ fuel ih =>
    intro i hi h1 h3
    rw [firstDivisor]
    by_cases hd : length % i = 0
    · rw [if_pos hd]
      exact le_antisymm h3 (Nat.minFac_le_of_dvd hi (Nat.dvd_of_mod_eq_zero hd))
    · rw [if_neg hd]
      refine ih (i + 1) (by omega) (by omega) ?_
      rcases Nat.lt_or_ge i length.minFac with h | h
      · exact h
      · have : i = length.minFac := le_antisymm h3 h
        exact absurd (Nat.mod_eq_zero_of_dvd (this ▸ Nat.minFac_dvd length)) hd

theorem guessBox_square (m : Nat) : guessBox (m * m * (m * m)) = .ok (m, m) := by
  unfold guessBox
  rw [Nat.sqrt_eq, if_pos rfl]
  simp only
  rw [Nat.sqrt_eq, if_pos rfl]

theorem guessBox_none {k : Nat} (h : ∀ m, k ≠ m * m) : guessBox k = .error .ValueError := by
  unfold guessBox
  rw [if_neg fun h1 => h _ h1.symm]

theorem guessBox_rect {m : Nat} (h : ∀ j, m ≠ j * j) :
    guessBox (m * m) = if m.Prime then .error .ValueError else .ok (m.minFac, m / m.minFac) := by
  have h2 : 2 ≤ m := by
    rcases Nat.lt_or_ge m 2 with h1 | h1
    · exact absurd (show m = m * m by interval_cases m <;> rfl) (h m)
    · exact h1
  unfold guessBox
  rw [Nat.sqrt_eq, if_pos rfl]
  simp only
  rw [if_neg fun h1 => h _ h1.symm, firstDivisor_eq h2 m 2 (le_refl _) (by omega) (Nat.minFac_prime (by omega)).two_le]
  by_cases hp : m.Prime
  · rw [if_pos hp.minFac_eq, if_pos hp]
  · rw [if_neg hp, if_neg]
    intro h1
    exact hp (h1 ▸ Nat.minFac_prime (by omega))

theorem guessBox_error {k : Nat} {e : PyErr} (h : guessBox k = .error e) : e = .ValueError := by
  unfold guessBox at h
  simp only at h
  split at h
  · split at h
    · cases h
    · split at h <;> cases h; rfl
  · cases h; rfl

theorem items_chars {p : Args} (h : p.numberSep = []) (l : List Char) : items p l = .ok (l.map fun c => [c]) := by
  unfold items; rw [if_neg (not_not.2 h)]

theorem items_split {p : Args} (h : p.numberSep ≠ []) (l : List Char) : items p l = Py.split l p.numberSep := by
  unfold items; rw [if_pos h]

/-- Reading numbers: the result. -/
theorem readNumbers_ok (p : Args) {w h : Nat} (hN : 0 < w * h) (l : List (List Char)) (f : Nat → Int)
    (hf : ∀ i, (hi : i < l.length) → i < (w * h) * (w * h) → itemNumber p l[i] = .ok (f i)) :
    readNumbers p l 0 0 (Sudoku.new w h) = .ok { Sudoku.new w h with
      num := fun a => if a.1 < w * h ∧ a.2 < w * h ∧ a.1 * (w * h) + a.2 < l.length then f (a.1 * (w * h) + a.2) else 0 } := by
  have h1 := readNumbers_fill p (N := w * h) l 0 (Sudoku.new w h) rfl (Nat.mul_pos hN hN)
  rw [Nat.zero_div, Nat.zero_mod] at h1
  rw [h1, fill_ok f l 0 _ (Nat.mul_pos hN hN) (by
    intro i hi h2
    rw [Nat.zero_add] at h2 ⊢
    exact hf i hi h2)]
  simp only [Except.map, Nat.zero_add, Nat.zero_le, true_and]
  rfl

theorem readNumbers_error (p : Args) {w h : Nat} (hN : 0 < w * h) (l : List (List Char))
    (hl : ∃ i, ∃ hi : i < l.length, i < (w * h) * (w * h) ∧ itemNumber p l[i] = .error .ValueError) :
    readNumbers p l 0 0 (Sudoku.new w h) = .error .ValueError := by
  have h1 := readNumbers_fill p (N := w * h) l 0 (Sudoku.new w h) rfl (Nat.mul_pos hN hN)
  rw [Nat.zero_div, Nat.zero_mod] at h1
  obtain ⟨i, hi, h2, h3⟩ := hl
  rw [h1, fill_error (val := itemNumber p) (fun x e' he => itemNumber_error he) l 0 _ ⟨i, hi, by omega, h3⟩]
  rfl

theorem readCandidates_ok (p : Args) {s : Sudoku} (hN : 0 < s.n) (l : List (List Char)) (f : Nat → List Int)
    (hf : ∀ i, (hi : i < l.length) → i < s.n * s.n → pieceCandidates p l[i] = .ok (f i)) :
    readCandidates p l 0 0 s = .ok { s with
      cand := fun a => if a.1 < s.n ∧ a.2 < s.n ∧ a.1 * s.n + a.2 < l.length then (f (a.1 * s.n + a.2)).toFinset else s.cand a } := by
  have h1 := readCandidates_fill p (N := s.n) l 0 s rfl (Nat.mul_pos hN hN)
  rw [Nat.zero_div, Nat.zero_mod] at h1
  rw [h1, fill_ok (fun i => (f i).toFinset) l 0 _ (Nat.mul_pos hN hN) (by
    intro i hi h2
    rw [Nat.zero_add] at h2 ⊢
    rw [hf i hi h2]; rfl)]
  simp only [Except.map, Nat.zero_add, Nat.zero_le, true_and]

theorem readNumbers_size {p : Args} : ∀ (l : List (List Char)) (row col : Nat) (s t : Sudoku), readNumbers p l row col s = .ok t →
    t.bw = s.bw ∧ t.bh = s.bh := by
  intro l
  induction l with
  | nil => intro row col s t h; cases h; exact ⟨rfl, rfl⟩
  | cons x l ih =>
    intro row col s t h
    rw [readNumbers] at h
    split at h
    · cases h
    · split at h
      · rename_i v _ _
        simp only at h
        by_cases hc : col + 1 ≥ (s.setNumber (row, col) v).n
        · rw [if_pos hc, if_pos hc] at h
          split at h
          · cases h; exact ⟨rfl, rfl⟩
          · have := ih _ _ _ _ h; exact this
        · rw [if_neg hc, if_neg hc] at h
          split at h
          · cases h; exact ⟨rfl, rfl⟩
          · have := ih _ _ _ _ h; exact this
      · cases h

/-- The exceptions of `decode`. -/
theorem decode_error {p : Args} {s : List Char} {e : PyErr} (h : decode p s = .error e) :
    e = .ValueError ∨ e = .IndexError ∧ ∃ fields candidates w h, parts p (removeSpace p (Py.strip s)) = .ok (fields, candidates) ∧
      boxFor p fields = .ok (w, h) ∧ w * h = 0 := by
  unfold decode at h
  split at h
  · rename_i heq
    cases h
    unfold parts at heq
    split at heq
    · split at heq <;> cases heq; exact Or.inl rfl
    · cases heq
  · rename_i fields candidates hparts
    split at h
    · rename_i heq
      cases h
      unfold boxFor at heq
      split at heq
      · cases heq
      · split at heq
        · rename_i heq'; cases heq
          unfold items at heq'
          split at heq'
          · exact Or.inl (split_error heq')
          · cases heq'
        · exact Or.inl (guessBox_error heq)
    · rename_i w hh hbox
      by_cases hN : w * hh = 0
      · by_cases he : e = .ValueError
        · exact Or.inl he
        · refine Or.inr ⟨?_, fields, candidates, w, hh, hparts, hbox, hN⟩
          have hnil : ∀ (s : Sudoku), s.n = 0 → ∀ l row col e, readNumbers p l row col s = .error e → e = .ValueError ∨ e = .IndexError := by
            intro s hs l row col e he
            cases l with
            | nil => cases he
            | cons x l =>
              rw [readNumbers] at he
              split at he
              · rename_i heq; cases he; exact Or.inl (itemNumber_error heq)
              · rw [if_neg (by omega)] at he; cases he; exact Or.inr rfl
          split at h
          · rename_i heq; cases h
            unfold items at heq
            split at heq
            · exact absurd (split_error heq) he
            · cases heq
          · split at h
            · rename_i heq; cases h
              exact (hnil (Sudoku.new w hh) hN _ _ _ _ heq).resolve_left he
            · rename_i t heq
              have hsz := readNumbers_size _ _ _ _ _ heq
              have hn : t.n = 0 := by
                have h1 : t.bw = w := hsz.1
                have h2 : t.bh = hh := hsz.2
                show t.bw * t.bh = 0
                rw [h1, h2]; exact hN
              unfold decodeCandidates at h
              split at h
              · cases h
              · split at h
                · rename_i heq'; cases h; exact absurd (split_error heq') he
                · rename_i l _
                  cases l with
                  | nil => cases h
                  | cons x l =>
                    rw [readCandidates] at h
                    split at h
                    · rename_i heq; cases h; exact absurd (pieceCandidates_error heq) he
                    · rw [if_neg (by omega)] at h; cases h; rfl
      · left
        have hpos := Nat.pos_of_ne_zero hN
        split at h
        · rename_i heq; cases h
          unfold items at heq
          split at heq
          · exact split_error heq
          · cases heq
        · rename_i l _
          split at h
          · rename_i heq; cases h
            have h1 := readNumbers_fill p (N := w * hh) l 0 (Sudoku.new w hh) rfl (Nat.mul_pos hpos hpos)
            rw [Nat.zero_div, Nat.zero_mod] at h1
            rw [h1] at heq
            cases hf : fill (w * hh) (itemNumber p) l 0 (Sudoku.new w hh).num with
            | ok g => rw [hf] at heq; cases heq
            | error e' =>
              rw [hf] at heq; cases heq
              obtain ⟨x, -, hx⟩ := fill_error_eq _ _ _ hf
              exact itemNumber_error hx
          · rename_i t heq
            have hsz := readNumbers_size _ _ _ _ _ heq
            have hn : t.n = w * hh := by
              have h1 : t.bw = w := hsz.1
              have h2 : t.bh = hh := hsz.2
              show t.bw * t.bh = _
              rw [h1, h2]
            unfold decodeCandidates at h
            split at h
            · cases h
            · split at h
              · rename_i heq'; cases h; exact split_error heq'
              · rename_i l' _
                have h1 := readCandidates_fill p (N := w * hh) l' 0 t hn (Nat.mul_pos hpos hpos)
                rw [Nat.zero_div, Nat.zero_mod] at h1
                rw [h1] at h
                cases hf : fill (w * hh) (fun c => (pieceCandidates p c).map List.toFinset) l' 0 t.cand with
                | ok g => rw [hf] at h; cases h
                | error e' =>
                  rw [hf] at h; cases h
                  obtain ⟨x, -, hx⟩ := fill_error_eq _ _ _ hf
                  cases hpc : pieceCandidates p x with
                  | error e'' => rw [hpc] at hx; cases hx; exact pieceCandidates_error hpc
                  | ok v => rw [hpc] at hx; cases hx

end Codec
