import Verif.Proofs.Codec

set_option autoImplicit false

/-! # Lemmas about `view` -/

open Spec

namespace Codec

/-! ## Widths -/

theorem le_foldl_max (l : List Nat) (k : Nat) : k ≤ l.foldl max k ∧ ∀ x ∈ l, x ≤ l.foldl max k := by
  induction l generalizing k with
  | nil => simp
  | cons y l ih =>
    obtain ⟨h1, h2⟩ := ih (max k y)
    rw [List.foldl_cons]
    refine ⟨le_trans (le_max_left _ _) h1, ?_⟩
    intro x hx
    rcases List.mem_cons.1 hx with rfl | hx
    · exact le_trans (le_max_right _ _) h1
    · exact h2 x hx

theorem foldl_max_mem (l : List Nat) (k : Nat) : l.foldl max k = k ∨ l.foldl max k ∈ l := by
  induction l generalizing k with
  | nil => simp
  | cons y l ih =>
    rw [List.foldl_cons]
    rcases ih (max k y) with h | h
    · rcases Nat.le_total k y with h1 | h1
      · rw [h, Nat.max_eq_right h1]; exact Or.inr (by simp)
      · rw [h, Nat.max_eq_left h1]; exact Or.inl rfl
    · exact Or.inr (List.mem_cons_of_mem _ h)

theorem intStr_pos (n : Int) : 0 < (Py.intStr n).length :=
  List.length_pos_iff.2 (Py.intStr_ne_nil n)

theorem mem_numbers {s : Sudoku} {v : Int} : v ∈ s.numbers ↔ 1 ≤ v ∧ v ≤ s.n := by
  unfold Sudoku.numbers
  simp only [List.mem_map, List.mem_range]
  constructor
  · rintro ⟨i, hi, rfl⟩; omega
  · rintro ⟨h1, h2⟩; exact ⟨(v - 1).toNat, by omega, by omega⟩

theorem maxLength_ge {s : Sudoku} {v : Int} (h : 1 ≤ v ∧ v ≤ s.n) : (Py.intStr v).length ≤ maxLength s :=
  (le_foldl_max _ 0).2 _ (List.mem_map.2 ⟨v, mem_numbers.2 h, rfl⟩)

theorem maxLength_mem {s : Sudoku} (hN : 0 < s.n) : ∃ v : Int, (1 ≤ v ∧ v ≤ s.n) ∧ maxLength s = (Py.intStr v).length := by
  unfold maxLength maximum
  rcases foldl_max_mem (s.numbers.map fun n => (Py.intStr n).length) 0 with h | h
  · have h1 := (le_foldl_max (s.numbers.map fun n => (Py.intStr n).length) 0).2 _
      (List.mem_map.2 ⟨1, mem_numbers.2 ⟨le_refl _, by omega⟩, rfl⟩)
    have h2 := intStr_pos 1
    omega
  · obtain ⟨v, hv, h1⟩ := List.mem_map.1 h
    exact ⟨v, mem_numbers.1 hv, h1.symm⟩

/-- The text for the candidates of a field. -/
def candText (s : Sudoku) (prefix_ : List Char) (a : Cell) : List Char :=
  prefix_ ++ Py.join (viewSep s) ((Solvers.sortSet (s.getCandidates a)).map Py.intStr)

theorem fieldLength_eq (s : Sudoku) (prefix_ : List Char) :
    fieldLength s true prefix_ = (s.cells.map fun a => (candText s prefix_ a).length).foldl max (maxLength s) := by
  unfold fieldLength
  rw [if_pos rfl, List.foldl_map]
  congr 1
  funext m a
  simp only [candText, List.length_append]
  rw [Nat.add_comm]
  by_cases h : prefix_.length + (Py.join (viewSep s) ((Solvers.sortSet (s.getCandidates a)).map Py.intStr)).length > m
  · rw [if_pos h, Nat.max_eq_right (by omega)]
  · rw [if_neg h, Nat.max_eq_left (by omega)]

theorem fieldLength_ge (s : Sudoku) (b : Bool) (prefix_ : List Char) : maxLength s ≤ fieldLength s b prefix_ := by
  cases b with
  | false => exact le_refl _
  | true => rw [fieldLength_eq]; exact (le_foldl_max _ _).1

theorem fieldLength_cand {s : Sudoku} (prefix_ : List Char) {a : Cell} (ha : InGrid s.bw s.bh a) :
    (candText s prefix_ a).length ≤ fieldLength s true prefix_ := by
  rw [fieldLength_eq]
  exact (le_foldl_max _ _).2 _ (List.mem_map.2 ⟨a, (Sudoku.mem_cells s).2 ha, rfl⟩)

theorem fieldLength_mem (s : Sudoku) (b : Bool) (prefix_ : List Char) :
    fieldLength s b prefix_ = maxLength s ∨
      b = true ∧ ∃ a, InGrid s.bw s.bh a ∧ fieldLength s b prefix_ = (candText s prefix_ a).length := by
  cases b with
  | false => exact Or.inl rfl
  | true =>
    rw [fieldLength_eq]
    rcases foldl_max_mem (s.cells.map fun a => (candText s prefix_ a).length) (maxLength s) with h | h
    · exact Or.inl h
    · obtain ⟨a, ha, h1⟩ := List.mem_map.1 h
      exact Or.inr ⟨rfl, a, (Sudoku.mem_cells s).1 ha, h1.symm⟩

/-- The text of a field before padding. -/
def plainText (s : Sudoku) (b : Bool) (prefix_ : List Char) (a : Cell) : List Char :=
  if s.get a ≠ 0 then Py.intStr (s.get a) else if b = true then candText s prefix_ a else []

theorem fieldText_eq (s : Sudoku) (b : Bool) (prefix_ : List Char) (r : Bool) (m : Nat) (a : Cell) :
    fieldText s b prefix_ r m a = if r = true then Py.rjust m (plainText s b prefix_ a) else Py.ljust m (plainText s b prefix_ a) := by
  unfold fieldText plainText candText
  cases b <;> rfl

theorem plainText_le {s : Sudoku} {b : Bool} {prefix_ : List Char} {a : Cell} (ha : InGrid s.bw s.bh a)
    (hv : 0 ≤ s.get a ∧ s.get a ≤ s.n) : (plainText s b prefix_ a).length ≤ fieldLength s b prefix_ := by
  unfold plainText
  split
  · exact le_trans (maxLength_ge ⟨by omega, hv.2⟩) (fieldLength_ge s b prefix_)
  · split
    · rename_i h; subst h; exact fieldLength_cand prefix_ ha
    · simp

theorem fieldText_length {s : Sudoku} {b : Bool} {prefix_ : List Char} {r : Bool} {a : Cell} (ha : InGrid s.bw s.bh a)
    (hv : 0 ≤ s.get a ∧ s.get a ≤ s.n) :
    (fieldText s b prefix_ r (fieldLength s b prefix_) a).length = fieldLength s b prefix_ := by
  have := plainText_le (b := b) (prefix_ := prefix_) ha hv
  rw [fieldText_eq]
  split
  · unfold Py.rjust; rw [List.length_append, List.length_replicate]; omega
  · unfold Py.ljust; rw [List.length_append, List.length_replicate]; omega

/-! ## Sequences of pieces, with an extra piece after each full group -/

theorem foldl_pieces {α : Type} (f : Nat → List α) (l : List Nat) (acc : List α) :
    l.foldl (fun t i => t ++ f i) acc = acc ++ l.flatMap f := by
  induction l generalizing acc with
  | nil => simp
  | cons i l ih => rw [List.foldl_cons, ih, List.flatMap_cons, List.append_assoc]

theorem join_concat (sep : List Char) (l : List (List Char)) (x : List Char) :
    Py.join sep (l ++ [x]) = l.flatMap (fun y => y ++ sep) ++ x := by
  induction l with
  | nil => rfl
  | cons y l ih => rw [List.cons_append, Py.join_cons _ _ (by simp), ih, List.flatMap_cons]; simp only [List.append_assoc]

theorem join_sep (sep : List Char) {l : List (List Char)} (h : l ≠ []) : Py.join sep l ++ sep = l.flatMap fun y => y ++ sep := by
  obtain ⟨l', x, rfl⟩ : ∃ l' x, l = l' ++ [x] := ⟨l.dropLast, l.getLast h, (List.dropLast_append_getLast h).symm⟩
  rw [join_concat, List.flatMap_append, List.append_assoc]
  simp

/-- The lengths of the first `c` groups: each piece has length `k`, and `e` is added after every `w`-th. -/
theorem length_groups {α : Type} {N w k e : Nat} (f : Nat → List α)
    (hf : ∀ c < N, (f c).length = k + if (c + 1) % w = 0 ∧ c + 1 < N then e else 0) :
    ∀ c, c < N → ((List.range c).flatMap f).length = c * k + e * (c / w) := by
  intro c
  induction c with
  | zero => intro _; simp
  | succ c ih =>
    intro hc
    rw [List.range_succ, List.flatMap_append, List.length_append, ih (by omega), List.flatMap_cons, List.flatMap_nil,
      List.append_nil, hf c (by omega), Nat.succ_mul]
    have hd : (c + 1) / w = c / w + if w ∣ c + 1 then 1 else 0 := Nat.succ_div
    by_cases hw : (c + 1) % w = 0
    · rw [if_pos ⟨hw, hc⟩]
      rw [if_pos (Nat.dvd_of_mod_eq_zero hw)] at hd
      rw [hd, Nat.mul_add, Nat.mul_one]; omega
    · rw [if_neg fun h => hw h.1]
      rw [if_neg fun h => hw (Nat.mod_eq_zero_of_dvd h)] at hd
      have hd' : (c + 1) / w = c / w := hd
      clear hd
      rw [hd']; omega

theorem range_split {c N : Nat} (h : c < N) : ∃ l, List.range N = List.range c ++ c :: l := by
  obtain ⟨k, rfl⟩ : ∃ k, N = c + (k + 1) := ⟨N - c - 1, by omega⟩
  refine ⟨(List.range k).map fun i => c + (i + 1), ?_⟩
  rw [List.range_add, List.range_succ_eq_map, List.map_cons, List.map_map]
  rfl

theorem flatMap_split {α : Type} {c N : Nat} (h : c < N) (f : Nat → List α) :
    ∃ rest, (List.range N).flatMap f = (List.range c).flatMap f ++ (f c ++ rest) := by
  obtain ⟨l, hl⟩ := range_split h
  exact ⟨l.flatMap f, by rw [hl, List.flatMap_append, List.flatMap_cons]⟩

theorem length_groups_all {α : Type} {w h k e : Nat} (hN : 0 < w * h) (f : Nat → List α)
    (hf : ∀ c < w * h, (f c).length = k + if (c + 1) % w = 0 ∧ c + 1 < w * h then e else 0) :
    ((List.range (w * h)).flatMap f).length = w * h * k + e * (h - 1) := by
  obtain ⟨c, hc⟩ : ∃ c, w * h = c + 1 := ⟨w * h - 1, by omega⟩
  have hw : 0 < w := Nat.pos_of_mul_pos_right hN
  have hh : 0 < h := Nat.pos_of_mul_pos_left hN
  rw [hc, List.range_succ, List.flatMap_append, List.length_append, length_groups f hf c (by omega), List.flatMap_cons,
    List.flatMap_nil, List.append_nil, hf c (by omega), if_neg (by omega), Nat.succ_mul]
  have hd : c / w = h - 1 := by
    have h1 : c = w * (h - 1) + (w - 1) := by
      obtain ⟨j, rfl⟩ : ∃ j, h = j + 1 := ⟨h - 1, by omega⟩
      rw [Nat.mul_succ] at hc
      rw [Nat.add_sub_cancel]; omega
    rw [h1, Nat.mul_add_div hw, Nat.div_eq_of_lt (by omega), Nat.add_zero]
  rw [hd]; omega

/-! ## Lines -/

/-- The pieces for column `col`. -/
def colPieces (s : Sudoku) (b : Bool) (prefix_ : List Char) (r : Bool) (m row col : Nat) : List (List Char) :=
  fieldText s b prefix_ r m (row, col) :: if (col + 1) % s.bw = 0 ∧ col + 1 < s.n then [['|']] else []

theorem linePieces_eq (s : Sudoku) (b : Bool) (prefix_ : List Char) (r : Bool) (m row : Nat) :
    linePieces s b prefix_ r m row = s.indices.flatMap (colPieces s b prefix_ r m row) := by
  unfold linePieces
  have h : (fun (l : List (List Char)) col =>
      if (col + 1) % s.bw = 0 ∧ col + 1 < s.n then l ++ [fieldText s b prefix_ r m (row, col)] ++ [['|']]
      else l ++ [fieldText s b prefix_ r m (row, col)]) = fun l col => l ++ colPieces s b prefix_ r m row col := by
    funext l col
    unfold colPieces
    split <;> simp
  have := foldl_pieces (colPieces s b prefix_ r m row) s.indices []
  rw [List.nil_append] at this
  rw [← this, ← h]

/-- The line of a row. -/
def line (s : Sudoku) (b : Bool) (prefix_ : List Char) (r : Bool) (m row : Nat) : List Char :=
  Py.join [' '] (linePieces s b prefix_ r m row)

/-- The characters of column `col`, with the blank after them. -/
def colChars (s : Sudoku) (b : Bool) (prefix_ : List Char) (r : Bool) (m row col : Nat) : List Char :=
  fieldText s b prefix_ r m (row, col) ++ ' ' :: if (col + 1) % s.bw = 0 ∧ col + 1 < s.n then ['|', ' '] else []

theorem line_blank {s : Sudoku} (hN : 0 < s.n) (b : Bool) (prefix_ : List Char) (r : Bool) (m row : Nat) :
    line s b prefix_ r m row ++ [' '] = (List.range s.n).flatMap (colChars s b prefix_ r m row) := by
  unfold line
  have hne : linePieces s b prefix_ r m row ≠ [] := by
    rw [linePieces_eq]
    obtain ⟨k, hk⟩ : ∃ k, s.n = k + 1 := ⟨s.n - 1, by omega⟩
    unfold Sudoku.indices
    rw [hk, List.range_succ_eq_map, List.flatMap_cons]
    simp [colPieces]
  rw [join_sep _ hne, linePieces_eq, List.flatMap_assoc]
  refine List.flatMap_congr fun col _ => ?_
  unfold colPieces colChars
  split <;> simp

/-! ## The rule -/

/-- The rule without the line break. -/
def ruleLine (s : Sudoku) (m : Nat) : List Char :=
  let dash := s.bw + s.bw * m
  List.replicate dash '-' ++ '+' :: ((List.range (s.bh - 2)).flatMap fun _ => List.replicate (dash + 1) '-' ++ ['+']) ++
    List.replicate dash '-'

theorem rule_eq (s : Sudoku) (m : Nat) : rule s m = ruleLine s m ++ ['\n'] := by
  unfold rule ruleLine
  simp only
  rw [foldl_pieces (fun _ => List.replicate (s.bw + s.bw * m + 1) '-' ++ ['+'])]
  simp only [List.append_assoc, List.cons_append, List.nil_append]

theorem blocks {α : Type} (block : List α) (hb : block ≠ []) (n : Nat) : ∀ j, j < n * block.length →
    ((List.range n).flatMap fun _ => block)[j]? = block[j % block.length]? := by
  have hpos := List.length_pos_iff.2 hb
  have hlen : ∀ n, ((List.range n).flatMap fun _ => block).length = n * block.length := by
    intro n
    induction n with
    | zero => simp
    | succ n ih => rw [List.range_succ, List.flatMap_append, List.length_append, ih, Nat.succ_mul]; simp
  induction n with
  | zero => intro j hj; omega
  | succ n ih =>
    intro j hj
    rw [List.range_succ, List.flatMap_append]
    by_cases h : j < n * block.length
    · rw [List.getElem?_append_left (by rw [hlen]; exact h), ih j h]
    · rw [List.getElem?_append_right (by rw [hlen]; omega), hlen, List.flatMap_cons, List.flatMap_nil, List.append_nil]
      congr 1
      rw [Nat.succ_mul] at hj
      obtain ⟨i, rfl⟩ : ∃ i, j = n * block.length + i := ⟨j - n * block.length, by omega⟩
      rw [Nat.add_sub_cancel_left, Nat.mul_comm, Nat.mul_add_mod, Nat.mod_eq_of_lt (by omega)]

theorem ruleLine_shift (s : Sudoku) (m : Nat) (hh : 2 ≤ s.bh) :
    '-' :: ruleLine s m = ((List.range (s.bh - 1)).flatMap fun _ => List.replicate (s.bw + s.bw * m + 1) '-' ++ ['+']) ++
      List.replicate (s.bw + s.bw * m) '-' := by
  obtain ⟨k, hk⟩ : ∃ k, s.bh = k + 2 := ⟨s.bh - 2, by omega⟩
  unfold ruleLine
  simp only
  rw [hk, show k + 2 - 1 = k + 1 from rfl, show k + 2 - 2 = k from rfl, List.range_succ_eq_map, List.flatMap_cons,
    List.flatMap_map, List.replicate_succ]
  simp only [List.append_assoc, List.cons_append, List.nil_append]

theorem ruleLine_length (s : Sudoku) (m : Nat) (hh : 2 ≤ s.bh) : (ruleLine s m).length = s.n * (m + 1) + 2 * s.bh - 3 := by
  have h := congrArg List.length (ruleLine_shift s m hh)
  have hlen : ∀ n, ((List.range n).flatMap fun _ => List.replicate (s.bw + s.bw * m + 1) '-' ++ ['+']).length =
      n * (s.bw + s.bw * m + 2) := by
    intro n
    induction n with
    | zero => simp
    | succ n ih => rw [List.range_succ, List.flatMap_append, List.length_append, ih, Nat.succ_mul]; simp
  rw [List.length_cons, List.length_append, hlen, List.length_replicate] at h
  obtain ⟨k, hk⟩ : ∃ k, s.bh = k + 2 := ⟨s.bh - 2, by omega⟩
  have hn : s.n * (m + 1) = (k + 2) * (s.bw + s.bw * m) := by
    unfold Sudoku.n
    rw [hk, Nat.mul_comm s.bw, Nat.mul_assoc, Nat.mul_add s.bw, Nat.mul_one, Nat.add_comm (s.bw * m)]
  rw [hn, hk]
  rw [hk, show k + 2 - 1 = k + 1 from rfl, Nat.mul_add] at h
  have h1 : (k + 2) * (s.bw + s.bw * m) = (k + 1) * (s.bw + s.bw * m) + (s.bw + s.bw * m) := Nat.succ_mul _ _
  omega

open Classical in
theorem ruleLine_get (s : Sudoku) (m : Nat) (hh : 2 ≤ s.bh) (i : Nat) (hi : i < (ruleLine s m).length) :
    (ruleLine s m)[i]? = some (if ∃ k, k + 1 < s.bh ∧ i = (k + 1) * (s.bw * (m + 1)) + 2 * k then '+' else '-') := by
  have hs : (ruleLine s m)[i]? = ('-' :: ruleLine s m)[i + 1]? := rfl
  have hdash : s.bw * (m + 1) = s.bw + s.bw * m := by rw [Nat.mul_add, Nat.mul_one, Nat.add_comm]
  have hblen : (List.replicate (s.bw + s.bw * m + 1) '-' ++ ['+']).length = s.bw + s.bw * m + 2 := by simp
  have hl := congrArg List.length (ruleLine_shift s m hh)
  have hlen : ∀ n, ((List.range n).flatMap fun _ => List.replicate (s.bw + s.bw * m + 1) '-' ++ ['+']).length =
      n * (s.bw + s.bw * m + 2) := by
    intro n
    induction n with
    | zero => simp
    | succ n ih => rw [List.range_succ, List.flatMap_append, List.length_append, ih, Nat.succ_mul]; simp
  rw [List.length_cons, List.length_append, hlen, List.length_replicate] at hl
  rw [hs, ruleLine_shift s m hh, hdash]
  generalize s.bw + s.bw * m = d at *
  have hpos : ∀ k, (k + 1) * d + 2 * k + 1 = k * (d + 2) + (d + 1) := by
    intro k; rw [Nat.succ_mul, Nat.mul_add, Nat.mul_comm k 2]; omega
  by_cases h : i + 1 < (s.bh - 1) * (d + 2)
  · rw [List.getElem?_append_left (by rw [hlen]; exact h), blocks _ (by simp) _ _ (by rw [hblen]; exact h), hblen]
    have hm := Nat.mod_lt (i + 1) (show 0 < d + 2 by omega)
    have hdm := Nat.div_add_mod (i + 1) (d + 2)
    by_cases he : (i + 1) % (d + 2) = d + 1
    · rw [List.getElem?_append_right (by simp; omega), if_pos]
      · simp [he]
      · refine ⟨(i + 1) / (d + 2), ?_, ?_⟩
        · have := (Nat.div_lt_iff_lt_mul (show 0 < d + 2 by omega)).2 h
          omega
        · have := hpos ((i + 1) / (d + 2))
          rw [Nat.mul_comm (d + 2)] at hdm
          omega
    · rw [List.getElem?_append_left (by simp; omega), List.getElem?_replicate, if_pos (by omega), if_neg]
      rintro ⟨k, hk, rfl⟩
      rw [hpos, Nat.mul_comm, Nat.mul_add_mod, Nat.mod_eq_of_lt (by omega)] at he
      exact he rfl
  · rw [List.getElem?_append_right (by rw [hlen]; omega), hlen, List.getElem?_replicate, if_pos (by omega), if_neg]
    rintro ⟨k, hk, rfl⟩
    rw [hpos] at h
    apply h
    have : (k + 1) * (d + 2) ≤ (s.bh - 1) * (d + 2) := Nat.mul_le_mul_right _ (by omega)
    rw [Nat.succ_mul] at this
    omega

/-! ## All lines -/

/-- The lines for a row. -/
def rowLines (s : Sudoku) (b : Bool) (prefix_ : List Char) (r : Bool) (m row : Nat) : List (List Char) :=
  line s b prefix_ r m row :: if (row + 1) % s.bh = 0 ∧ row + 1 < s.n then [ruleLine s m] else []

/-- All lines. -/
def viewLines (s : Sudoku) (b : Bool) (prefix_ : List Char) (r : Bool) : List (List Char) :=
  (List.range s.n).flatMap (rowLines s b prefix_ r (fieldLength s b prefix_))

theorem view_eq {s : Sudoku} (hN : 0 < s.n) (b : Bool) (prefix_ : List Char) (r : Bool) :
    view s b prefix_ r = .ok (Py.join ['\n'] (viewLines s b prefix_ r)) := by
  unfold view
  rw [if_neg (by omega)]
  simp only
  congr 1
  unfold viewLines
  generalize fieldLength s b prefix_ = m
  have h : (fun (text : List Char) row =>
      if (row + 1) % s.bh = 0 ∧ row + 1 < s.n then
        (if row + 1 < s.n then text ++ Py.join [' '] (linePieces s b prefix_ r m row) ++ ['\n']
          else text ++ Py.join [' '] (linePieces s b prefix_ r m row)) ++ rule s m
      else if row + 1 < s.n then text ++ Py.join [' '] (linePieces s b prefix_ r m row) ++ ['\n']
        else text ++ Py.join [' '] (linePieces s b prefix_ r m row)) =
      fun text row => text ++ if row + 1 < s.n then (rowLines s b prefix_ r m row).flatMap (fun l => l ++ ['\n'])
        else line s b prefix_ r m row := by
    funext text row
    unfold rowLines line
    by_cases h1 : row + 1 < s.n
    · by_cases h2 : (row + 1) % s.bh = 0
      · simp [h1, h2, rule_eq]
      · simp [h1, h2]
    · simp [h1]
  rw [h, foldl_pieces, List.nil_append]
  obtain ⟨k, hk⟩ : ∃ k, s.n = k + 1 := ⟨s.n - 1, by omega⟩
  have hlast : rowLines s b prefix_ r m k = [line s b prefix_ r m k] := by
    unfold rowLines; rw [if_neg (by omega)]
  unfold Sudoku.indices
  rw [hk, List.range_succ, List.flatMap_append, List.flatMap_append, List.flatMap_cons, List.flatMap_nil, List.append_nil,
    List.flatMap_cons, List.flatMap_nil, List.append_nil, hlast, join_concat, if_neg (by omega), List.flatMap_assoc]
  congr 1
  refine List.flatMap_congr fun row hrow => ?_
  rw [if_pos (by have := List.mem_range.1 hrow; omega)]

end Codec
