import Verif.Model.DecodeArgs
import Verif.Proofs.Codec

set_option autoImplicit false

/-! # `decode` with box sizes of any kind -/

open Spec

namespace DecodeArgs

/-- The contents of a sudoku in an instance with other box sizes. -/
def within (m : NewArgs.Made) (s : Sudoku) : Raw := ⟨m, s.num, s.cand⟩

/-- Instances that are read alike. -/
structure Fits (m : NewArgs.Made) (N : Nat) : Prop where
  size : m.size = N
  limit : (m.width * m.height).toNat = N

theorem numbers_sim (p : Codec.Args) (b : Option (Nat × Nat)) {m : NewArgs.Made} (l : List (List Char)) : ∀ (row col : Nat) (s : Sudoku), Fits m s.n →
    readNumbers p l row col (within m s) = (Codec.readNumbers { p with boxSize := b } l row col s).map (within m) := by
  induction l with
  | nil => intro row col s _; rfl
  | cons item l ih =>
    intro row col s hm
    unfold readNumbers Codec.readNumbers
    rw [show Codec.itemNumber { p with boxSize := b } item = Codec.itemNumber p item from rfl]
    cases Codec.itemNumber p item with
    | error e => rfl
    | ok v =>
      have hn : (s.setNumber (row, col) v).n = s.n := rfl
      have hl : ∀ k : Nat, ((k : Int) ≥ m.width * m.height ↔ k ≥ s.n) := by
        intro k
        have := hm.limit
        omega
      have h1 : (within m s).made.size = s.n := hm.size
      have h2 : (⟨m, fun a => if a = (row, col) then v else s.num a, s.cand⟩ : Raw) = within m (s.setNumber (row, col) v) := rfl
      simp only [h1, hn]
      by_cases hin : row < s.n ∧ col < s.n
      · rw [if_pos hin, if_pos hin]
        have h3 : ∀ k : Nat, ((k : Int) ≥ Raw.limit (within m (s.setNumber (row, col) v)) ↔ k ≥ s.n) := hl
        have h4 : ({ within m s with num := fun a => if a = (row, col) then v else (within m s).num a } : Raw) = within m (s.setNumber (row, col) v) := rfl
        simp only [h4, h3]
        split <;> split <;> first
          | rfl
          | exact ih _ _ (s.setNumber (row, col) v) hm
      · rw [if_neg hin, if_neg hin]
        rfl

theorem candidates_sim (p : Codec.Args) (b : Option (Nat × Nat)) {m : NewArgs.Made} (l : List (List Char)) : ∀ (row col : Nat) (s : Sudoku), Fits m s.n →
    readCandidates p l row col (within m s) = (Codec.readCandidates { p with boxSize := b } l row col s).map (within m) := by
  induction l with
  | nil => intro row col s _; rfl
  | cons item l ih =>
    intro row col s hm
    unfold readCandidates Codec.readCandidates
    rw [show Codec.pieceCandidates { p with boxSize := b } item = Codec.pieceCandidates p item from rfl]
    cases Codec.pieceCandidates p item with
    | error e => rfl
    | ok v =>
      have hn : (s.setCandidates (row, col) v.toFinset).n = s.n := rfl
      have h1 : (within m s).made.size = s.n := hm.size
      simp only [h1, hn]
      by_cases hin : row < s.n ∧ col < s.n
      · rw [if_pos hin, if_pos hin]
        have h3 : ∀ k : Nat, k ≠ 0 → (((k : Int) = Raw.limit (within m (s.setCandidates (row, col) v.toFinset))) ↔ k = s.n) := by
          intro k hk
          have := hm.limit
          show (k : Int) = m.width * m.height ↔ _
          omega
        have h4 : ({ within m s with cand := fun a => if a = (row, col) then v.toFinset else (within m s).cand a } : Raw) = within m (s.setCandidates (row, col) v.toFinset) := rfl
        have h5 := h3 (col + 1) (Nat.succ_ne_zero _)
        simp only [h4, h5]
        have h6 : ((((if col + 1 = s.n then row + 1 else row : Nat) : Int) = Raw.limit (within m (s.setCandidates (row, col) v.toFinset))) ↔
            (if col + 1 = s.n then row + 1 else row) = s.n) := by
          have := hm.limit
          show (((if col + 1 = s.n then row + 1 else row : Nat) : Int)) = m.width * m.height ↔ _
          omega
        simp only [h6]
        split <;> split <;> first
          | rfl
          | exact ih _ _ (s.setCandidates (row, col) v.toFinset) hm
      · rw [if_neg hin, if_neg hin]
        rfl

theorem numbers_n {p : Codec.Args} {l : List (List Char)} {row col : Nat} {s t : Sudoku} (h : Codec.readNumbers p l row col s = .ok t) : t.n = s.n := by
  have h1 := Codec.readNumbers_size l row col s t h
  unfold Sudoku.n
  rw [h1.1, h1.2]

theorem rest_sim (p : Codec.Args) (b : Option (Nat × Nat)) {m : NewArgs.Made} {w h : Nat} (hm : Fits m (w * h)) (fields candidates : List Char) :
    (match Codec.items p fields with
      | .error e => .error e
      | .ok l => match readNumbers p l 0 0 (fresh m) with
        | .error e => .error e
        | .ok s => decodeCandidates p candidates s) =
    Except.map (within m) (match Codec.items { p with boxSize := b } fields with
      | .error e => .error e
      | .ok l => match Codec.readNumbers { p with boxSize := b } l 0 0 (Sudoku.new w h) with
        | .error e => .error e
        | .ok s => Codec.decodeCandidates { p with boxSize := b } candidates s) := by
  rw [show Codec.items { p with boxSize := b } fields = Codec.items p fields from rfl]
  cases Codec.items p fields with
  | error e => rfl
  | ok l =>
    simp only
    have h1 := numbers_sim p b l 0 0 (Sudoku.new w h) hm
    rw [show fresh m = within m (Sudoku.new w h) from rfl, h1]
    cases h2 : Codec.readNumbers { p with boxSize := b } l 0 0 (Sudoku.new w h) with
    | error e => rfl
    | ok t =>
      have hn : Fits m t.n := by rw [numbers_n h2]; exact hm
      simp only [Except.map]
      unfold decodeCandidates Codec.decodeCandidates
      simp only
      split
      · rfl
      · cases Py.split candidates p.candidateSep with
        | error e => rfl
        | ok l' => exact candidates_sim p b l' 0 0 t hn

theorem decode_sim (p : Codec.Args) {m : NewArgs.Made} {w h : Nat} (hm : Fits m (w * h)) (box : NewArgs.Box) (s : List Char)
    (hb : ∀ fields, instanceFor p fields box = .ok m) :
    decode p box s = (Codec.decode { p with boxSize := some (w, h) } s).map (within m) := by
  unfold decode Codec.decode
  have e1 : Codec.parts { p with boxSize := some (w, h) } (Codec.removeSpace { p with boxSize := some (w, h) } (Py.strip s)) =
    Codec.parts p (Codec.removeSpace p (Py.strip s)) := rfl
  rw [e1]
  cases Codec.parts p (Codec.removeSpace p (Py.strip s)) with
  | error e => rfl
  | ok q =>
    obtain ⟨fields, candidates⟩ := q
    simp only [hb]
    exact rest_sim p (some (w, h)) hm fields candidates

/-- No product of box sizes, but fields: the first number and the first piece only, as for a single field. -/
theorem numbers_single (p : Codec.Args) (b : Option (Nat × Nat)) {m : NewArgs.Made} (h0 : m.width * m.height = 0) (hs : 0 < m.size) (l : List (List Char))
    (s : Sudoku) (h1 : s.n = 1) :
    readNumbers p l 0 0 (within m s) = (Codec.readNumbers { p with boxSize := b } l 0 0 s).map (within m) := by
  cases l with
  | nil => rfl
  | cons item l =>
    unfold readNumbers Codec.readNumbers
    rw [show Codec.itemNumber { p with boxSize := b } item = Codec.itemNumber p item from rfl]
    cases Codec.itemNumber p item with
    | error e => rfl
    | ok v =>
      have hn : (s.setNumber (0, 0) v).n = 1 := h1
      have h2 : (within m s).made.size = m.size := rfl
      have h4 : ({ within m s with num := fun a => if a = (0, 0) then v else (within m s).num a } : Raw) = within m (s.setNumber (0, 0) v) := rfl
      have h5 : (within m (s.setNumber (0, 0) v)).limit = 0 := h0
      simp only [h2, hn, h1, h4, h5]
      simp [hs, Except.map]

theorem candidates_single (p : Codec.Args) (b : Option (Nat × Nat)) {m : NewArgs.Made} (h0 : m.width * m.height = 0) (hs : 0 < m.size) (l : List (List Char))
    (s : Sudoku) (h1 : s.n = 1) :
    readCandidates p l 0 0 (within m s) = (Codec.readCandidates { p with boxSize := b } l 0 0 s).map (within m) := by
  cases l with
  | nil => rfl
  | cons item l =>
    unfold readCandidates Codec.readCandidates
    rw [show Codec.pieceCandidates { p with boxSize := b } item = Codec.pieceCandidates p item from rfl]
    cases Codec.pieceCandidates p item with
    | error e => rfl
    | ok v =>
      have hn : (s.setCandidates (0, 0) v.toFinset).n = 1 := h1
      have h2 : (within m s).made.size = m.size := rfl
      have h4 : ({ within m s with cand := fun a => if a = (0, 0) then v.toFinset else (within m s).cand a } : Raw) = within m (s.setCandidates (0, 0) v.toFinset) := rfl
      have h5 : (within m (s.setCandidates (0, 0) v.toFinset)).limit = 0 := h0
      simp only [h2, hn, h1, h4, h5]
      simp [hs, Except.map]

theorem decode_single (p : Codec.Args) {m : NewArgs.Made} (h0 : m.width * m.height = 0) (hs : 0 < m.size) (box : NewArgs.Box) (s : List Char)
    (hb : ∀ fields, instanceFor p fields box = .ok m) :
    decode p box s = (Codec.decode { p with boxSize := some (1, 1) } s).map (within m) := by
  unfold decode Codec.decode
  have e1 : Codec.parts { p with boxSize := some (1, 1) } (Codec.removeSpace { p with boxSize := some (1, 1) } (Py.strip s)) =
    Codec.parts p (Codec.removeSpace p (Py.strip s)) := rfl
  rw [e1]
  cases Codec.parts p (Codec.removeSpace p (Py.strip s)) with
  | error e => rfl
  | ok q =>
    obtain ⟨fields, candidates⟩ := q
    simp only [hb, Codec.boxFor]
    rw [show Codec.items { p with boxSize := some (1, 1) } fields = Codec.items p fields from rfl]
    cases Codec.items p fields with
    | error e => rfl
    | ok l =>
      simp only
      rw [show fresh m = within m (Sudoku.new 1 1) from rfl, numbers_single p (some (1, 1)) h0 hs l (Sudoku.new 1 1) rfl]
      cases h2 : Codec.readNumbers { p with boxSize := some (1, 1) } l 0 0 (Sudoku.new 1 1) with
      | error e => rfl
      | ok t =>
        have hn : t.n = 1 := numbers_n h2
        simp only [Except.map]
        unfold decodeCandidates Codec.decodeCandidates
        simp only
        split
        · rfl
        · cases Py.split candidates p.candidateSep with
          | error e => rfl
          | ok l' => exact candidates_single p (some (1, 1)) h0 hs l' t hn

/-- A failing instance. -/
theorem decode_failing (p : Codec.Args) (box : NewArgs.Box) (s : List Char) (e : PyErr) (hb : ∀ fields, instanceFor p fields box = .error e) :
    decode p box s = .error (if p.sudokuSep = [] then .ValueError else e) := by
  unfold decode Codec.parts
  by_cases h0 : p.sudokuSep = []
  · rw [if_pos h0, h0]
    have hc : ∀ t : List Char, ∃ ab, Py.cut [] t = some ab := by
      intro t
      cases t with
      | nil => exact ⟨_, rfl⟩
      | cons c t => exact ⟨_, by simp only [Py.cut]; rfl⟩
    obtain ⟨ab, h1⟩ := hc (Codec.removeSpace p (Py.strip s))
    rw [h1]
    rfl
  · rw [if_neg h0]
    cases Py.cut p.sudokuSep (Codec.removeSpace p (Py.strip s)) with
    | none => simp only [hb]
    | some ab => simp only [if_neg h0, hb]

theorem candidates_size {p : Codec.Args} : ∀ (l : List (List Char)) (row col : Nat) (s t : Sudoku), Codec.readCandidates p l row col s = .ok t →
    t.bw = s.bw ∧ t.bh = s.bh := by
  intro l
  induction l with
  | nil => intro row col s t h; cases h; exact ⟨rfl, rfl⟩
  | cons x l ih =>
    intro row col s t h
    rw [Codec.readCandidates] at h
    split at h
    · cases h
    · split at h
      · simp only at h
        split at h
        · split at h
          · cases h; exact ⟨rfl, rfl⟩
          · have := ih _ _ _ _ h; exact this
        · split at h
          · cases h; exact ⟨rfl, rfl⟩
          · have := ih _ _ _ _ h; exact this
      · cases h

/-- The sizes of the result. -/
theorem rest_size {p : Codec.Args} {w h : Nat} {fields candidates : List Char} {t : Sudoku}
    (ht : (match Codec.items p fields with
      | .error e => .error e
      | .ok l => match Codec.readNumbers p l 0 0 (Sudoku.new w h) with
        | .error e => .error e
        | .ok s => Codec.decodeCandidates p candidates s : Except PyErr Sudoku) = .ok t) : t.bw = w ∧ t.bh = h := by
  split at ht
  · cases ht
  · split at ht
    · cases ht
    · rename_i s hs
      have h1 := Codec.readNumbers_size _ _ _ _ _ hs
      unfold Codec.decodeCandidates at ht
      split at ht
      · cases ht; exact h1
      · split at ht
        · cases ht
        · have h2 := candidates_size _ _ _ _ _ ht
          exact ⟨h2.1.trans h1.1, h2.2.trans h1.2⟩

theorem within_of {w h : Nat} {t : Sudoku} (ht : t.bw = w ∧ t.bh = h) : within ⟨w, h, w * h⟩ t = ofSudoku t := by
  obtain ⟨rfl, rfl⟩ := ht
  rfl

theorem map_congr {r : Except PyErr Sudoku} {f g : Sudoku → Raw} (h : ∀ t, r = .ok t → f t = g t) : r.map f = r.map g := by
  cases r with
  | error e => rfl
  | ok t => exact congrArg Except.ok (h t rfl)

theorem new_pair (w h : Nat) : NewArgs.new (.arg (.value (.ints .tuple [(w : Int), h]))) = .ok ⟨w, h, w * h⟩ := by
  have e : ((w : Int) * (h : Int)).toNat = w * h := by rw [← Int.natCast_mul, Int.toNat_natCast]
  simp only [NewArgs.new, NewArgs.body, NewArgs.elements, List.map, NewArgs.subscript, GenerateArgs.item, NewArgs.rangeLength]
  simp [e]

/-- The default. -/
theorem decode_none (p : Codec.Args) (s : List Char) :
    decode p (.arg (.value .none)) s = (Codec.decode { p with boxSize := none } s).map ofSudoku := by
  unfold decode Codec.decode
  have e1 : Codec.parts { p with boxSize := none } (Codec.removeSpace { p with boxSize := none } (Py.strip s)) =
    Codec.parts p (Codec.removeSpace p (Py.strip s)) := rfl
  rw [e1]
  cases Codec.parts p (Codec.removeSpace p (Py.strip s)) with
  | error e => rfl
  | ok q =>
    obtain ⟨fields, candidates⟩ := q
    simp only [instanceFor]
    cases Codec.boxFor { p with boxSize := none } fields with
    | error e => rfl
    | ok b =>
      obtain ⟨w, h⟩ := b
      simp only [new_pair, ErrorText.forget]
      have hm : Fits ⟨w, h, w * h⟩ (w * h) := ⟨rfl, by simp only [← Int.natCast_mul, Int.toNat_natCast]⟩
      exact (rest_sim p none hm fields candidates).trans (map_congr fun t ht => within_of (rest_size ht))

/-- The sizes of a result with given sizes. -/
theorem decode_given {p : Codec.Args} {w h : Nat} {s : List Char} {t : Sudoku} (ht : Codec.decode { p with boxSize := some (w, h) } s = .ok t) :
    t.bw = w ∧ t.bh = h := by
  unfold Codec.decode at ht
  split at ht
  · cases ht
  · simp only [Codec.boxFor] at ht
    exact rest_size ht

/-- Nothing is stored outside the grid. -/
def Outside (s t : Sudoku) : Prop := ∀ a : Cell, ¬ (a.1 < s.n ∧ a.2 < s.n) → t.num a = s.num a ∧ t.cand a = s.cand a

theorem numbers_outside {p : Codec.Args} : ∀ (l : List (List Char)) (row col : Nat) (s t : Sudoku), Codec.readNumbers p l row col s = .ok t → Outside s t := by
  intro l
  induction l with
  | nil => intro row col s t h; cases h; exact fun a _ => ⟨rfl, rfl⟩
  | cons x l ih =>
    intro row col s t h
    rw [Codec.readNumbers] at h
    split at h
    · cases h
    · split at h
      · rename_i v _ hin
        have one : Outside s (s.setNumber (row, col) v) := by
          intro a ha
          refine ⟨?_, rfl⟩
          have : a ≠ (row, col) := by rintro rfl; exact ha hin
          simp [Sudoku.setNumber, this]
        have step : ∀ r c, Codec.readNumbers p l r c (s.setNumber (row, col) v) = .ok t → Outside s t := by
          intro r c h a ha
          have h1 := ih _ _ _ _ h a ha
          have h2 := one a ha
          exact ⟨h1.1.trans h2.1, h1.2.trans h2.2⟩
        simp only at h
        split at h
        · split at h
          · cases h; exact one
          · exact step _ _ h
        · split at h
          · cases h; exact one
          · exact step _ _ h
      · cases h

theorem candidates_outside {p : Codec.Args} : ∀ (l : List (List Char)) (row col : Nat) (s t : Sudoku), Codec.readCandidates p l row col s = .ok t →
    Outside s t := by
  intro l
  induction l with
  | nil => intro row col s t h; cases h; exact fun a _ => ⟨rfl, rfl⟩
  | cons x l ih =>
    intro row col s t h
    rw [Codec.readCandidates] at h
    split at h
    · cases h
    · split at h
      · rename_i v _ hin
        have one : Outside s (s.setCandidates (row, col) v.toFinset) := by
          intro a ha
          refine ⟨rfl, ?_⟩
          have : a ≠ (row, col) := by rintro rfl; exact ha hin
          simp [Sudoku.setCandidates, this]
        have step : ∀ r c, Codec.readCandidates p l r c (s.setCandidates (row, col) v.toFinset) = .ok t → Outside s t := by
          intro r c h a ha
          have h1 := ih _ _ _ _ h a ha
          have h2 := one a ha
          exact ⟨h1.1.trans h2.1, h1.2.trans h2.2⟩
        simp only at h
        split at h
        · split at h
          · cases h; exact one
          · exact step _ _ h
        · split at h
          · cases h; exact one
          · exact step _ _ h
      · cases h

theorem decode_outside {p : Codec.Args} {w h : Nat} {s : List Char} {t : Sudoku} (ht : Codec.decode { p with boxSize := some (w, h) } s = .ok t)
    (a : Cell) (ha : ¬ (a.1 < w * h ∧ a.2 < w * h)) : t.num a = 0 ∧ t.cand a = ∅ := by
  unfold Codec.decode at ht
  split at ht
  · cases ht
  · simp only [Codec.boxFor] at ht
    split at ht
    · cases ht
    · split at ht
      · cases ht
      · rename_i u hu
        have h1 := numbers_outside _ _ _ _ _ hu a ha
        unfold Codec.decodeCandidates at ht
        split at ht
        · cases ht; exact h1
        · split at ht
          · cases ht
          · have h2 := candidates_outside _ _ _ _ _ ht a (by rw [numbers_n hu]; exact ha)
            exact ⟨h2.1.trans h1.1, h2.2.trans h1.2⟩

end DecodeArgs
