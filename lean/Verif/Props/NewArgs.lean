import Verif.Model.NewArgs
import Verif.Props.GenerateArgs

set_option autoImplicit false

/-!
# C125: What `Sudoku` and `create_solution` do with arguments of any kind
-/

open Spec

namespace Props

open Shell ErrorText NewArgs

/-- The arguments of `Sudoku` for which there is a result, with the two box sizes and the number of rows. -/
inductive Builds : Box → Made → Prop
  /-- a tuple or list of two integers of any sign -/
  | sequence (a : Arg Val) (w h : Int) (ha : IsSequence a [w, h]) : Builds (.arg a) ⟨w, h, (w * h).toNat⟩
  /-- a dictionary with the keys 0 and 1: the *keys* become the sizes, the product of the *values* the number of rows -/
  | zeroOne (v v' : Int) : Builds (.dict [(0, v), (1, v')]) ⟨0, 1, (v * v').toNat⟩
  | oneZero (v v' : Int) : Builds (.dict [(1, v'), (0, v)]) ⟨1, 0, (v * v').toNat⟩

/-- The exceptions of `Sudoku(box_size)`, each with its cause; the causes exclude each other. -/
inductive NewFails : Box → Exn → Prop
  | none : NewFails (.arg (.value .none)) ⟨.TypeError, .builtin⟩
  | bool (b : Bool) : NewFails (.arg (.value (.bool b))) ⟨.TypeError, .builtin⟩
  | int (k : Int) : NewFails (.arg (.value (.int k))) ⟨.TypeError, .builtin⟩
  | twoLetters (a b : Char) : NewFails (.arg (.value (.str [a, b]))) ⟨.TypeError, .builtin⟩
  | text (s : List Char) (h : s.length ≠ 2) : NewFails (.arg (.value (.str s))) ⟨.ValueError, .builtin⟩
  /-- a set of exactly two integers -/
  | pair (l : List Int) (h : ∃ a b, a ≠ b ∧ ∀ x, x ∈ l ↔ x = a ∨ x = b) : NewFails (.arg (.value (.ints .set l))) ⟨.TypeError, .builtin⟩
  | set (l : List Int) (h : ¬ ∃ a b, a ≠ b ∧ ∀ x, x ∈ l ↔ x = a ∨ x = b) : NewFails (.arg (.value (.ints .set l))) ⟨.ValueError, .builtin⟩
  | sequence (a : Arg Val) (l : List Int) (ha : IsSequence a l) (h : l.length ≠ 2) : NewFails (.arg a) ⟨.ValueError, .builtin⟩
  | command (s : List Char) : NewFails (.arg (.command s)) ⟨.ValueError, .builtin⟩
  | keyword (s : List Char) : NewFails (.arg (.keyword s)) ⟨.ValueError, .builtin⟩
  | dict (l : List (Int × Int)) (h : l.length ≠ 2) : NewFails (.dict l) ⟨.ValueError, .builtin⟩
  /-- the only case with a message of /repo -/
  | keys (a b v v' : Int) (h1 : ¬ (a = 0 ∧ b = 1)) (h2 : ¬ (a = 1 ∧ b = 0)) : NewFails (.dict [(a, v), (b, v')]) ⟨.ValueError, .text
      ("Invalid sudoku box_size: {".toList ++ Py.intStr a ++ ": ".toList ++ Py.intStr v ++ ", ".toList ++ Py.intStr b ++ ": ".toList ++ Py.intStr v' ++ "}".toList)⟩

private theorem body_seq (a : Arg Val) (l : List Int) (ha : IsSequence a l) :
    body (.arg a) = match l with | [w, h] => .ok ⟨w, h, (w * h).toNat⟩ | _ => .error .ValueError := by
  cases ha <;> rcases l with _ | ⟨w, _ | ⟨h, _ | ⟨x, l⟩⟩⟩ <;>
    simp [body, elements, subscript, GenerateArgs.item, rangeLength]

private theorem dedup_pair (l : List Int) : l.dedup.length = 2 ↔ ∃ a b, a ≠ b ∧ ∀ x, x ∈ l ↔ x = a ∨ x = b := by
  constructor
  · intro h
    obtain ⟨a, b, e⟩ := List.length_eq_two.1 h
    have hn := List.nodup_dedup l
    rw [e] at hn
    refine ⟨a, b, by simpa using hn, fun x => ?_⟩
    rw [← List.mem_dedup, e]
    simp
  · rintro ⟨a, b, hne, h⟩
    have hp : l.dedup.Perm [a, b] := (List.perm_ext_iff_of_nodup (List.nodup_dedup l) (by simpa using hne)).2 fun x => by
      rw [List.mem_dedup, h]; simp
    rw [hp.length_eq]; rfl

private theorem body_set (l : List Int) :
    body (.arg (.value (.ints .set l))) = .error (if l.dedup.length = 2 then .TypeError else .ValueError) := by
  unfold body elements
  simp only
  generalize l.dedup = d
  rcases d with _ | ⟨w, _ | ⟨h, _ | ⟨x, l⟩⟩⟩ <;> simp [subscript, GenerateArgs.item]

private theorem body_str (s : List Char) :
    body (.arg (.value (.str s))) = .error (if s.length = 2 then .TypeError else .ValueError) := by
  rcases s with _ | ⟨w, _ | ⟨h, _ | ⟨x, l⟩⟩⟩ <;> simp [body, elements, subscript, GenerateArgs.item, rangeLength]

private theorem body_dict (l : List (Int × Int)) (h : l.length ≠ 2) : body (.dict l) = .error .ValueError := by
  rcases l with _ | ⟨w, _ | ⟨h', _ | ⟨x, l⟩⟩⟩
  · simp [body, elements]
  · simp [body, elements]
  · simp at h
  · simp [body, elements]

private theorem body_keys (a b v v' : Int) (h1 : ¬ (a = 0 ∧ b = 1)) (h2 : ¬ (a = 1 ∧ b = 0)) : body (.dict [(a, v), (b, v')]) = .error .KeyError := by
  by_cases e : a = 0
  · subst e
    have hb : ¬ (1 : Int) = b := fun e => h1 ⟨rfl, e.symm⟩
    simp [body, elements, subscript, List.lookup, beq_eq_false_iff_ne.2 hb]
  · have ha : ((0 : Int) == a) = false := beq_eq_false_iff_ne.2 fun e' => e e'.symm
    by_cases e' : b = 0
    · subst e'
      have ha' : ((1 : Int) == a) = false := beq_eq_false_iff_ne.2 fun e' => h2 ⟨e'.symm, rfl⟩
      simp [body, elements, subscript, List.lookup, ha, ha']
    · have hb : ((0 : Int) == b) = false := beq_eq_false_iff_ne.2 fun e => e' e.symm
      simp [body, elements, subscript, List.lookup, ha, hb]

private theorem builds_new {x : Box} {m : Made} (h : Builds x m) : NewArgs.new x = .ok m := by
  cases h with
  | sequence a w h ha => unfold NewArgs.new; rw [body_seq a _ ha]
  | zeroOne v v' => simp [NewArgs.new, body, elements, subscript, List.lookup, rangeLength]
  | oneZero v v' => simp [NewArgs.new, body, elements, subscript, List.lookup, rangeLength]

private theorem fails_new {x : Box} {e : Exn} (h : NewFails x e) : NewArgs.new x = .error e := by
  cases h with
  | none => rfl
  | bool => rfl
  | int => rfl
  | twoLetters a b => unfold NewArgs.new; rw [body_str]; rfl
  | text s h => unfold NewArgs.new; rw [body_str, if_neg h]
  | pair l h => unfold NewArgs.new; rw [body_set, if_pos ((dedup_pair l).2 h)]
  | set l h => unfold NewArgs.new; rw [body_set, if_neg (fun e => h ((dedup_pair l).1 e))]
  | sequence a l ha h =>
    unfold NewArgs.new
    rw [body_seq a l ha]
    rcases l with _ | ⟨w, _ | ⟨h', _ | ⟨x, l⟩⟩⟩
    · rfl
    · rfl
    · simp at h
    · rfl
  | command s => rfl
  | keyword s => rfl
  | dict l h => unfold NewArgs.new; rw [body_dict l h]
  | keys a b v v' h1 h2 =>
    unfold NewArgs.new
    rw [body_keys a b v v' h1 h2]
    simp [valueError, shown, Py.join]

/-- **C125** For each argument there is a result or an exception. -/
theorem C125_cases (x : Box) : (∃ m, Builds x m) ∨ ∃ e, NewFails x e := by
  have seq : ∀ (a : Arg Val) (l : List Int), IsSequence a l → (∃ m, Builds (.arg a) m) ∨ ∃ e, NewFails (.arg a) e := by
    intro a l ha
    by_cases h : l.length = 2
    · obtain ⟨w, h', rfl⟩ := List.length_eq_two.1 h
      exact Or.inl ⟨_, .sequence a w h' ha⟩
    · exact Or.inr ⟨_, .sequence a l ha h⟩
  match x with
  | .arg (.value .none) => exact Or.inr ⟨_, .none⟩
  | .arg (.value (.bool b)) => exact Or.inr ⟨_, .bool b⟩
  | .arg (.value (.int k)) => exact Or.inr ⟨_, .int k⟩
  | .arg (.value (.str s)) =>
    by_cases h : s.length = 2
    · obtain ⟨a, b, rfl⟩ := List.length_eq_two.1 h
      exact Or.inr ⟨_, .twoLetters a b⟩
    · exact Or.inr ⟨_, .text s h⟩
  | .arg (.value (.ints .set l)) =>
    by_cases h : ∃ a b, a ≠ b ∧ ∀ x, x ∈ l ↔ x = a ∨ x = b
    · exact Or.inr ⟨_, .pair l h⟩
    · exact Or.inr ⟨_, .set l h⟩
  | .arg (.value (.ints .tuple l)) => exact seq _ l (.tuple l)
  | .arg (.value (.ints .list l)) => exact seq _ l (.list l)
  | .arg (.command s) => exact Or.inr ⟨_, .command s⟩
  | .arg (.keyword s) => exact Or.inr ⟨_, .keyword s⟩
  | .dict l =>
    by_cases h : l.length = 2
    · obtain ⟨⟨a, v⟩, ⟨b, v'⟩, rfl⟩ := List.length_eq_two.1 h
      by_cases h1 : a = 0 ∧ b = 1
      · obtain ⟨rfl, rfl⟩ := h1
        exact Or.inl ⟨_, .zeroOne v v'⟩
      · by_cases h2 : a = 1 ∧ b = 0
        · obtain ⟨rfl, rfl⟩ := h2
          exact Or.inl ⟨_, .oneZero v' v⟩
        · exact Or.inr ⟨_, .keys a b v v' h1 h2⟩
    · exact Or.inr ⟨_, .dict l h⟩

/-- **C125** What `Sudoku(box_size)` returns. -/
theorem C125_builds (x : Box) (m : Made) : NewArgs.new x = .ok m ↔ Builds x m := by
  refine ⟨fun h => ?_, builds_new⟩
  rcases C125_cases x with ⟨m', h'⟩ | ⟨e, h'⟩
  · have := builds_new h'
    rw [h] at this
    cases this
    exact h'
  · have := fails_new h'
    rw [h] at this
    cases this

/-- **C125** What it raises. -/
theorem C125_fails (x : Box) (e : Exn) : NewArgs.new x = .error e ↔ NewFails x e := by
  refine ⟨fun h => ?_, fails_new⟩
  rcases C125_cases x with ⟨m', h'⟩ | ⟨e, h'⟩
  · have := builds_new h'
    rw [h] at this
    cases this
  · have := fails_new h'
    rw [h] at this
    cases this
    exact h'

/-- **C125** The handler with the message "Invalid sudoku box_size" is for dictionaries only. -/
theorem C125_handler (x : Box) (c : PyErr) (t : List Char) (h : NewArgs.new x = .error ⟨c, .text t⟩) :
    c = .ValueError ∧ ∃ a b v v', x = .dict [(a, v), (b, v')] ∧ ¬ (a = 0 ∧ b = 1) ∧ ¬ (a = 1 ∧ b = 0) := by
  generalize he : (⟨c, .text t⟩ : Exn) = e at h
  have h' := (C125_fails x e).1 h
  cases h' <;> simp only [Exn.mk.injEq, reduceCtorEq, and_false] at he
  rename_i a b v v' h1 h2
  exact ⟨he.1, a, b, v, v', rfl, h1, h2⟩

/-- **C125** Two positive sizes: a sequence, and there are as many rows as in a box fields. -/
theorem C125_size (x : Box) (m : Made) (hm : NewArgs.new x = .ok m) (hw : 0 < m.width) (hh : 0 < m.height) :
    (∃ a, x = .arg a ∧ IsSequence a [m.width, m.height]) ∧ (m.size : Int) = m.width * m.height := by
  rw [C125_builds] at hm
  cases hm with
  | sequence a w h ha =>
    have := Int.mul_pos hw hh
    exact ⟨⟨a, rfl, ha⟩, by simp only at this ⊢; omega⟩
  | zeroOne v v' => simp at hw
  | oneZero v v' => simp at hh

/-- **C125** `len()` is the number of fields for two integers whose product is not negative.  For a dictionary `len()` is 0, whatever the number
of fields is. -/
theorem C125_len (x : Box) (m : Made) (hm : NewArgs.new x = .ok m) :
    (∀ a, x = .arg a → (m.len = m.fields ↔ 0 ≤ m.width * m.height)) ∧ (∀ l, x = .dict l → m.len = 0) := by
  rw [C125_builds] at hm
  cases hm with
  | sequence a w h ha =>
    refine ⟨fun a' _ => ?_, fun l hl => by cases hl⟩
    have e : Made.len ⟨w, h, (w * h).toNat⟩ = (w * h) * (w * h) := by
      simp only [Made.len, ← Int.mul_pow]
      rw [Int.pow_succ, Int.pow_succ, Int.pow_zero, Int.one_mul]
    rw [e]
    simp only [Made.fields, Int.natCast_mul]
    constructor
    · intro h1
      by_contra hn
      have h2 : ((w * h).toNat : Int) = 0 := by omega
      rw [h2, Int.mul_zero] at h1
      have := Int.mul_eq_zero.1 h1
      omega
    · intro h1
      rw [Int.toNat_of_nonneg h1]
  | zeroOne v v' => exact ⟨fun a h => by (cases h), fun l _ => by simp [Made.len]⟩
  | oneZero v v' => exact ⟨fun a h => by (cases h), fun l _ => by simp [Made.len]⟩

/-- **C125** `create_solution(box_size)` returns a full grid without conflicts if `box_size` is a tuple or list of two positive integers, whatever the
random outcomes are. -/
theorem C125_create (env : (w h : Nat) → 0 < w → 0 < h → Generate.Env w h) (a : Arg Val) (w h : Nat) (hw : 0 < w) (hh : 0 < h)
    (ha : IsSequence a [(w : Int), h]) :
    ∃ t, NewArgs.createSolution env (.arg a) = .ok t ∧ Plain w h t ∧ IsSolution w h (fun _ => 0) t.get := by
  obtain ⟨t, h1, h2, h3⟩ := Generate.createSolution_spec (env w h hw hh).hπ (env w h hw hh).hc (env w h hw hh).hf
  refine ⟨t, ?_, h2, h3⟩
  have hn := (C125_builds (.arg a) _).2 (.sequence a w h ha)
  unfold NewArgs.createSolution
  rw [hn]
  simp only [Int.toNat_natCast, dif_pos hw, dif_pos hh, h1]
  rfl

/-- **C125** Otherwise it raises an exception: the one of `Sudoku(box_size)`, or `IndexError` if a size is not positive. -/
theorem C125_create_fails (env : (w h : Nat) → 0 < w → 0 < h → Generate.Env w h) (x : Box) (e : Exn) :
    NewArgs.createSolution env x = .error e ↔ NewFails x e ∨ (e = ⟨.IndexError, .builtin⟩ ∧ ∃ m, Builds x m ∧ (m.width ≤ 0 ∨ m.height ≤ 0)) := by
  rcases C125_cases x with ⟨m, hm⟩ | ⟨e', he'⟩
  · have hn := builds_new hm
    have hnf : ¬ NewFails x e := fun h => by have := fails_new h; rw [hn] at this; cases this
    have huniq : ∀ m', Builds x m' → m' = m := fun m' h => by have := builds_new h; rw [hn] at this; cases this; rfl
    by_cases hpos : 0 < m.width ∧ 0 < m.height
    · obtain ⟨⟨a, rfl, ha⟩, -⟩ := C125_size x m hn hpos.1 hpos.2
      obtain ⟨t, h1, -⟩ := C125_create env a m.width.toNat m.height.toNat (by omega) (by omega)
        (by rw [Int.toNat_of_nonneg (by omega), Int.toNat_of_nonneg (by omega)]; exact ha)
      rw [h1]
      constructor
      · intro h; cases h
      · rintro (h | ⟨-, m', h2, h3⟩)
        · exact absurd h hnf
        · rw [huniq m' h2] at h3; omega
    · have : NewArgs.createSolution env x = .error ⟨.IndexError, .builtin⟩ := by
        unfold NewArgs.createSolution
        rw [hn]
        simp only
        by_cases hh : 0 < m.height.toNat
        · rw [dif_pos hh, dif_neg (by omega)]
        · rw [dif_neg hh]
      rw [this]
      constructor
      · intro h; cases h
        exact Or.inr ⟨rfl, m, hm, by omega⟩
      · rintro (h | ⟨rfl, -⟩)
        · exact absurd h hnf
        · rfl
  · have hn := fails_new he'
    have : NewArgs.createSolution env x = .error e' := by unfold NewArgs.createSolution; rw [hn]
    rw [this]
    constructor
    · intro h; cases h; exact Or.inl he'
    · rintro (h | ⟨-, m, hm, -⟩)
      · have := fails_new h
        rw [hn] at this
        cases this
        rfl
      · have := builds_new hm
        rw [hn] at this
        cases this

/-- **C125** The command `new` of the shell is this function (two sizes of which one is negative are left out there). -/
theorem C125_shell (a : Arg Val) :
    (∀ s, newFn a = some (.ok s) → ∃ m, NewArgs.new (.arg a) = .ok m ∧ m.width = s.bw ∧ m.height = s.bh ∧ s = Sudoku.new s.bw s.bh) ∧
    (∀ e, newFn a = some (.error e) → NewArgs.new (.arg a) = .error ⟨e, .builtin⟩) ∧
    (newFn a = none ↔ ∃ w h, IsSequence a [w, h] ∧ (w < 0 ∨ h < 0)) := by
  have err : ∀ e, newFn a = some (.error e) → NewArgs.new (.arg a) = .error ⟨e, .builtin⟩ → (¬ ∃ l, IsSequence a l) →
    (∀ s, newFn a = some (.ok s) → ∃ m, NewArgs.new (.arg a) = .ok m ∧ m.width = s.bw ∧ m.height = s.bh ∧ s = Sudoku.new s.bw s.bh) ∧
    (∀ e, newFn a = some (.error e) → NewArgs.new (.arg a) = .error ⟨e, .builtin⟩) ∧
    (newFn a = none ↔ ∃ w h, IsSequence a [w, h] ∧ (w < 0 ∨ h < 0)) := by
    intro e h1 h2 h3
    rw [h1]
    refine ⟨fun s h => by (cases h), fun e h => by (cases h; exact h2), fun h => by (cases h), ?_⟩
    rintro ⟨w, h, h4, -⟩
    exact absurd ⟨_, h4⟩ h3
  have seq : ∀ l, IsSequence a l → (newFn a = match l with
      | [w, h] => if 0 ≤ w ∧ 0 ≤ h then some (.ok (Sudoku.new w.toNat h.toNat)) else none
      | _ => some (.error .ValueError)) →
    (∀ s, newFn a = some (.ok s) → ∃ m, NewArgs.new (.arg a) = .ok m ∧ m.width = s.bw ∧ m.height = s.bh ∧ s = Sudoku.new s.bw s.bh) ∧
    (∀ e, newFn a = some (.error e) → NewArgs.new (.arg a) = .error ⟨e, .builtin⟩) ∧
    (newFn a = none ↔ ∃ w h, IsSequence a [w, h] ∧ (w < 0 ∨ h < 0)) := by
    intro l ha e
    have huniq : ∀ l', IsSequence a l' → l' = l := by
      intro l' h'
      cases ha <;> cases h' <;> rfl
    by_cases hl : l.length = 2
    · obtain ⟨w, h', rfl⟩ := List.length_eq_two.1 hl
      simp only at e
      by_cases hp : 0 ≤ w ∧ 0 ≤ h'
      · rw [if_pos hp] at e
        rw [e]
        refine ⟨fun s hs => ?_, fun e h => by (cases h), fun h => by (cases h), ?_⟩
        · cases hs
          refine ⟨_, builds_new (.sequence a w h' ha), ?_, ?_, rfl⟩
          · show w = _; rw [show (Sudoku.new w.toNat h'.toNat).bw = w.toNat from rfl]; omega
          · show h' = _; rw [show (Sudoku.new w.toNat h'.toNat).bh = h'.toNat from rfl]; omega
        · rintro ⟨w', h'', h1, h2⟩
          have := huniq _ h1
          simp only [List.cons.injEq, and_true] at this
          omega
      · rw [if_neg hp] at e
        rw [e]
        exact ⟨fun s hs => by (cases hs), fun e h => by (cases h), fun _ => ⟨w, h', ha, by omega⟩, fun _ => rfl⟩
    · have he : newFn a = some (.error .ValueError) := by
        rw [e]
        rcases l with _ | ⟨w, _ | ⟨h', _ | ⟨x, l⟩⟩⟩
        · rfl
        · rfl
        · simp at hl
        · rfl
      rw [he]
      refine ⟨fun s h => by (cases h), fun e h => by (cases h; exact fails_new (.sequence a l ha hl)), fun h => by (cases h), ?_⟩
      rintro ⟨w, h, h4, -⟩
      rw [← huniq _ h4] at hl
      exact absurd rfl hl
  match a with
  | .value .none => exact err _ rfl rfl (by rintro ⟨l, h⟩; cases h)
  | .value (.bool b) => exact err _ rfl rfl (by rintro ⟨l, h⟩; cases h)
  | .value (.int k) => exact err _ rfl rfl (by rintro ⟨l, h⟩; cases h)
  | .value (.str s) =>
    refine err _ rfl ?_ (by rintro ⟨l, h⟩; cases h)
    unfold NewArgs.new
    rw [body_str]
    by_cases h : s.length = 2
    · rw [if_pos h]
    · rw [if_neg h]
  | .value (.ints .set l) =>
    refine err _ rfl ?_ (by rintro ⟨l, h⟩; cases h)
    unfold NewArgs.new
    rw [body_set]
    by_cases h : l.dedup.length = 2
    · rw [if_pos h]
    · rw [if_neg h]
  | .value (.ints .tuple l) => exact seq l (.tuple l) (by rcases l with _ | ⟨w, _ | ⟨h', _ | ⟨x, l⟩⟩⟩ <;> rfl)
  | .value (.ints .list l) => exact seq l (.list l) (by rcases l with _ | ⟨w, _ | ⟨h', _ | ⟨x, l⟩⟩⟩ <;> rfl)
  | .command s => exact err _ rfl rfl (by rintro ⟨l, h⟩; cases h)
  | .keyword s => exact err _ rfl rfl (by rintro ⟨l, h⟩; cases h)

/-! ## Samples -/

/-- Nine rows and 81 fields, but boxes of no width and `len()` 0. -/
example : NewArgs.new (.dict [(0, 3), (1, 3)]) = .ok ⟨0, 1, 9⟩ ∧ (⟨0, 1, 9⟩ : Made).fields = 81 ∧ (⟨0, 1, 9⟩ : Made).len = 0 := by decide +kernel
example : Builds (.dict [(0, 3), (1, 3)]) ⟨0, 1, 9⟩ := .zeroOne 3 3
example : NewArgs.new (.dict [(2, 3), (1, -3)]) = .error ⟨.ValueError, .text "Invalid sudoku box_size: {2: 3, 1: -3}".toList⟩ := by decide +kernel
example : NewArgs.new (.arg (.value (.ints .tuple [-2, -3]))) = .ok ⟨-2, -3, 6⟩ := by decide +kernel
example : NewArgs.new (.arg (.value (.ints .list [2, -3]))) = .ok ⟨2, -3, 0⟩ ∧ (⟨2, -3, 0⟩ : Made).len = 36 := by decide +kernel
example : NewArgs.new (.arg (.value (.ints .set [2, 3]))) = .error ⟨.TypeError, .builtin⟩ ∧
    NewArgs.new (.arg (.value (.ints .set [3, 3]))) = .error ⟨.ValueError, .builtin⟩ ∧
    NewArgs.new (.arg (.value (.str "33".toList))) = .error ⟨.TypeError, .builtin⟩ ∧
    NewArgs.new (.arg (.value (.ints .tuple [3]))) = .error ⟨.ValueError, .builtin⟩ := by decide +kernel
example : IsSequence (.value (.ints .list [2, 3])) [2, 3] := .list _
example : newFn (.value (.ints .set [2, 3])) = some (.error .TypeError) := rfl

end Props
