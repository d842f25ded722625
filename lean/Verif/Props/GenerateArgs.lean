import Verif.Model.GenerateArgs
import Verif.Props.ShellErrors

set_option autoImplicit false

/-!
# C123: What `generate` and `generate_from_template` do with arguments of any kind
-/

open Spec

namespace Props

open Shell ErrorText

/-- An integer, or a boolean (`True` is 1, `False` is 0). -/
inductive IsNumber : Arg Val → Int → Prop
  | int (k : Int) : IsNumber (.value (.int k)) k
  | false : IsNumber (.value (.bool false)) 0
  | true : IsNumber (.value (.bool true)) 1

/-- `None` or the name of a symmetry. -/
inductive IsSymmetry : Arg Val → Option String → Prop
  | none : IsSymmetry (.value .none) none
  | name (t : List Char) (h : some (String.ofList t) ∈ symmetries) : IsSymmetry (.value (.str t)) (some (String.ofList t))

/-- A tuple or list with these integers. -/
inductive IsSequence : Arg Val → List Int → Prop
  | tuple (l : List Int) : IsSequence (.value (.ints .tuple l)) l
  | list (l : List Int) : IsSequence (.value (.ints .list l)) l

/-- A list or a set. -/
inductive Unhashable : Arg Val → Prop
  | list (l : List Int) : Unhashable (.value (.ints .list l))
  | set (l : List Int) : Unhashable (.value (.ints .set l))

/-- The empty string. -/
def emptyText : Arg Val := .value (.str [])

/-- The exceptions of `generate(min_count, symmetry, box_size)`, each with its cause; the causes exclude each other. -/
inductive Refuses (minCount symmetry box : Arg Val) : Exn → Prop
  /-- no items, or the items are no numbers -/
  | box (h1 : ¬ ∃ l, IsSequence box l) (h2 : box ≠ emptyText) : Refuses minCount symmetry box ⟨.TypeError, .builtin⟩
  | shortBox (l : List Int) (h1 : IsSequence box l) (h2 : l.length < 2) : Refuses minCount symmetry box ⟨.IndexError, .builtin⟩
  | emptyBox (h : box = emptyText) : Refuses minCount symmetry box ⟨.IndexError, .builtin⟩
  | minCount (w h : Int) (l : List Int) (h1 : IsSequence box (w :: h :: l)) (h2 : ¬ ∃ m, IsNumber minCount m) :
    Refuses minCount symmetry box ⟨.TypeError, .builtin⟩
  | large (w h : Int) (l : List Int) (h1 : IsSequence box (w :: h :: l)) (m : Int) (h2 : IsNumber minCount m) (h3 : (w * h) ^ 2 < m) :
    Refuses minCount symmetry box ⟨.ValueError, .text ("min_count must be <= ".toList ++ Py.intStr ((w * h) ^ 2) ++ " (".toList ++ Py.intStr m ++
      " was given).".toList)⟩
  | unhashable (w h : Int) (l : List Int) (h1 : IsSequence box (w :: h :: l)) (m : Int) (h2 : IsNumber minCount m) (h3 : m ≤ (w * h) ^ 2)
    (h4 : Unhashable symmetry) : Refuses minCount symmetry box ⟨.TypeError, .builtin⟩
  | unknown (w h : Int) (l : List Int) (h1 : IsSequence box (w :: h :: l)) (m : Int) (h2 : IsNumber minCount m) (h3 : m ≤ (w * h) ^ 2)
    (h4 : ¬ Unhashable symmetry) (h5 : ¬ ∃ sym, IsSymmetry symmetry sym) : Refuses minCount symmetry box
      ⟨.ValueError, .text "symmetry must be one of None, rotate-90, rotate-180, mirror-x, mirror-y, mirror-xy".toList⟩
  | longBox (w h : Int) (l : List Int) (h1 : IsSequence box (w :: h :: l)) (hl : l ≠ []) (m : Int) (h2 : IsNumber minCount m) (h3 : m ≤ (w * h) ^ 2)
    (sym : Option String) (h4 : IsSymmetry symmetry sym) : Refuses minCount symmetry box ⟨.ValueError, .builtin⟩
  | noField (w h : Int) (h1 : IsSequence box [w, h]) (h0 : w ≤ 0 ∨ h ≤ 0) (m : Int) (h2 : IsNumber minCount m) (h3 : m ≤ (w * h) ^ 2)
    (sym : Option String) (h4 : IsSymmetry symmetry sym) : Refuses minCount symmetry box ⟨.IndexError, .builtin⟩

/-- The arguments `generate` accepts. -/
structure Accepts (minCount symmetry box : Arg Val) (m : Int) (sym : Option String) (w h : Nat) : Prop where
  number : IsNumber minCount m
  symmetry : IsSymmetry symmetry sym
  box : IsSequence box [(w : Int), h]
  width : 0 < w
  height : 0 < h
  limit : m ≤ ((w * h) ^ 2 : Nat)

private theorem number_iff (v : Arg Val) (k : Int) : GenerateArgs.number v = .ok k ↔ IsNumber v k := by
  constructor
  · intro h
    unfold GenerateArgs.number at h
    split at h
    · cases h; exact .int _
    · rename_i b
      cases b <;> cases h
      · exact .false
      · exact .true
    · cases h
  · intro h
    cases h <;> rfl

private theorem number_error (v : Arg Val) (h : ¬ ∃ k, IsNumber v k) : GenerateArgs.number v = .error .TypeError := by
  cases hn : GenerateArgs.number v with
  | ok k => exact absurd ⟨k, (number_iff v k).1 hn⟩ h
  | error e =>
    unfold GenerateArgs.number at hn
    split at hn <;> cases hn
    rfl

private theorem symmetry_ok (v : Arg Val) (sym : Option String) (h : IsSymmetry v sym) : GenerateArgs.symmetryKey v = .ok sym ∧ sym ∈ symmetries := by
  cases h with
  | none => exact ⟨rfl, by decide⟩
  | name t ht =>
    refine ⟨?_, ht⟩
    obtain ⟨k, hk⟩ := (lookup_iff _).2 ht
    simp only [GenerateArgs.symmetryKey, hk]

private theorem symmetry_unhashable (v : Arg Val) (h : Unhashable v) : GenerateArgs.symmetryKey v = .error ⟨.TypeError, .builtin⟩ := by
  cases h <;> rfl

private theorem symmetry_unknown (v : Arg Val) (h1 : ¬ Unhashable v) (h2 : ¬ ∃ sym, IsSymmetry v sym) : GenerateArgs.symmetryKey v =
    .error ⟨.ValueError, .text "symmetry must be one of None, rotate-90, rotate-180, mirror-x, mirror-y, mirror-xy".toList⟩ := by
  unfold GenerateArgs.symmetryKey
  split
  · exact absurd (.list _) h1
  · exact absurd (.set _) h1
  · exact absurd ⟨_, .none⟩ h2
  · rename_i t
    split
    · rename_i k hk
      exact absurd ⟨_, .name t ((lookup_iff _).1 ⟨k, hk⟩)⟩ h2
    · rfl
  · rfl

private theorem limit_ok {box : Arg Val} {w h : Int} {l : List Int} (hb : IsSequence box (w :: h :: l)) :
    GenerateArgs.countLimit box = .ok ((w * h) ^ 2) := by
  rw [Int.mul_pow]
  cases hb <;> rfl

private theorem limit_short {box : Arg Val} {l : List Int} (hb : IsSequence box l) (hl : l.length < 2) :
    GenerateArgs.countLimit box = .error .IndexError := by
  match l, hl with
  | [], _ => cases hb <;> rfl
  | [_], _ => cases hb <;> rfl

private theorem limit_bad {box : Arg Val} (h1 : ¬ ∃ l, IsSequence box l) (h2 : box ≠ emptyText) :
    GenerateArgs.countLimit box = .error .TypeError := by
  rcases box with (_ | _ | _ | s | ⟨kind, l⟩) | _ | _
  · rfl
  · rfl
  · rfl
  · cases s with
    | nil => exact absurd rfl h2
    | cons c s => rfl
  · cases kind
    · exact absurd ⟨_, .tuple l⟩ h1
    · exact absurd ⟨_, .list l⟩ h1
    · rfl
  · rfl
  · rfl

private theorem sizes_two {box : Arg Val} {w h : Int} (hb : IsSequence box [w, h]) :
    GenerateArgs.sizes box = if w ≤ 0 ∨ h ≤ 0 then .error .IndexError else .ok (w.toNat, h.toNat) := by
  cases hb <;> (unfold GenerateArgs.sizes; by_cases h1 : h ≤ 0 <;> by_cases h2 : w ≤ 0 <;> simp [h1, h2])

private theorem sizes_long {box : Arg Val} {w h : Int} {l : List Int} (hb : IsSequence box (w :: h :: l)) (hl : l ≠ []) :
    GenerateArgs.sizes box = .error .ValueError := by
  cases l with
  | nil => exact absurd rfl hl
  | cons a l => cases hb <;> rfl

private theorem check_refuses {minCount symmetry box : Arg Val} {e : Exn} (h : Refuses minCount symmetry box e) :
    GenerateArgs.check minCount symmetry box = .error e := by
  unfold GenerateArgs.check
  cases h with
  | box h1 h2 => simp only [limit_bad h1 h2]
  | shortBox l h1 h2 => simp only [limit_short h1 h2]
  | emptyBox h => subst h; rfl
  | minCount w h l h1 h2 => simp only [limit_ok h1, number_error _ h2]
  | large w h l h1 m h2 h3 =>
    simp only [limit_ok h1, (number_iff _ _).2 h2]
    rw [if_pos h3]; rfl
  | unhashable w h l h1 m h2 h3 h4 =>
    simp only [limit_ok h1, (number_iff _ _).2 h2, symmetry_unhashable _ h4]
    rw [if_neg (Int.not_lt.2 h3)]
  | unknown w h l h1 m h2 h3 h4 h5 =>
    simp only [limit_ok h1, (number_iff _ _).2 h2, symmetry_unknown _ h4 h5]
    rw [if_neg (Int.not_lt.2 h3)]
  | longBox w h l h1 hl m h2 h3 sym h4 =>
    simp only [limit_ok h1, (number_iff _ _).2 h2, (symmetry_ok _ _ h4).1, sizes_long h1 hl]
    rw [if_neg (Int.not_lt.2 h3)]
  | noField w h h1 h0 m h2 h3 sym h4 =>
    simp only [limit_ok h1, (number_iff _ _).2 h2, (symmetry_ok _ _ h4).1, sizes_two h1]
    rw [if_neg (Int.not_lt.2 h3)]
    simp only [if_pos h0]

private theorem check_accepts {minCount symmetry box : Arg Val} {m : Int} {sym : Option String} {w h : Nat}
    (ha : Accepts minCount symmetry box m sym w h) : GenerateArgs.check minCount symmetry box = .ok (m, sym, w, h) := by
  unfold GenerateArgs.check
  have h3 : m ≤ ((w : Int) * h) ^ 2 := by have := ha.limit; push_cast at this; exact this
  have h0 : ¬ ((w : Int) ≤ 0 ∨ (h : Int) ≤ 0) := by have := ha.width; have := ha.height; omega
  simp only [limit_ok ha.box, (number_iff _ _).2 ha.number, (symmetry_ok _ _ ha.symmetry).1, sizes_two ha.box]
  rw [if_neg (Int.not_lt.2 h3)]
  simp only [if_neg h0, Int.toNat_natCast]

/-- **C123** Every three arguments are accepted or refused. -/
theorem C123_cases (minCount symmetry box : Arg Val) :
    (∃ m sym w h, Accepts minCount symmetry box m sym w h) ∨ ∃ e, Refuses minCount symmetry box e := by
  by_cases h1 : ∃ l, IsSequence box l
  · obtain ⟨l, hb⟩ := h1
    match l, hb with
    | [], hb => exact .inr ⟨_, .shortBox _ hb (by simp)⟩
    | [_], hb => exact .inr ⟨_, .shortBox _ hb (by simp)⟩
    | w :: h :: l, hb =>
      by_cases h2 : ∃ m, IsNumber minCount m
      · obtain ⟨m, h2⟩ := h2
        by_cases h3 : (w * h) ^ 2 < m
        · exact .inr ⟨_, .large w h l hb m h2 h3⟩
        · have h3 := Int.not_lt.1 h3
          by_cases h4 : Unhashable symmetry
          · exact .inr ⟨_, .unhashable w h l hb m h2 h3 h4⟩
          · by_cases h5 : ∃ sym, IsSymmetry symmetry sym
            · obtain ⟨sym, h5⟩ := h5
              by_cases hl : l = []
              · subst hl
                by_cases h0 : w ≤ 0 ∨ h ≤ 0
                · exact .inr ⟨_, .noField w h hb h0 m h2 h3 sym h5⟩
                · obtain ⟨a, rfl⟩ := Int.eq_ofNat_of_zero_le (a := w) (by omega)
                  obtain ⟨b, rfl⟩ := Int.eq_ofNat_of_zero_le (a := h) (by omega)
                  exact .inl ⟨m, sym, a, b, h2, h5, hb, by omega, by omega, by push_cast; exact h3⟩
              · exact .inr ⟨_, .longBox w h l hb hl m h2 h3 sym h5⟩
            · exact .inr ⟨_, .unknown w h l hb m h2 h3 h4 h5⟩
      · exact .inr ⟨_, .minCount w h l hb h2⟩
  · by_cases h2 : box = emptyText
    · exact .inr ⟨_, .emptyBox h2⟩
    · exact .inr ⟨_, .box h1 h2⟩

variable (env : (w h : Nat) → 0 < w → 0 < h → Generate.Env w h)

private theorem generate_accepts {minCount symmetry box : Arg Val} {m : Int} {sym : Option String} {w h : Nat}
    (ha : Accepts minCount symmetry box m sym w h) :
    GenerateArgs.generate env minCount symmetry box = envGenerate (env w h ha.width ha.height) m sym := by
  unfold GenerateArgs.generate
  simp only [check_accepts ha]
  rw [dif_pos ha.width, dif_pos ha.height]

/-- **C123** Accepted arguments: there is a result; it is that for the numbers and the name (C35 - C38), so with exactly one solution, at least `min_count` clues
and the symmetry. -/
theorem C123_accepts {minCount symmetry box : Arg Val} {m : Int} {sym : Option String} {w h : Nat} (ha : Accepts minCount symmetry box m sym w h) :
    ∃ t, GenerateArgs.generate env minCount symmetry box = .ok (some t) ∧ (env w h ha.width ha.height).generate m sym = .ok (some t) ∧
      Plain w h t ∧ UniqueSolution w h t.get ∧ m ≤ t.count ∧ Symmetric sym (w * h) (fun a => t.get a ≠ 0) := by
  obtain ⟨t, ht⟩ := (C39_value_error (env w h ha.width ha.height) m sym).2 (by
    rintro (h | h)
    · have := ha.limit; omega
    · exact h (symmetry_ok _ _ ha.symmetry).2)
  obtain ⟨k1, sol, -, k2, k3⟩ := C35_unique _ m sym t ht
  exact ⟨t, (generate_accepts env ha).trans (envGenerate_ok ht), ht, k1, ⟨sol.get, k2, k3⟩, C36_min_count _ m sym t ht, C37_symmetry _ m sym t ht⟩

/-- **C123** The other arguments raise exactly these exceptions. -/
theorem C123_refuses (minCount symmetry box : Arg Val) (e : Exn) :
    GenerateArgs.generate env minCount symmetry box = .error e ↔ Refuses minCount symmetry box e := by
  constructor
  · intro h
    rcases C123_cases minCount symmetry box with ⟨m, sym, w, h', ha⟩ | ⟨e', he⟩
    · obtain ⟨t, ht, -⟩ := C123_accepts env ha
      rw [h] at ht; cases ht
    · have h1 : GenerateArgs.generate env minCount symmetry box = .error e' := by
        unfold GenerateArgs.generate; simp only [check_refuses he]
      rw [h] at h1
      cases h1
      exact he
  · intro h
    unfold GenerateArgs.generate; simp only [check_refuses h]

/-- **C123** `generate_from_template` raises `TypeError` exactly if `tries` is neither an integer nor a boolean, before anything else happens; booleans count as
0 and 1. -/
theorem C123_template (fuel rounds : Nat) (f : Nat → Generate.Try) (template : Sudoku) (tries : Arg Val) :
    (∀ k, IsNumber tries k → GenerateArgs.generateFromTemplate fuel rounds f template tries = ErrorText.generateFromTemplate fuel rounds f template k) ∧
    ((¬ ∃ k, IsNumber tries k) → GenerateArgs.generateFromTemplate fuel rounds f template tries = .error ⟨.TypeError, .builtin⟩) := by
  unfold GenerateArgs.generateFromTemplate
  constructor
  · intro k hk
    simp only [(number_iff _ _).2 hk]
  · intro h
    simp only [number_error _ h]

/-! ## In the shell -/

variable {ν ω : Type} {lib : Lib Sudoku ν ω} {val : Val → ν} {π : Solve.SetOrder} {fuel : Nat}

/-- shell.py:533: `generate(min_count, symmetry, box_size)` for arguments of any kind; every time there are some random outcomes. -/
def RealGenerateAny (lib : Lib Sudoku ν ω) (val : Val → ν) : Prop :=
  ∀ args kwargs u a b c, bindCommand .generate args kwargs = .ok [a, b, c] →
    ∃ (env : (w h : Nat) → 0 < w → 0 < h → Generate.Env w h) (u' : ω),
      lib.create .generate (args.map (Arg.map val)) (kwMap val kwargs) u = (u', ofGenerated (GenerateArgs.generate env a b c))

/-- **C123** A library with this `generate` is one the theorems about the shell (C78, C79, C83, C112) speak of. -/
theorem C123_same (hg : RealGenerateAny lib val) (args : List (Arg Val)) (kwargs : List (List Char × Val)) (u : ω) (vs : List (Arg Val)) (m : Int)
    (sym : Option String) (w h : Nat) (hb : bindCommand .generate args kwargs = .ok vs) (ha : generateArgs vs = some (m, sym, w, h)) :
    ∃ (e : Generate.Env w h) (u' : ω), lib.create .generate (args.map (Arg.map val)) (kwMap val kwargs) u =
      (u', ofGenerated (ErrorText.envGenerate e m sym)) := by
  unfold generateArgs at ha
  split at ha
  · rename_i m' symV kind w' h'
    split at ha
    · cases ha
    · rename_i hk
      push Not at hk
      obtain ⟨hk, hw, hh⟩ := hk
      obtain ⟨env, u', he⟩ := hg _ _ u _ _ _ hb
      obtain ⟨a, rfl⟩ := Int.eq_ofNat_of_zero_le (a := w') (by omega)
      obtain ⟨b, rfl⟩ := Int.eq_ofNat_of_zero_le (a := h') (by omega)
      have hbox : IsSequence (.value (.ints kind [(a : Int), b])) [(a : Int), b] := by
        cases kind
        · exact .tuple _
        · exact .list _
        · exact absurd rfl hk
      have key : ∀ sym', symV = symmetryValue sym' →
          GenerateArgs.generate env (.value (.int m')) (.value symV) (.value (.ints kind [(a : Int), b])) =
            envGenerate (env a b (by omega) (by omega)) m' sym' := by
        intro sym' hsym
        have hcast : (((a * b) ^ 2 : Nat) : Int) = ((a : Int) * b) ^ 2 := by push_cast; rfl
        by_cases hm : m' > (((a * b) ^ 2 : Nat) : Int)
        · refine Eq.trans ((C123_refuses env _ _ _ _).2 (.large _ _ _ hbox m' (.int m') (by omega)))
            (Eq.symm ((C110_generate (env a b (by omega) (by omega)) m' sym' _).2 (.inl ⟨hm, ?_⟩)))
          rw [← hcast]; rfl
        · have hm := Int.not_lt.1 hm
          by_cases hs : sym' ∈ symmetries
          · refine generate_accepts env (w := a) (h := b) ⟨.int m', ?_, hbox, by omega, by omega, hm⟩
            subst hsym
            cases sym' with
            | none => exact .none
            | some t =>
              have := IsSymmetry.name t.toList (by rw [String.ofList_toList]; exact hs)
              rw [String.ofList_toList] at this
              exact this
          · refine Eq.trans ((C123_refuses env _ _ _ _).2 (.unknown _ _ _ hbox m' (.int m') (by omega) ?_ ?_))
              (Eq.symm ((C110_generate (env a b (by omega) (by omega)) m' sym' _).2 (.inr ⟨hm, hs, rfl⟩)))
            · subst hsym
              cases sym' <;> (intro h; cases h)
            · rintro ⟨k, hk⟩
              subst hsym
              cases sym' with
              | none => exact hs (by decide)
              | some t =>
                have h1 : some (String.ofList t.toList) ∈ symmetries := by
                  cases hk with
                  | name _ h => exact h
                rw [String.ofList_toList] at h1
                exact hs h1
      split at ha <;> simp only [Option.some.injEq, Prod.mk.injEq, reduceCtorEq] at ha
      · obtain ⟨rfl, rfl, rfl, rfl⟩ := ha
        exact ⟨_, u', he.trans (by rw [key none rfl])⟩
      · rename_i t
        obtain ⟨rfl, rfl, rfl, rfl⟩ := ha
        exact ⟨_, u', he.trans (by rw [key (some (String.ofList t)) (by simp [symmetryValue])])⟩
  · cases ha

/-- **C123** `generate` in the shell: accepted arguments give a new current sudoku. Otherwise the exception is reported, and the current sudoku, the stack and the
output stay. -/
theorem C123_shell (hr : Real lib val π fuel) (hg : RealGenerateAny lib val) (i : Bool) (s : State Sudoku ν ω) (hs : Separate s) (hl : s.loopN = none)
    (items : List Item) (hi : ∀ x ∈ items, x.Ok) (a b c : Arg Val) (hb : LineBinds .generate items [a, b, c]) :
    (∀ m sym w h, Accepts a b c m sym w h → ∃ t, executeLine lib i (itemText "generate" items) s = (t, none) ∧ Plain w h (t.sudoku lib) ∧
      UniqueSolution w h (t.sudoku lib).get ∧ m ≤ (t.sudoku lib).count ∧ Symmetric sym (w * h) (fun a => (t.sudoku lib).get a ≠ 0) ∧
      stackValues lib t = stackValues lib s ∧ t.out = s.out ∧ t.errors = s.errors) ∧
    ∀ e, Refuses a b c e → ∃ u, executeLine lib i (itemText "generate" items) s = error i (.exn e.cls e.why) { s with world := u } := by
  obtain ⟨env, u, he⟩ := hg _ _ s.world a b c (((line_binds _ items).1 _).2 hb)
  constructor
  · intro m sym w h ha
    obtain ⟨x, hx, -, k1, k2, k3, k4⟩ := C123_accepts env ha
    rw [hx] at he
    rw [item_execute hr i "generate" .generate rfl (by simp) items hi s hl]
    obtain ⟨t, h1, h2, h3⟩ := created i .generate (by simp [IsLibrary]) rfl _ _ s hs u x he
    exact ⟨t, h1, h2 ▸ k1, h2 ▸ k2, h2 ▸ k3, h2 ▸ k4, h3⟩
  · intro e hx
    rw [(C123_refuses env a b c e).2 hx] at he
    refine ⟨u, ?_⟩
    have h0 := (item_execute hr i "generate" .generate rfl (by simp) items hi s hl).trans (library lib i ⟨.generate, _, _⟩ (by simp) s)
    simp only [Name.takesSudoku, Bool.false_eq_true, if_false, he] at h0
    exact h0

/-! ## Samples -/

private def anyEnv (w h : Nat) (hw : 0 < w) (hh : 0 < h) : Generate.Env w h := plainEnv w h hw hh

/-- The class of the exception, and whether it has a text of the library. -/
private def outcome (a b c : Val) : Option (PyErr × Bool) := match GenerateArgs.check (.value a) (.value b) (.value c) with
  | .ok _ => none
  | .error e => some (e.cls, e.why != .builtin)

example : [outcome (.int 0) .none (.ints .tuple [2, 1]), outcome (.bool true) (.str "mirror-x".toList) (.ints .list [1, 1]),
      outcome (.int 0) .none .none, outcome (.int 0) .none (.int 3), outcome (.int 0) .none (.str "33".toList), outcome (.int 0) .none (.ints .set [2, 3]),
      outcome (.int 0) .none (.ints .tuple [3]), outcome (.int 0) .none (.str []), outcome .none .none (.ints .tuple [3, 3]),
      outcome (.bool true) .none (.ints .tuple [0, 3]), outcome (.int 0) (.ints .list [1]) (.ints .tuple [3, 3]),
      outcome (.int 0) (.bool true) (.ints .tuple [3, 3]), outcome (.int 0) .none (.ints .tuple [3, 3, 3]),
      outcome (.int 0) .none (.ints .tuple [3, -3])] =
    [none, none, some (.TypeError, false), some (.TypeError, false), some (.TypeError, false), some (.TypeError, false),
     some (.IndexError, false), some (.IndexError, false), some (.TypeError, false), some (.ValueError, true), some (.TypeError, false),
     some (.ValueError, true), some (.ValueError, false), some (.IndexError, false)] := by decide +kernel

example : Accepts (.value (.bool true)) (.value (.str "mirror-x".toList)) (.value (.ints .list [2, 1])) 1 (some "mirror-x") 2 1 :=
  ⟨.true, .name _ (by decide), .list _, by decide, by decide, by decide⟩

example : Refuses (.value (.int 0)) (.value (.ints .list [1])) (.value (.ints .tuple [3, 3])) ⟨.TypeError, .builtin⟩ :=
  .unhashable 3 3 [] (.tuple _) 0 (.int 0) (by decide) (.list _)

private def sortedSets : Solve.SetOrder := fun _ S => Solvers.sortSet S
private def base : Lib Sudoku Val Unit := demoGenerate sortedSets 100
private theorem base_real : Real base id sortedSets 100 := demoGenerate_real sortedSets 100
private def demoAny : Lib Sudoku Val Unit :=
  { base with
    create := fun name args kwargs u => match name, bindCommand .generate args kwargs with
      | .generate, .ok [a, b, c] => (u, ofGenerated (GenerateArgs.generate anyEnv a b c))
      | _, _ => base.create name args kwargs u }

private theorem demoAny_any : RealGenerateAny demoAny id := by
  intro args kwargs u a b c hb
  refine ⟨anyEnv, u, ?_⟩
  rw [(map_id args kwargs).1, (map_id args kwargs).2]
  simp only [demoAny, hb]

private theorem demoAny_real : Real demoAny id sortedSets 100 where
  literal' := (base_real).literal'
  toInt' := (base_real).toInt'
  isNone' := (base_real).isNone'
  isEnd' := (base_real).isEnd'
  str' := (base_real).str'
  fresh := base_real.fresh
  copy := (base_real).copy
  createError n args kwargs u e hn h := by
    rw [← (base_real).createError n args kwargs u e hn h, (map_id args kwargs).1, (map_id args kwargs).2]
    cases n <;> first | rfl | skip
    simp only [demoAny, h]
  create n args kwargs u vs r hn h h' := by
    rw [← (base_real).create n args kwargs u vs r hn h h', (map_id args kwargs).1, (map_id args kwargs).2]
    cases n <;> first | rfl | skip
    cases h'
  callError := (base_real).callError
  call := (base_real).call

/-- What is written to stderr. -/
private def written (l : List String) : List (Option (List Char)) :=
  (seq (executeLine demoAny true) (l.map String.toList) (init demoAny true ())).1.errors.map Err.line

example : written ["generate True box_size=(0,3)", "generate symmetry=3", "generate symmetry=[1]", "generate box_size=3"] =
    [some "Error: min_count must be <= 0 (1 was given).\n".toList,
     some "Error: symmetry must be one of None, rotate-90, rotate-180, mirror-x, mirror-y, mirror-xy\n".toList, none, none] := by decide +kernel

end Props
