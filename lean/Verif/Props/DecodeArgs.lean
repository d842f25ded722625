import Verif.Proofs.DecodeArgs
import Verif.Props.NewArgs

set_option autoImplicit false

/-!
# C126: `decode` with `box_size` of any kind

The results are compared with those for natural box sizes (C10, C11, C111): `Codec.decode { p with boxSize := … }`.
-/

open Spec

namespace Props

open Shell ErrorText NewArgs DecodeArgs

/-- What differs between two results: the box sizes and the number of rows, but not the fields. -/
def SameFields (r : Except PyErr Raw) (m : Made) (t : Except PyErr Sudoku) : Prop :=
  (∀ e, r = .error e ↔ t = .error e) ∧ ∀ s, t = .ok s → ∃ x, r = .ok x ∧ x.made = m ∧ x.num = s.num ∧ x.cand = s.cand

private theorem same_within {r : Except PyErr Raw} {m : Made} {t : Except PyErr Sudoku} (h : r = t.map (within m)) : SameFields r m t := by
  subst h
  cases t with
  | error e => exact ⟨fun e' => by simp [Except.map], fun s h => by (cases h)⟩
  | ok s =>
    refine ⟨fun e' => by simp [Except.map], fun s' h => ?_⟩
    cases h
    exact ⟨_, rfl, rfl, rfl, rfl⟩

private theorem instance_ok {p : Codec.Args} {x : Box} {m : Made} (h : Builds x m) (fields : List Char) : instanceFor p fields x = .ok m := by
  have h1 := (C125_builds x m).2 h
  unfold instanceFor
  split
  · cases h; rename_i ha; cases ha
  · rw [h1]; rfl

/-- **C126** The default: the box size is guessed, and the result is a sudoku of that size. -/
theorem C126_default (p : Codec.Args) (s : List Char) :
    DecodeArgs.decode p (.arg (.value .none)) s = (Codec.decode { p with boxSize := none } s).map DecodeArgs.ofSudoku :=
  decode_none p s

/-- **C126** A tuple or list of two natural numbers. -/
theorem C126_sizes (p : Codec.Args) (a : Arg Val) (w h : Nat) (ha : IsSequence a [(w : Int), h]) (s : List Char) :
    DecodeArgs.decode p (.arg a) s = (Codec.decode { p with boxSize := some (w, h) } s).map DecodeArgs.ofSudoku := by
  have e : ((w : Int) * (h : Int)).toNat = w * h := by rw [← Int.natCast_mul, Int.toNat_natCast]
  have hb := Builds.sequence a w h ha
  rw [e] at hb
  rw [decode_sim p (w := w) (h := h) ⟨rfl, e⟩ (.arg a) s (instance_ok hb)]
  exact map_congr fun t ht => within_of (decode_given ht)

/-- **C126** A tuple or list of two integers of any sign: it is read like a sudoku with that many rows, or with none if the product is negative. -/
theorem C126_integers (p : Codec.Args) (a : Arg Val) (w h : Int) (ha : IsSequence a [w, h]) (s : List Char) :
    SameFields (DecodeArgs.decode p (.arg a) s) ⟨w, h, (w * h).toNat⟩ (Codec.decode { p with boxSize := some ((w * h).toNat, 1) } s) :=
  same_within (decode_sim p (w := (w * h).toNat) (h := 1) ⟨(Nat.mul_one _).symm, (Nat.mul_one _).symm⟩ (.arg a) s (instance_ok (.sequence a w h ha)))

/-- **C126** A dictionary with the keys 0 and 1: whatever the number of rows is, it is read like a sudoku with a single field, or with none if there are no
rows. -/
theorem C126_dict (p : Codec.Args) (v v' : Int) (s : List Char) :
    SameFields (DecodeArgs.decode p (.dict [(0, v), (1, v')]) s) ⟨0, 1, (v * v').toNat⟩
      (Codec.decode { p with boxSize := some (if 0 < v * v' then (1, 1) else (0, 0)) } s) ∧
    SameFields (DecodeArgs.decode p (.dict [(1, v'), (0, v)]) s) ⟨1, 0, (v * v').toNat⟩
      (Codec.decode { p with boxSize := some (if 0 < v * v' then (1, 1) else (0, 0)) } s) := by
  by_cases hp : 0 < v * v'
  · rw [if_pos hp]
    exact ⟨same_within (decode_single p rfl (by show 0 < (v * v').toNat; omega) _ s (instance_ok (.zeroOne v v'))),
      same_within (decode_single p rfl (by show 0 < (v * v').toNat; omega) _ s (instance_ok (.oneZero v v')))⟩
  · rw [if_neg hp]
    exact ⟨same_within (decode_sim p (w := 0) (h := 0) ⟨by show (v * v').toNat = _; omega, rfl⟩ _ s (instance_ok (.zeroOne v v'))),
      same_within (decode_sim p (w := 0) (h := 0) ⟨by show (v * v').toNat = _; omega, rfl⟩ _ s (instance_ok (.oneZero v v')))⟩

/-- **C126** So with a dictionary every field but the first is empty, and with two integers of which exactly one is negative all fields are. -/
theorem C126_empty (p : Codec.Args) (s : List Char) (r : Raw) :
    (∀ v v', DecodeArgs.decode p (.dict [(0, v), (1, v')]) s = .ok r ∨ DecodeArgs.decode p (.dict [(1, v'), (0, v)]) s = .ok r →
      ∀ a, a ≠ (0, 0) → r.num a = 0 ∧ r.cand a = ∅) ∧
    (∀ a w h, IsSequence a [w, h] → w * h < 0 → DecodeArgs.decode p (.arg a) s = .ok r → ∀ a, r.num a = 0 ∧ r.cand a = ∅) := by
  have use : ∀ (x : Box) (m : Made) (w h : Nat), SameFields (DecodeArgs.decode p x s) m (Codec.decode { p with boxSize := some (w, h) } s) →
      DecodeArgs.decode p x s = .ok r → ∀ a : Cell, ¬ (a.1 < w * h ∧ a.2 < w * h) → r.num a = 0 ∧ r.cand a = ∅ := by
    intro x m w h hs hr a ha
    cases hd : Codec.decode { p with boxSize := some (w, h) } s with
    | error e =>
      have := (hs.1 e).2 hd
      rw [hr] at this
      cases this
    | ok t =>
      obtain ⟨y, h1, -, h2, h3⟩ := hs.2 t hd
      rw [hr] at h1
      cases h1
      rw [h2, h3]
      exact decode_outside hd a ha
  constructor
  · intro v v' hr a ha
    have hd := C126_dict p v v' s
    have hcell : ¬ (a.1 < 1 * 1 ∧ a.2 < 1 * 1) := fun h => ha (Prod.ext (by show a.1 = 0; omega) (by show a.2 = 0; omega))
    by_cases hp : 0 < v * v'
    · rw [if_pos hp] at hd
      rcases hr with hr | hr
      · exact use _ _ _ _ hd.1 hr a hcell
      · exact use _ _ _ _ hd.2 hr a hcell
    · rw [if_neg hp] at hd
      rcases hr with hr | hr
      · exact use _ _ _ _ hd.1 hr a (by omega)
      · exact use _ _ _ _ hd.2 hr a (by omega)
  · intro a w h ha hneg hr b
    refine use _ _ _ _ (C126_integers p a w h ha s) hr b ?_
    have : (w * h).toNat = 0 := by omega
    rw [this]
    omega

/-- **C126** Any other argument: the exception of `Sudoku(box_size)`, whatever the string is; an empty `sudoku_sep` is found before. -/
theorem C126_fails (p : Codec.Args) (x : Box) (e : Exn) (hx : NewFails x e) (hn : x ≠ .arg (.value .none)) (s : List Char) :
    DecodeArgs.decode p x s = .error (if p.sudokuSep = [] then .ValueError else e.cls) := by
  refine decode_failing p x s e.cls fun fields => ?_
  have h1 := (C125_fails x e).2 hx
  unfold instanceFor
  split
  · exact absurd rfl hn
  · rw [h1]; rfl

/-- **C126** Only `ValueError`, `IndexError` and `TypeError` are raised. -/
theorem C126_errors (p : Codec.Args) (x : Box) (s : List Char) (e : PyErr) (h : DecodeArgs.decode p x s = .error e) :
    e = .ValueError ∨ e = .IndexError ∨ e = .TypeError := by
  have ofCodec : ∀ q : Codec.Args, Codec.decode q s = .error e → e = .ValueError ∨ e = .IndexError ∨ e = .TypeError := by
    intro q hq
    have := Codec.decode_error hq
    tauto
  by_cases hn : x = .arg (.value .none)
  · subst hn
    rw [C126_default] at h
    cases hd : Codec.decode { p with boxSize := none } s with
    | error e' => rw [hd] at h; cases h; exact ofCodec _ hd
    | ok t => rw [hd] at h; cases h
  · rcases C125_cases x with ⟨m, hm⟩ | ⟨e', he'⟩
    · cases hm with
      | sequence a w h' ha => exact ofCodec _ (((C126_integers p a w h' ha s).1 e).1 h)
      | zeroOne v v' => exact ofCodec _ (((C126_dict p v v' s).1.1 e).1 h)
      | oneZero v v' => exact ofCodec _ (((C126_dict p v v' s).2.1 e).1 h)
    · rw [C126_fails p x e' he' hn s] at h
      cases h
      split
      · exact Or.inl rfl
      · cases he' <;> simp

/-! ## Samples -/

/-- The arguments of the samples: the defaults of `decode`. -/
private def q : Codec.Args := {}

/-- The box sizes, the number of rows and the first row. -/
private def look : Except PyErr Raw → Option (Made × List Int)
  | .ok r => some (r.made, (List.range 4).map fun j => r.num (0, j))
  | .error _ => none

private def why : Except PyErr Raw → Option PyErr
  | .ok _ => none
  | .error e => some e

/-- Four rows are made, but only the first number of the string is read. -/
example : look (DecodeArgs.decode q (.dict [(0, 2), (1, 2)]) "1234341221434321".toList) = some (⟨0, 1, 4⟩, [1, 0, 0, 0]) := by decide +kernel
/-- Two negative sizes are as good as two positive ones here. -/
example : look (DecodeArgs.decode q (.arg (.value (.ints .tuple [-2, -2]))) "1234341221434321".toList) = some (⟨-2, -2, 4⟩, [1, 2, 3, 4]) := by decide +kernel
example : why (DecodeArgs.decode q (.arg (.value (.ints .tuple [2, -2]))) "1234341221434321".toList) = some .IndexError := by decide +kernel
/-- Two integers of which one is negative, and an empty string. -/
example : look (DecodeArgs.decode q (.arg (.value (.ints .tuple [2, -2]))) []) = some (⟨2, -2, 0⟩, [0, 0, 0, 0]) := by decide +kernel
example : why (DecodeArgs.decode q (.arg (.value (.ints .set [2, 3]))) "1234341221434321".toList) = some .TypeError := by decide +kernel
example : look (DecodeArgs.decode q (.arg (.value .none)) "1234341221434321".toList) = some (⟨2, 2, 4⟩, [1, 2, 3, 4]) := by decide +kernel
example : NewFails (.arg (.value (.int 4))) ⟨.TypeError, .builtin⟩ := .int 4

end Props
