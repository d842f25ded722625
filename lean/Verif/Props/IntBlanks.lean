import Verif.Model.Codec
import Verif.Proofs.Strings

set_option autoImplicit false

/-!
# Blanks around the items of a text (sudoku.py:396-407)

`decode` removes the characters of `string.whitespace` only; `int` ignores these and all other blanks beyond ASCII at both ends of an item.
-/

open Spec

namespace Props

/-- The blanks `int` ignores: those of `string.whitespace`, and those beyond ASCII (e.g. the no-break space), but not the separators 28 to 31 of ASCII,
although `strip` removes them. -/
def IntBlank (c : Char) : Prop := c ∈ Py.whitespace ∨ 128 ≤ c.toNat ∧ Py.isSpace c = true

private theorem blank_ascii {c : Char} (h : IntBlank c) : decide (Py.asciiChar c ∈ Py.whitespace) = true := by
  rcases h with h | ⟨h1, h2⟩
  · have h3 : c.toNat < 128 := by
      simp only [Py.whitespace, List.mem_cons, List.not_mem_nil, or_false] at h
      rcases h with rfl | rfl | rfl | rfl | rfl | rfl <;> decide
    rw [Py.asciiChar, if_pos h3]
    exact decide_eq_true h
  · rw [Py.asciiChar, if_neg (by omega), if_pos h2]
    decide

private theorem dropWhile_all {p : Char → Bool} {a : List Char} (h : ∀ c ∈ a, p c = true) (s : List Char) : (a ++ s).dropWhile p = s.dropWhile p := by
  induction a with
  | nil => rfl
  | cons c a ih => rw [List.cons_append, List.dropWhile_cons_of_pos (h c (by simp)), ih fun d hd => h d (by simp [hd])]

private theorem dropWhile_end {p : Char → Bool} {b : List Char} (h : ∀ c ∈ b, p c = true) (s : List Char) :
    (s ++ b).dropWhile p = s.dropWhile p ++ b ∨ (s ++ b).dropWhile p = [] ∧ s.dropWhile p = [] := by
  induction s with
  | nil =>
    right
    have := dropWhile_all h []
    rw [List.append_nil] at this
    exact ⟨this, rfl⟩
  | cons c s ih =>
    by_cases hc : p c = true
    · rw [List.cons_append, List.dropWhile_cons_of_pos hc, List.dropWhile_cons_of_pos hc]
      exact ih
    · rw [List.cons_append, List.dropWhile_cons_of_neg hc, List.dropWhile_cons_of_neg hc]
      exact Or.inl rfl

private theorem stripBy_blanks {p : Char → Bool} {a b : List Char} (ha : ∀ c ∈ a, p c = true) (hb : ∀ c ∈ b, p c = true) (s : List Char) :
    Py.stripBy p (a ++ s ++ b) = Py.stripBy p s := by
  unfold Py.stripBy
  rw [List.append_assoc, dropWhile_all ha]
  rcases dropWhile_end hb s with h | ⟨h1, h2⟩
  · rw [h, List.reverse_append, dropWhile_all fun c hc => hb c (List.mem_reverse.1 hc)]
  · rw [h1, h2]

/-- **C105** Blanks at both ends of an item do not change the number that is read, or the error. -/
theorem C105_blanks (p : Codec.Args) (a s b : List Char) (ha : ∀ c ∈ a, IntBlank c) (hb : ∀ c ∈ b, IntBlank c) :
    Py.int (a ++ s ++ b) = Py.int s ∧
    (p.same (a ++ s ++ b) = false → p.same s = false → Codec.itemNumber p (a ++ s ++ b) = Codec.itemNumber p s) := by
  have key : Py.int (a ++ s ++ b) = Py.int s := by
    unfold Py.int Py.asciiInt
    rw [List.map_append, List.map_append, stripBy_blanks]
    · intro c hc
      obtain ⟨d, hd, rfl⟩ := List.mem_map.1 hc
      exact blank_ascii (ha d hd)
    · intro c hc
      obtain ⟨d, hd, rfl⟩ := List.mem_map.1 hc
      exact blank_ascii (hb d hd)
  exact ⟨key, fun h1 h2 => by simp only [Codec.itemNumber, h1, h2, key]⟩

/-- **C105** The separators 28 to 31 are not ignored, although `str.strip` removes them. -/
theorem C105_separators (c : Char) (h : 28 ≤ c.toNat ∧ c.toNat ≤ 31) (t : List Char) :
    Py.strip (c :: t) = Py.strip t ∧ Py.int (c :: t) = .error .ValueError := by
  have hs : Py.isSpace c = true := by
    simp only [Py.isSpace, Bool.or_eq_true, Bool.and_eq_true, decide_eq_true_eq]
    omega
  refine ⟨stripBy_blanks (a := [c]) (b := []) (by simpa using hs) (by simp) t |> fun h => by simpa [Py.strip] using h, ?_⟩
  have hw : decide (c ∈ Py.whitespace) = false := by
    rw [decide_eq_false_iff_not]
    intro hm
    simp only [Py.whitespace, List.mem_cons, List.not_mem_nil, or_false] at hm
    rcases hm with rfl | rfl | rfl | rfl | rfl | rfl <;> revert h <;> decide
  have hne : ∀ d : Char, 32 ≤ d.toNat → c ≠ d := by rintro d hd rfl; omega
  have hst : ∃ r, Py.stripBy (fun c => decide (c ∈ Py.whitespace)) ((c :: t).map Py.asciiChar) = c :: r := by
    unfold Py.stripBy
    rw [List.map_cons, Py.asciiChar, if_pos (by omega), List.dropWhile_cons_of_neg (by rw [hw]; simp), List.reverse_cons]
    rcases List.eq_nil_or_concat ((t.map Py.asciiChar).reverse.dropWhile fun c => decide (c ∈ Py.whitespace)) with h0 | ⟨l, d, h0⟩
    · refine ⟨[], ?_⟩
      rw [List.dropWhile_append, h0]
      simp [hw]
    · refine ⟨((t.map Py.asciiChar).reverse.dropWhile fun c => decide (c ∈ Py.whitespace)).reverse, ?_⟩
      rw [List.dropWhile_append, h0]
      simp
  obtain ⟨r, hr⟩ := hst
  have hd : Py.readDigits (c :: r) 0 false = none := by
    have : Py.isDigit c = false := by
      simp only [Py.isDigit, Bool.and_eq_false_iff, decide_eq_false_iff_not]
      omega
    simp [Py.readDigits, this]
  unfold Py.int Py.asciiInt
  rw [hr]
  split
  · rename_i h0
    exact absurd (List.cons.inj h0).1 (hne _ (by decide))
  · rename_i h0
    exact absurd (List.cons.inj h0).1 (hne _ (by decide))
  · rw [hd]

/-! ## Samples -/

example : IntBlank (Char.ofNat 0xa0) ∧ IntBlank '\t' := ⟨Or.inr ⟨by decide, by decide⟩, Or.inl (by decide)⟩
example : Py.int [Char.ofNat 0xa0, '-', '7', Char.ofNat 0x3000] = .ok (-7) := by decide +kernel
example : Py.int [Char.ofNat 28, '7'] = .error .ValueError := (C105_separators (Char.ofNat 28) (by decide) ['7']).2

end Props
