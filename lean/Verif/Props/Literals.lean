import Verif.Proofs.Literals

set_option autoImplicit false

/-!
# The literals of the shell (shell.py:235-249)

Which texts the model of `literal_eval` reads, and as what.
-/

open Spec

namespace Props

open Shell

/-- Integers as `str` writes them, with commas between them. -/
def Commas (ks : List Int) : List Char := Py.join [','] (ks.map Py.intStr)

/-- The texts of the values: the names, integers, strings between equal quotation marks without these, backslashes, line ends and NUL, and tuples
(with or without parentheses, at least two integers), lists and sets (not empty) of integers. -/
inductive Literal : List Char → Val → Prop
  | none : Literal "None".toList .none
  | true : Literal "True".toList (.bool true)
  | false : Literal "False".toList (.bool false)
  | str (q : Char) (s : List Char) : q = '"' ∨ q = '\'' → (∀ c ∈ s, c ≠ q ∧ c ≠ '\\' ∧ c ≠ '\n' ∧ c ≠ '\r' ∧ c.toNat ≠ 0) → Literal (q :: (s ++ [q])) (.str s)
  | int (k : Int) : Literal (Py.intStr k) (.int k)
  | tuple (ks : List Int) : 2 ≤ ks.length → Literal ('(' :: (Commas ks ++ [')'])) (.ints .tuple ks)
  | bare (ks : List Int) : 2 ≤ ks.length → Literal (Commas ks) (.ints .tuple ks)
  | list (ks : List Int) : Literal ('[' :: (Commas ks ++ [']'])) (.ints .list ks)
  | set (ks : List Int) : ks ≠ [] → Literal ('{' :: (Commas ks ++ ['}'])) (.ints .set ks)

/-- **C81** Exactly these texts are read (as far as `literal_eval` is modelled), and as these values. -/
theorem C81_literals (t : List Char) (v : Val) : literalEval t = some v ↔ Literal t v := by
  constructor
  · intro h
    unfold literalEval at h
    split at h
    · rename_i ht; cases h; rw [ht]; exact .none
    split at h
    · rename_i ht; cases h; rw [ht]; exact .true
    split at h
    · rename_i ht; cases h; rw [ht]; exact .false
    split at h
    · rename_i s hs
      cases h
      obtain ⟨h1, h2⟩ := litStr_eq hs
      rw [h2]
      exact .str _ s (Or.inl rfl) h1
    split at h
    · rename_i s hs
      cases h
      obtain ⟨h1, h2⟩ := litStr_eq hs
      rw [h2]
      exact .str _ s (Or.inr rfl) h1
    split at h
    · rename_i w hw
      cases h
      obtain ⟨ks, h1, rfl, rfl⟩ := litColl_eq hw
      exact .tuple ks h1
    split at h
    · rename_i w hw
      cases h
      obtain ⟨ks, h1, rfl, rfl⟩ := litColl_eq hw
      exact .list ks
    split at h
    · rename_i w hw
      cases h
      obtain ⟨ks, h1, rfl, rfl⟩ := litColl_eq hw
      exact .set ks (fun h0 => by rw [h0] at h1; cases h1)
    split at h
    · rename_i k hk
      cases h
      rw [litInts_eq hk]
      exact .int k
    · rename_i k l hl hk
      cases h
      rw [litInts_eq hk]
      refine .bare (k :: l) ?_
      cases l with
      | nil => exact absurd rfl hl
      | cons _ _ => simp
    · cases h
  · intro h
    cases h with
    | none => rfl
    | true => rfl
    | false => rfl
    | str q s hq hs => exact literal_str hq hs
    | int k => exact literal_int k
    | tuple ks h => exact literal_tuple ks h
    | bare ks h =>
      have := literal_comma ks (by rintro rfl; cases h)
      match ks, h, this with
      | _ :: _ :: _, _, this => exact this
    | list ks => exact literal_list ks
    | set ks h => exact literal_set ks h

/-! ## Samples -/

example : Literal "'a\"b'".toList (.str "a\"b".toList) := (C81_literals _ _).1 (by decide +kernel)
example : ∀ v, ¬ Literal "\"a\"b\"".toList v := fun v h => by
  have := (C81_literals _ _).2 h
  rw [show literalEval "\"a\"b\"".toList = none by decide +kernel] at this
  cases this
example : Literal "2,-3".toList (.ints .tuple [2, -3]) := (C81_literals _ _).1 (by decide +kernel)
example : literalEval "{}".toList = none ∧ literalEval "[]".toList = some (.ints .list []) ∧ literalEval "07".toList = none := by decide +kernel

end Props
