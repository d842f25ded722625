import Verif.NotationSpec

set_option autoImplicit false

/-!
# Specification of the texts `notation.decode` accepts

What is accepted is more than what the docstrings describe: a letter may be written twice in a row (the first one does not
count then), and the last letter of a group may have no number (it does not count either).
-/

namespace Spec

namespace Text

/-- A group as it is written: letters with numerals, `r01c` is `[(r, ["01"]), (c, [])]`. -/
abbrev Written := List (Letter × List (List Char))

/-- The number a numeral stands for. -/
def numeral (t : List Char) : Nat := t.foldl (fun n c => 10 * n + (c.toNat - 48)) 0

/-- The text of a written group. -/
def writtenText (nsep : List Char) (g : Written) : List Char := (g.map fun q => q.1.char :: Py.join nsep q.2).flatten

/-- A letter comes back at once, if at all: it is not among the letters after the next one. -/
def Tidy : List Letter → Prop
  | x :: y :: l => x ∉ l ∧ Tidy (y :: l)
  | _ => True

/-- What counts: not a letter followed by the same letter, not a last letter without numbers. -/
def kept : Written → Group
  | [] => []
  | [q] => if q.2 = [] then [] else [(q.1, q.2.map numeral)]
  | q :: q' :: g => if q.1 = q'.1 then kept (q' :: g) else (q.1, q.2.map numeral) :: kept (q' :: g)

/-- The numerals that can be written: decimal digits, and just one of them if nothing separates the numerals. -/
def Numerals (nsep : List Char) (ts : List (List Char)) : Prop :=
  ∀ t ∈ ts, t ≠ [] ∧ (∀ c ∈ t, '0' ≤ c ∧ c ≤ '9') ∧ (nsep = [] → t.length = 1)

/-- The groups that are accepted. -/
structure Accepted (w h : Nat) (nsep : List Char) (g : Written) : Prop where
  numerals : ∀ q ∈ g, Numerals nsep q.2
  /-- only the last letter may go without number -/
  numbers : ∀ q ∈ g.dropLast, q.2 ≠ []
  /-- and only if nothing separates the numerals -/
  last : nsep ≠ [] → ∀ q ∈ g, q.2 ≠ []
  tidy : Tidy (g.map Prod.fst)
  proper : Proper w h (kept g)

/-- The groups of a text: the text is cut where one of the letters follows the separator. -/
structure Groups (sep : List Char) (gs : List (List Char)) : Prop where
  nonempty : gs ≠ []
  first : ∀ g ∈ gs.tail, ∃ (l : Letter) (x : List Char), g = l.char :: x
  clear : ∀ g ∈ gs, ∀ l : Letter, ¬ (sep ++ [l.char]) <:+: g

/-- The conditions on a written group without those on the numbers. -/
structure Readable (nsep : List Char) (g : Written) : Prop where
  nonempty : g ≠ []
  numerals : ∀ q ∈ g, Numerals nsep q.2
  numbers : ∀ q ∈ g.dropLast, q.2 ≠ []
  last : nsep ≠ [] → ∀ q ∈ g, q.2 ≠ []
  tidy : Tidy (g.map Prod.fst)

/-- The beginning of a group that can be read so far: letters with numbers, then a last letter with digits and separators. -/
structure Opening (nsep : List Char) (g : Written) (l : Letter) (x : List Char) : Prop where
  numerals : ∀ q ∈ g, Numerals nsep q.2 ∧ q.2 ≠ []
  tidy : Tidy (g.map Prod.fst ++ [l])
  legal : ∀ c ∈ x, ('0' ≤ c ∧ c ≤ '9') ∨ c ∈ nsep

/-- Its text. -/
def openingText (nsep : List Char) (g : Written) (l : Letter) (x : List Char) : List Char := writtenText nsep g ++ l.char :: x

end Text

end Spec
