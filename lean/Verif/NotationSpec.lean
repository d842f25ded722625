import Verif.FindSpec
import Verif.Model.Strings

set_option autoImplicit false

/-!
# Specification of the rncn / bnpn notation

A group such as `r12c3` is a list of letters with numbers counted from 1; a text is a list of groups.
-/

namespace Spec

namespace Text

/-- The four letters. -/
inductive Letter
  | r | c | b | p
  deriving DecidableEq

/-- How a letter is written. -/
def Letter.char : Letter → Char
  | .r => 'r'
  | .c => 'c'
  | .b => 'b'
  | .p => 'p'

/-- The number of the row, column, box or of the place within its box where the field is, counted from 1. -/
def Letter.number (w h : Nat) : Letter → Cell → Nat
  | .r, a => a.1 + 1
  | .c, a => a.2 + 1
  | .b, a => a.1 / h * h + a.2 / w + 1
  | .p, a => a.1 % h * w + a.2 % w + 1

/-- `r12c3` is `[(r, [1, 2]), (c, [3])]`. -/
abbrev Group := List (Letter × List Nat)

/-- What stands between the numbers: nothing if there are no numbers above 9, `,` otherwise, unless something else is
asked for. -/
def between (w h : Nat) (nsep : List Char) : List Char := if nsep ≠ [] then nsep else if w * h ≤ 9 then [] else [',']

/-- A group as a string. -/
def groupText (nsep : List Char) (g : Group) : List Char :=
  (g.map fun q => q.1.char :: Py.join nsep (q.2.map Py.natStr)).flatten

/-- A list of groups as a string. -/
def text (sep nsep : List Char) (gs : List Group) : List Char := Py.join sep (gs.map (groupText nsep))

/-- The field is named by the group: for every letter of the group one of its numbers is right. -/
def Named (w h : Nat) (g : Group) (a : Cell) : Prop := InGrid w h a ∧ ∀ q ∈ g, q.1.number w h a ∈ q.2

/-- There is a letter, no letter occurs twice, every letter has a number, and the numbers are in `1 .. w*h`. -/
structure Proper (w h : Nat) (g : Group) : Prop where
  nonempty : g ≠ []
  once : (g.map Prod.fst).Nodup
  numbers : ∀ q ∈ g, q.2 ≠ []
  range : ∀ q ∈ g, ∀ k ∈ q.2, 1 ≤ k ∧ k ≤ w * h

/-- The characters with a meaning of their own. -/
def Special (ch : Char) : Prop := Py.isDigit ch = true ∨ ch = 'r' ∨ ch = 'c' ∨ ch = 'b' ∨ ch = 'p'

/-- Separators of groups that can be used: not empty, without the four letters, and not ending in a digit. -/
structure SepOk (sep : List Char) : Prop where
  letters : ∀ l : Letter, l.char ∉ sep
  last : ∃ ch, sep.getLast? = some ch ∧ Py.isDigit ch = false

/-- Separators of numbers that can be used: without digits and the four letters. -/
def NumSepOk (nsep : List Char) : Prop := ∀ ch ∈ nsep, ¬ Special ch

/-- The coordinates lie in the grid. -/
def Valid (w h : Nat) (cs : List (Int × Int)) : Prop :=
  ∀ rc ∈ cs, (0 ≤ rc.1 ∧ rc.1 < (w * h : Nat)) ∧ 0 ≤ rc.2 ∧ rc.2 < (w * h : Nat)

/-- The field is among the coordinates. -/
def Among (cs : List (Int × Int)) (a : Cell) : Prop := ((a.1 : Int), (a.2 : Int)) ∈ cs

/-- `l` lists exactly the fields satisfying `P`, in reading order, each once. -/
def SortedFields (l : List Cell) (P : Cell → Prop) : Prop := l.Pairwise Before ∧ ∀ a, a ∈ l ↔ P a

/-- A group with two letters: the numbers for the first letter and those for the second. -/
structure Block where
  keys : List Nat
  vals : List Nat

/-- The group of a block. -/
def Block.group (k v : Letter) (B : Block) : Group := [(k, B.keys), (v, B.vals)]

/-- The one way `encode` describes the set `X` with the letters `k` and `v`: the fields with the same first number are
listed together, first numbers with the same second numbers are taken together, everything in increasing order. -/
structure Canonical (w h : Nat) (k v : Letter) (X : Cell → Prop) (bs : List Block) : Prop where
  keysSorted : ∀ B ∈ bs, B.keys.Pairwise (· < ·)
  valsSorted : ∀ B ∈ bs, B.vals.Pairwise (· < ·)
  keysNonempty : ∀ B ∈ bs, B.keys ≠ []
  valsNonempty : ∀ B ∈ bs, B.vals ≠ []
  disjoint : bs.Pairwise fun B C => ∀ x ∈ B.keys, x ∉ C.keys
  different : bs.Pairwise fun B C => B.vals ≠ C.vals
  ordered : bs.Pairwise fun B C => ∀ x y, B.keys.head? = some x → C.keys.head? = some y → x < y
  exact : ∀ x y, (∃ B ∈ bs, x ∈ B.keys ∧ y ∈ B.vals) ↔ ∃ a, X a ∧ k.number w h a = x ∧ v.number w h a = y

end Text

end Spec
