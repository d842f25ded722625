import Verif.Model.ErrorText
import Verif.LanguageSpec

set_option autoImplicit false

/-!
# Specification of the texts of exceptions
-/

open ErrorText

namespace Spec

namespace Text

/-- `text * n`. -/
def repeated (n : Nat) (text : List Char) : List Char := (List.replicate n text).flatten

/-- `ValueError(text)`. -/
def saying (text : List Char) : Exn := ⟨.ValueError, .text text⟩

/-- The beginning of the message for a letter. -/
def lessThan : Letter → List Char
  | .r => "row must be less equal 0 and less than ".toList
  | .c => "col must be less equal 0 and less than ".toList
  | .b => "box must be less equal 0 and less than ".toList
  | .p => "part must be less equal 0 and less than ".toList

/-- The order in which the letters are looked at. -/
def rank : Letter → Nat
  | .r => 0
  | .c => 1
  | .b => 2
  | .p => 3

/-- `"Malformed group '…'. …"`. -/
def malformedGroup (s rest : List Char) : Exn := saying ("Malformed group '".toList ++ s ++ "'. ".toList ++ rest)

/-- What is wrong with a group, and what is said about it; `n` separates the numbers. -/
inductive Complaint (w h : Nat) (n : List Char) : List Char → Exn → Prop
  | empty : Complaint w h n [] (saying "Empty group ''".toList)
  /-- a digit or separator before the first letter -/
  | position (c : Char) (t : List Char) (hc : ('0' ≤ c ∧ c ≤ '9') ∨ c ∈ n) :
    Complaint w h n (c :: t) (malformedGroup (c :: t) ("'".toList ++ [c] ++ "' is illegal at this position.".toList))
  /-- another character at the beginning -/
  | first (c : Char) (t : List Char) (hd : ¬ ('0' ≤ c ∧ c ≤ '9')) (hn : c ∉ n) (hl : ∀ l : Letter, c ≠ l.char) :
    Complaint w h n (c :: t) (malformedGroup (c :: t) ("Illegal character '".toList ++ [c] ++ "'.".toList))
  /-- another character later on -/
  | illegal (g : Written) (l : Letter) (x t : List Char) (c : Char) (ho : Opening n g l x) (hd : ¬ ('0' ≤ c ∧ c ≤ '9')) (hn : c ∉ n)
    (hl : ∀ l : Letter, c ≠ l.char) :
    Complaint w h n (openingText n g l x ++ c :: t)
      (malformedGroup (openingText n g l x ++ c :: t) ("Illegal character '".toList ++ [c] ++ "'.".toList))
  /-- a letter that occurred before the last one -/
  | multiple (g : Written) (l m : Letter) (x t : List Char) (ho : Opening n g l x) (hm : m ∈ g.map Prod.fst) :
    Complaint w h n (openingText n g l x ++ m.char :: t)
      (malformedGroup (openingText n g l x ++ m.char :: t) ("'".toList ++ [m.char] ++ "' has multiple occurrences.".toList))
  /-- a letter after a letter, if nothing separates the numbers -/
  | noNumbers (g : Written) (l m : Letter) (t : List Char) (h0 : n = []) (ho : Opening n g l []) (hm : m ∉ g.map Prod.fst) :
    Complaint w h n (openingText n g l [] ++ m.char :: t)
      (malformedGroup (openingText n g l [] ++ m.char :: t) ("No numbers given for '".toList ++ [l.char] ++ "'".toList))
  /-- a number is missing before, after or between separators: `int('')` fails -/
  | missing (g : Written) (l : Letter) (x t : List Char) (h0 : n ≠ []) (ho : Opening n g l x)
    (hx : ∀ ts, Numerals n ts → ts ≠ [] → x ≠ Py.join n ts) (ht : t = [] ∨ ∃ m t', m ∉ g.map Prod.fst ∧ t = m.char :: t') :
    Complaint w h n (openingText n g l x ++ t) ⟨.ValueError, .badInt []⟩
  /-- a number out of range -/
  | range (g : Written) (l : Letter) (ks : List Nat) (k : Nat) (hg : Readable n g) (hl : (l, ks) ∈ kept g) (hk : k ∈ ks)
    (hbad : ¬ (1 ≤ k ∧ k ≤ w * h))
    (hfirst : ∀ m js, (m, js) ∈ kept g → rank m < rank l → ∀ j ∈ js, 1 ≤ j ∧ j ≤ w * h) :
    Complaint w h n (writtenText n g) (saying (repeated h (lessThan l ++ Py.natStr w)))
  /-- nothing counts -/
  | nothing (g : Written) (hg : Readable n g) (hk : kept g = []) : Complaint w h n (writtenText n g) ⟨.TypeError, .builtin⟩

end Text

end Spec
