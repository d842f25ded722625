import Verif.Model.Strings

set_option autoImplicit false

/-!
# What a script for the shell looks like

Independent of the model of the shell: how commands may be spread over the lines of a file.
-/

namespace Spec.Script

/-- Whitespace. -/
def Blank (s : List Char) : Prop := ∀ c ∈ s, Py.isSpace c = true

/-- Whitespace, and perhaps a comment: what may follow a command on its line (the newline is whitespace). -/
def Tail (s : List Char) : Prop := ∃ b k, Blank b ∧ (k = [] ∨ ∃ x, k = '#' :: x) ∧ s = b ++ k

/-- A text without comments and newlines that does not begin with whitespace. -/
structure Piece (s : List Char) : Prop where
  comment : '#' ∉ s
  newline : '\n' ∉ s
  first : ∀ c, s.head? = some c → Py.isSpace c = false

/-- The end of a command: neither whitespace nor a backslash. -/
def Ends (s : List Char) : Prop := ∀ c, s.getLast? = some c → Py.isSpace c = false ∧ c ≠ '\\'

/-- The lines of a file over which one command (or several with `;` between them) is spread; backslashes mark the lines to be
continued. -/
inductive Lines : List (List Char) → List Char → Prop
  | last {b c t : List Char} : Blank b → Piece c → Ends c → Tail t → Lines [b ++ c ++ t] c
  | continued {b p t : List Char} {ls : List (List Char)} {c : List Char} : Blank b → Piece p → Tail t → Lines ls c →
      Lines ((b ++ (p ++ ['\\']) ++ t) :: ls) (p ++ c)

/-- Lines that all are to be continued. -/
inductive Unfinished : List (List Char) → Prop
  | nil : Unfinished []
  | cons {b p t : List Char} {ls : List (List Char)} : Blank b → Piece p → Tail t → Unfinished ls →
      Unfinished ((b ++ (p ++ ['\\']) ++ t) :: ls)

/-- The lines of a file, and the commands in it.  Blank lines do not count; a command whose last line is missing is lost. -/
inductive File : List (List Char) → List (List Char) → Prop
  | unfinished {ls : List (List Char)} : Unfinished ls → File ls []
  | command {ls rest : List (List Char)} {c : List Char} {cs : List (List Char)} : Lines ls c → c ≠ [] → File rest cs →
      File (ls ++ rest) (c :: cs)
  | blank {ls rest : List (List Char)} {cs : List (List Char)} : Lines ls [] → File rest cs → File (ls ++ rest) cs

end Spec.Script
