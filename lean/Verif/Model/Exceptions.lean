import Verif.Model.Coordinates

set_option autoImplicit false

/-! # Exceptions with their texts -/

namespace ErrorText

/-- Where the text of an exception comes from. -/
inductive Why
  /-- from a `raise` statement of /repo: the text -/
  | text (t : List Char)
  /-- from `int(item)`: `invalid literal for int() with base 10: …` with the item -/
  | badInt (item : List Char)
  /-- from another built-in operation; the text depends on the Python version and is not modelled -/
  | builtin
  deriving DecidableEq

/-- An exception: `type(e)` and `str(e)`. -/
structure Exn where
  cls : PyErr
  why : Why
  deriving DecidableEq

/-- The exception without its text. -/
def forget {α : Type} : Except Exn α → Except PyErr α
  | .ok x => .ok x
  | .error e => .error e.cls

/-- An exception of built-in operations. -/
def builtin {α : Type} : Except PyErr α → Except Exn α
  | .ok x => .ok x
  | .error e => .error ⟨e, .builtin⟩

end ErrorText
