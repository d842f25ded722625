import Verif.Model.Coordinates
import Mathlib.Data.List.Infix
import Mathlib.Data.Int.Order.Basic

set_option autoImplicit false

/-!
# The Python string operations used by `sudoku.py`, `notation.py` and `shell.py`

Strings are lists of characters.  These definitions model CPython built-ins, not lines of /repo.
-/

namespace Py

/-- The digit `d < 10` as a character. -/
def digitChar (d : Nat) : Char := Char.ofNat (48 + d)

/-- `str(n)` for `n >= 0`. -/
def natStr (n : Nat) : List Char :=
  if n < 10 then [digitChar n] else natStr (n / 10) ++ [digitChar (n % 10)]

/-- `str(n)`. -/
def intStr (n : Int) : List Char := if n < 0 then '-' :: natStr n.natAbs else natStr n.natAbs

/-- `string.whitespace`: `' \t\n\r\x0b\x0c'`, in this order. -/
def whitespace : List Char := [' ', '\t', '\n', '\r', Char.ofNat 11, Char.ofNat 12]

/-- The characters removed by `str.strip()`. -/
def isSpace (c : Char) : Bool :=
  (9 ≤ c.toNat && c.toNat ≤ 13) || (28 ≤ c.toNat && c.toNat ≤ 32) || c.toNat = 0x85 || c.toNat = 0xa0 || c.toNat = 0x1680 ||
  (0x2000 ≤ c.toNat && c.toNat ≤ 0x200a) || c.toNat = 0x2028 || c.toNat = 0x2029 || c.toNat = 0x202f || c.toNat = 0x205f ||
  c.toNat = 0x3000

/-- Remove the characters satisfying `p` at both ends. -/
def stripBy (p : Char → Bool) (s : List Char) : List Char := ((s.dropWhile p).reverse.dropWhile p).reverse

/-- `s.strip()`. -/
def strip (s : List Char) : List Char := stripBy isSpace s

/-- ASCII digits. -/
def isDigit (c : Char) : Bool := 48 ≤ c.toNat && c.toNat ≤ 57

/-- Digits with single underscores between them. -/
def readDigits : List Char → Nat → Bool → Option Nat
  | [], acc, afterDigit => if afterDigit then some acc else none
  | c :: s, acc, afterDigit =>
    if isDigit c then readDigits s (10 * acc + (c.toNat - 48)) true
    else if c = '_' ∧ afterDigit = true then readDigits s acc false else none

/-- The zeros of the decimal digits outside ASCII (Unicode 14.0, the one of CPython 3.11); the other nine follow each. -/
def decimalZeros : List Nat :=
  [0x660, 0x6f0, 0x7c0, 0x966, 0x9e6, 0xa66, 0xae6, 0xb66, 0xbe6, 0xc66, 0xce6, 0xd66, 0xde6, 0xe50, 0xed0, 0xf20, 0x1040, 0x1090, 0x17e0, 0x1810,
    0x1946, 0x19d0, 0x1a80, 0x1a90, 0x1b50, 0x1bb0, 0x1c40, 0x1c50, 0xa620, 0xa8d0, 0xa900, 0xa9d0, 0xa9f0, 0xaa50, 0xabf0, 0xff10, 0x104a0,
    0x10d30, 0x11066, 0x110f0, 0x11136, 0x111d0, 0x112f0, 0x11450, 0x114d0, 0x11650, 0x116c0, 0x11730, 0x118e0, 0x11950, 0x11c50, 0x11d50,
    0x11da0, 0x16a60, 0x16ac0, 0x16b50, 0x1d7ce, 0x1d7d8, 0x1d7e2, 0x1d7ec, 0x1d7f6, 0x1e140, 0x1e2f0, 0x1e950, 0x1fbf0]

/-- `unicodedata.decimal(c)`: the value of a decimal digit. -/
def decimal (c : Char) : Option Nat :=
  if isDigit c then some (c.toNat - 48)
  else match decimalZeros.find? fun z => decide (z ≤ c.toNat ∧ c.toNat ≤ z + 9) with
    | some z => some (c.toNat - z)
    | none => none

/-- What `int` reads for a character: ASCII characters as they are, a blank for the other spaces, ASCII digits for the other decimal digits. -/
def asciiChar (c : Char) : Char :=
  if c.toNat < 128 then c
  else if isSpace c then ' '
  else match decimal c with
    | some d => digitChar d
    | none => '?'

/-- `int(s)` for a string of ASCII characters. -/
def asciiInt (s : List Char) : Except PyErr Int :=
  match stripBy (fun c => decide (c ∈ whitespace)) s with
  | '-' :: s => match readDigits s 0 false with
    | some k => .ok (-(k : Int))
    | none => .error .ValueError
  | '+' :: s => match readDigits s 0 false with
    | some k => .ok k
    | none => .error .ValueError
  | s => match readDigits s 0 false with
    | some k => .ok k
    | none => .error .ValueError

/-- `int(s)` for a string; the limit of 4300 digits (in newer versions of Python) is not modelled. -/
def int (s : List Char) : Except PyErr Int := asciiInt (s.map asciiChar)

/-- `[int(x) for x in items]`. -/
def ints : List (List Char) → Except PyErr (List Int)
  | [] => .ok []
  | x :: l => match int x with
    | .error e => .error e
    | .ok v => match ints l with
      | .error e => .error e
      | .ok vs => .ok (v :: vs)

/-- `sep.join(parts)`. -/
def join (sep : List Char) : List (List Char) → List Char
  | [] => []
  | [x] => x
  | x :: y :: l => x ++ sep ++ join sep (y :: l)

/-- `s.replace(c, new)` for a single character `c`. -/
def replaceChar (c : Char) (new s : List Char) : List Char := s.flatMap fun d => if d = c then new else [d]

/-- The loop of `s.split(sep)`, `sep` not empty: `skip` characters of a separator are still to be skipped, `acc` is the
current piece, reversed. -/
def splitGo (sep : List Char) : List Char → Nat → List Char → List (List Char)
  | [], _, acc => [acc.reverse]
  | _ :: s, skip + 1, acc => splitGo sep s skip acc
  | c :: s, 0, acc =>
    if sep.isPrefixOf (c :: s) then acc.reverse :: splitGo sep s (sep.length - 1) [] else splitGo sep s 0 (c :: acc)

/-- `s.split(sep)`. -/
def split (s sep : List Char) : Except PyErr (List (List Char)) :=
  if sep = [] then .error .ValueError else .ok (splitGo sep s 0 [])

/-- The text before and after the first `sep`, if there is one: `sep in s`, `s.split(sep, 1)` for `sep` not empty. -/
def cut (sep : List Char) : List Char → Option (List Char × List Char)
  | [] => if sep = [] then some ([], []) else none
  | c :: s =>
    if sep.isPrefixOf (c :: s) then some ([], (c :: s).drop sep.length)
    else match cut sep s with
      | none => none
      | some (a, b) => some (c :: a, b)

/-- `s.rjust(k)`. -/
def rjust (k : Nat) (s : List Char) : List Char := List.replicate (k - s.length) ' ' ++ s

/-- `s.ljust(k)`. -/
def ljust (k : Nat) (s : List Char) : List Char := s ++ List.replicate (k - s.length) ' '

end Py
