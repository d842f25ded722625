import Verif.Model.Game

set_option autoImplicit false

/-! # What the game shell is compared with: a history of positions -/

open Spec

namespace Spec

/-- The positions of a game and the number of the current one. -/
structure History where
  positions : List Sudoku
  index : Nat

/-- Going back, if there is an earlier position. -/
def History.undo (h : History) : History := { h with index := h.index - 1 }

/-- Going forward, if there is a later position. -/
def History.redo (h : History) : History := { h with index := if h.index + 1 < h.positions.length then h.index + 1 else h.index }

/-- A new position; later ones are forgotten. -/
def History.add (h : History) (x : Sudoku) : History := ⟨h.positions.take (h.index + 1) ++ [x], h.index + 1⟩

/-- The same numbers and candidates in the fields of the first one. -/
def SamePosition (x y : Sudoku) : Prop := ∀ a, InGrid x.bw x.bh a → x.num a = y.num a ∧ x.cand a = y.cand a

end Spec

namespace Game

/-- The positions in the memory of the shell. -/
def State.history (s : State) : History := ⟨s.sudokus.map s.at, s.index⟩

/-- The position shown to the player. -/
def State.now (s : State) : Sudoku := s.at s.cur

/-- The words which are commands without being moves. -/
def commandWords : List (List Char) :=
  ["hint".toList, "candidates".toList, "conflicts".toList, "settings".toList, "check".toList, "undo".toList, "redo".toList]

/-- What a line does to the position: "candidates" and moves (with everything that is filled in automatically) change it. -/
def effect (set : Settings) (rounds : Nat) (line : List Char) (x : Sudoku) : Sudoku :=
  if firstWord line = some "candidates".toList then Solve.initCandidates x
  else if ∃ word ∈ commandWords, firstWord line = some word then x
  else match Notation.decodeAction line x.bw x.bh with
    | .error _ => x
    | .ok action => match autofill set true rounds (Actions.call action x).1 [] with
      | none => (Actions.call action x).1
      | some r => r.1.sudoku

/-- Nothing refers to places that do not exist, and the sudokus have the size `w` by `h`. -/
structure Fine (w h : Nat) (s : State) : Prop where
  index : s.index < s.sudokus.length
  addr : ∀ k ∈ s.sudokus, k < s.heap.length ∧ (s.at k).bw = w ∧ (s.at k).bh = h

/-- The orders in which `hints` visits sets, for each call. -/
abbrev HintOrders := Nat → Solvers.Orders (Sudoku × List (Sudoku × Solvers.Step))

/-- The answer to "hint", when `i` of the hints `l` have been given. -/
def answer (l : List Solvers.Step) (i : Nat) : Event :=
  match l[i]? with
  | some st => .hint st
  | none => .text "No more hints available.".toList

/-- The shell goes through the hints for the sudoku `x` (at address `k`) and has given `i` answers. -/
structure Shows (π : HintOrders) (s : State) (x : Sudoku) (k i : Nat) : Prop where
  hints : s.hints = some (k, min i (hintList (π k) x).length)
  addr : k < s.heap.length
  content : s.at k = x
  hinted : ∃ a, s.hinted = some a ∧ a < s.heap.length ∧ s.at a = x

end Game
