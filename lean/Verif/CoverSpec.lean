import Verif.Model.Sudoku

set_option autoImplicit false

/-!
# Exact covers

`K` are the things to be covered, `Y` says which of them a name covers.
-/

namespace Spec

variable {κ ρ : Type}

/-- In `Y`, the name `i` covers `j`. -/
def Covers (Y : List (ρ × List κ)) (i : ρ) (j : κ) : Prop := ∃ ks, (i, ks) ∈ Y ∧ j ∈ ks

/-- `T` consists of names which cover something, and everything in `K` is covered by exactly one name of `T`. -/
def ExactCover (K : List κ) (Y : List (ρ × List κ)) (T : Finset ρ) : Prop :=
  (∀ i ∈ T, ∃ j, Covers Y i j) ∧ ∀ j ∈ K, ∃! i, i ∈ T ∧ Covers Y i j

/-- An exact cover problem: names are given once, each with a list of different elements of `K`. -/
structure CoverProblem (K : List κ) (Y : List (ρ × List κ)) : Prop where
  names : (Y.map Prod.fst).Nodup
  nodup : ∀ p ∈ Y, p.2.Nodup
  sub : ∀ p ∈ Y, ∀ j ∈ p.2, j ∈ K

end Spec
