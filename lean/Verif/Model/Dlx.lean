import Verif.Model.Sudoku
import Mathlib.Data.List.Dedup

set_option autoImplicit false

/-!
# `sudokutools/dlx.py`, `solve.dlx` and `analyze.is_unique`

`X` is a dict from columns to sets of rows, changed in place.  It is modelled as the list of its items; the functions
return the new dict.  A Python set of rows is a list without repetitions.  The iteration orders of `X` (dict) and `X[c]`
(set) are left open by the oracle `Orders`.
-/

open Spec

namespace Dlx

/-- The tuples `("rc", (r, c))`, `("rn", (r, n))`, `("cn", (c, n))`, `("bn", (b, n))`: dlx.py:27-30. -/
inductive Col
  | rc (r c : Nat) | rn (r : Nat) (n : Int) | cn (c : Nat) (n : Int) | bn (b : Nat) (n : Int)
  deriving DecidableEq

/-- `(r, c, n)`: dlx.py:33. -/
abbrev Row := Nat × Nat × Int

/-- Python dict. -/
abbrev Dict (κ ν : Type) := List (κ × ν)

/-- `d[k]`. -/
def Dict.get {κ ν : Type} [DecidableEq κ] (d : Dict κ ν) (k : κ) : Except PyErr ν :=
  match List.lookup k d with
  | some v => .ok v
  | none => .error .KeyError

/-- `d[k].method(..)` for a mutable value: replaces the value, `KeyError` if there is none. -/
def Dict.modify {κ ν : Type} [DecidableEq κ] (d : Dict κ ν) (k : κ) (f : ν → Except PyErr ν) :
    Except PyErr (Dict κ ν) :=
  match List.lookup k d with
  | none => .error .KeyError
  | some v => match f v with
    | .error e => .error e
    | .ok v' => .ok (List.map (fun p => if p.1 = k then (k, v') else p) d)

/-- `d.pop(k)`. -/
def Dict.pop {κ ν : Type} [DecidableEq κ] (d : Dict κ ν) (k : κ) : Except PyErr (ν × Dict κ ν) :=
  match List.lookup k d with
  | none => .error .KeyError
  | some v => .ok (v, List.filter (fun p => p.1 ≠ k) d)

/-- `d[k] = v`. -/
def Dict.set {κ ν : Type} [DecidableEq κ] (d : Dict κ ν) (k : κ) (v : ν) : Dict κ ν :=
  match List.lookup k d with
  | none => d ++ [(k, v)]
  | some _ => List.map (fun p => if p.1 = k then (k, v) else p) d

/-! ## Exact covers

The functions work for any columns `κ` and rows `ρ`; `do_dlx` uses them with the columns and rows of a sudoku. -/

section
variable {κ ρ : Type} [DecidableEq κ] [DecidableEq ρ]

/-- `set.add`. -/
def setAdd (i : ρ) (l : List ρ) : Except PyErr (List ρ) := .ok (if i ∈ l then l else l ++ [i])

/-- `set.remove`. -/
def setRemove (i : ρ) (l : List ρ) : Except PyErr (List ρ) :=
  if i ∈ l then .ok (l.erase i) else .error .KeyError

/-- dlx.py:57-62 `exact_cover`. -/
def exactCover (X : List κ) (Y : Dict ρ (List κ)) : Except PyErr (Dict κ (List ρ)) :=
  Y.foldlM (fun X p => p.2.foldlM (fun X j => Dict.modify X j (setAdd p.1)) X) (X.dedup.map fun j => (j, []))

/-- dlx.py:83-85. -/
def removeRow (Y : Dict ρ (List κ)) (j : κ) (X : Dict κ (List ρ)) (i : ρ) : Except PyErr (Dict κ (List ρ)) := do
  let ks ← Dict.get Y i
  ks.foldlM (fun X k => if k ≠ j then Dict.modify X k (setRemove i) else .ok X) X

/-- dlx.py:81-86: the body of the loop of `select`. -/
def selStep (Y : Dict ρ (List κ)) (p : Dict κ (List ρ) × List (List ρ)) (j : κ) :
    Except PyErr (Dict κ (List ρ) × List (List ρ)) := do
  let is ← Dict.get p.1 j
  let X ← is.foldlM (removeRow Y j) p.1
  let (v, X) ← Dict.pop X j
  pure (X, v :: p.2)

/-- dlx.py:79-87 `select`; the second component is the list `cols`, last item first. -/
def select (X : Dict κ (List ρ)) (Y : Dict ρ (List κ)) (r : ρ) :
    Except PyErr (Dict κ (List ρ) × List (List ρ)) := do
  let js ← Dict.get Y r
  js.foldlM (selStep Y) (X, [])

/-- dlx.py:94-96. -/
def addRow (Y : Dict ρ (List κ)) (j : κ) (X : Dict κ (List ρ)) (i : ρ) : Except PyErr (Dict κ (List ρ)) := do
  let ks ← Dict.get Y i
  ks.foldlM (fun X k => if k ≠ j then Dict.modify X k (setAdd i) else .ok X) X

/-- dlx.py:91-96: the body of the loop of `deselect`; `cols.pop()` takes the last item, which comes first here. -/
def deselStep (Y : Dict ρ (List κ)) (p : Dict κ (List ρ) × List (List ρ)) (j : κ) :
    Except PyErr (Dict κ (List ρ) × List (List ρ)) :=
  match p.2 with
  | [] => .error .IndexError
  | v :: cols => do
    let X := Dict.set p.1 j v
    let is ← Dict.get X j
    let X ← is.foldlM (addRow Y j) X
    pure (X, cols)

/-- dlx.py:90-96 `deselect`; `cols` last item first. -/
def deselect (X : Dict κ (List ρ)) (Y : Dict ρ (List κ)) (r : ρ) (cols : List (List ρ)) :
    Except PyErr (Dict κ (List ρ)) := do
  let js ← Dict.get Y r
  let p ← js.reverse.foldlM (deselStep Y) (X, cols)
  pure p.1

/-- Iteration orders at each node of the search (named by the partial solution): the keys of `X` and the rows of `X[c]`. -/
structure OrdersOf (κ ρ : Type) where
  keys : List ρ → List κ → List κ
  rows : List ρ → List ρ → List ρ

/-- Iterations visit each element once. -/
def OrdersOf.Ok {κ ρ : Type} (π : OrdersOf κ ρ) : Prop := (∀ p l, (π.keys p l).Perm l) ∧ ∀ p l, (π.rows p l).Perm l

/-- `min(keys, key=lambda c: len(X[c]))`: the first key with minimal length. -/
def minKey (X : Dict κ (List ρ)) : List κ → Option κ
  | [] => none
  | k :: ks => match minKey X ks with
    | none => some k
    | some k' =>
      if ((List.lookup k X).getD []).length ≤ ((List.lookup k' X).getD []).length then some k else some k'

/-- dlx.py:70-76: the loop over `list(X[c])`. -/
def searchLoop (rec : Dict κ (List ρ) → List ρ → Except PyErr (List (List ρ) × Dict κ (List ρ)))
    (Y : Dict ρ (List κ)) : List ρ → Dict κ (List ρ) → List ρ →
    Except PyErr (List (List ρ) × Dict κ (List ρ))
  | [], X, _ => .ok ([], X)
  | r :: rs, X, solution =>
    match select X Y r with
    | .error e => .error e
    | .ok (X, cols) => match rec X (solution ++ [r]) with
      | .error e => .error e
      | .ok (sols, X) => match deselect X Y r cols with
        | .error e => .error e
        | .ok X => match searchLoop rec Y rs X solution with
          | .error e => .error e
          | .ok (sols', X) => .ok (sols ++ sols', X)

/-- dlx.py:65-76 `solve`: the yielded lists and `X` when the generator is exhausted.  `fuel` is the recursion limit. -/
def search (π : OrdersOf κ ρ) (Y : Dict ρ (List κ)) : Nat → Dict κ (List ρ) → List ρ →
    Except PyErr (List (List ρ) × Dict κ (List ρ))
  | 0, _, _ => .error .RecursionError
  | fuel + 1, X, solution =>
    match minKey X (π.keys solution (X.map Prod.fst)) with
    | none => .ok ([solution], X)
    | some c => match Dict.get X c with
      | .error e => .error e
      | .ok rs => searchLoop (search π Y fuel) Y (π.rows solution rs) X solution

end

/-! ## The columns and rows of a sudoku -/

/-- Iteration orders for the columns and rows of a sudoku. -/
abbrev Orders := OrdersOf Col Row

/-- dlx.py:33-39: the value of `Y[(r, c, n)]`; `R` is the box height, `C` the box width. -/
def colsOf (R C : Nat) (i : Row) : List Col :=
  let b := (i.1 / R) * R + i.2.1 / C
  [.rc i.1 i.2.1, .rn i.1 i.2.2, .cn i.2.1 i.2.2, .bn b i.2.2]

/-- `range(1, N + 1)`. -/
def numbers (N : Nat) : List Int := (List.range N).map fun (k : Nat) => (k : Int) + 1

/-- dlx.py:27-30: the list `X`. -/
def columns (N : Nat) : List Col :=
  (Coordinates.product (List.range N) (List.range N)).map (fun p => .rc p.1 p.2) ++
  (Coordinates.product (List.range N) (numbers N)).map (fun p => .rn p.1 p.2) ++
  (Coordinates.product (List.range N) (numbers N)).map (fun p => .cn p.1 p.2) ++
  (Coordinates.product (List.range N) (numbers N)).map (fun p => .bn p.1 p.2)

/-- dlx.py:33: `product(range(N), range(N), range(1, N + 1))`. -/
def rows (N : Nat) : List Row :=
  Coordinates.product (List.range N) (Coordinates.product (List.range N) (numbers N))

/-- dlx.py:32-39: the dict `Y`. -/
def matrix (R C : Nat) : Dict Row (List Col) := (rows (R * C)).map fun i => (i, colsOf R C i)

/-- dlx.py:42-49: selecting the given numbers; `none`: the `KeyError` was caught and `do_dlx` returned. -/
def selectGiven (s : Sudoku) (Y : Dict Row (List Col)) : List Cell → Dict Col (List Row) →
    Except PyErr (Option (Dict Col (List Row)))
  | [], X => .ok (some X)
  | a :: l, X =>
    let n := s.get a
    if n ≠ 0 then
      match select X Y (a.1, a.2, n) with
      | .error .KeyError => .ok none
      | .error e => .error e
      | .ok (X, _) => selectGiven s Y l X
    else selectGiven s Y l X

/-- dlx.py:52-54 with the consumer solve.py:74-75, which copies each yielded sudoku at once: the copies. -/
def writeSolutions : List (List Row) → Sudoku → List Sudoku
  | [], _ => []
  | sol :: sols, s =>
    let s := sol.foldl (fun s (i : Row) => s.setNumber (i.1, i.2.1) i.2.2) s
    s.copy :: writeSolutions sols s

/-- solve.py:64-75 `dlx` and dlx.py:23-54 `do_dlx`: all yielded sudokus.  The consumer only looks at the yielded copies, so
running the generator to the end first is the same as stopping early, as far as the items seen are concerned. -/
def dlx (π : Orders) (fuel : Nat) (s : Sudoku) : Except PyErr (List Sudoku) :=
  let s := s.copy
  let R := s.bh
  let C := s.bw
  let N := R * C
  let Y := matrix R C
  match exactCover (columns N) Y with
  | .error e => .error e
  | .ok X => match selectGiven s Y s.cells X with
    | .error e => .error e
    | .ok none => .ok []
    | .ok (some X) => match search π Y fuel X [] with
      | .error e => .error e
      | .ok (sols, _) => .ok (writeSolutions sols s)

/-- analyze.py:94-117 `is_unique`: two calls of `next`. -/
def isUnique (π : Orders) (fuel : Nat) (s : Sudoku) : Except PyErr Bool :=
  match dlx π fuel s with
  | .error e => .error e
  | .ok [] => .ok false
  | .ok [_] => .ok true
  | .ok (_ :: _ :: _) => .ok false

end Dlx
