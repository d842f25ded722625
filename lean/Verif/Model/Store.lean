import Verif.Model.Sudoku

set_option autoImplicit false

/-!
# `sudokutools/sudoku.py`: the lists behind a `Sudoku`, with references

`Sudoku` objects hold lists of row lists.  Rows are mutable Python objects, so two sudokus (or two rows of one sudoku)
could share one.  Here the rows live in a heap and objects hold addresses; an address is a position in `Heap.nums` /
`Heap.cands`.  The outer lists are never changed after `__init__` and are stored in the object.  The elements of the
candidate rows are frozensets, hence values.
-/

open Spec

namespace Store

/-- The position meant by the Python index `i` in a list of length `n`: negative indices count from the end;
`none` stands for `IndexError`. -/
def pyIdx (n : Nat) (i : Int) : Option Nat :=
  if 0 ≤ i ∧ i < n then some i.toNat
  else if -(n : Int) ≤ i ∧ i < 0 then some (n + i).toNat
  else none

/-- `l[i]`. -/
def pyGet {α : Type} (l : List α) (i : Int) : Except PyErr α :=
  match pyIdx l.length i with
  | none => .error .IndexError
  | some k => match l[k]? with
    | none => .error .IndexError
    | some x => .ok x

/-- The row at an address. -/
def deref {α : Type} (rows : List (List α)) (r : Nat) : List α := rows.getD r []

/-- `refs[i][j]`, where `refs` is the outer list (of addresses). -/
def arrGet {α : Type} (rows : List (List α)) (refs : List Nat) (i j : Int) : Except PyErr α :=
  match pyGet refs i with
  | .error e => .error e
  | .ok r => pyGet (deref rows r) j

/-- `refs[i][j] = v`: the new heap. -/
def arrSet {α : Type} (rows : List (List α)) (refs : List Nat) (i j : Int) (v : α) : Except PyErr (List (List α)) :=
  match pyGet refs i with
  | .error e => .error e
  | .ok r => match pyIdx (deref rows r).length j with
    | none => .error .IndexError
    | some k => .ok (rows.set r ((deref rows r).set k v))

/-- All row lists of the running program. -/
structure Heap where
  nums : List (List Int)
  cands : List (List (Finset Int))

/-- sudoku.py:51-67: an instance. -/
structure Obj where
  bw : Nat
  bh : Nat
  numRows : List Nat
  candRows : List Nat

/-- sudoku.py:51-67 `__init__`: `len(indices)` fresh rows of zeros and as many of empty frozensets.
(`box_size` that is not a pair is rejected before; not modelled.) -/
def init (H : Heap) (bw bh : Nat) : Heap × Obj :=
  let n := bw * bh
  ({ nums := H.nums ++ List.replicate n (List.replicate n 0)
     cands := H.cands ++ List.replicate n (List.replicate n ∅) },
   { bw, bh
     numRows := List.range' H.nums.length n
     candRows := List.range' H.cands.length n })

/-- sudoku.py:172-186 `__getitem__`. -/
def getNumber (H : Heap) (o : Obj) (i j : Int) : Except PyErr Int := arrGet H.nums o.numRows i j

/-- sudoku.py:188-201 `__setitem__`. -/
def setNumber (H : Heap) (o : Obj) (i j : Int) (v : Int) : Except PyErr Heap :=
  match arrSet H.nums o.numRows i j v with
  | .error e => .error e
  | .ok rows => .ok { H with nums := rows }

/-- sudoku.py:219-229 `get_candidates`. -/
def getCandidates (H : Heap) (o : Obj) (i j : Int) : Except PyErr (Finset Int) := arrGet H.cands o.candRows i j

/-- sudoku.py:231-240 `set_candidates`; the iterable is a list. -/
def setCandidates (H : Heap) (o : Obj) (i j : Int) (v : Finset Int) : Except PyErr Heap :=
  match arrSet H.cands o.candRows i j v with
  | .error e => .error e
  | .ok rows => .ok { H with cands := rows }

/-- sudoku.py:242-252 `remove_candidates`: `self.__candidates[row][col] -= set(value)` reads, subtracts and stores
(frozensets have no in-place subtraction). -/
def removeCandidates (H : Heap) (o : Obj) (i j : Int) (v : Finset Int) : Except PyErr Heap :=
  match arrGet H.cands o.candRows i j with
  | .error e => .error e
  | .ok c => setCandidates H o i j (c \ v)

/-- sudoku.py:133-135: the first loop of `copy`. -/
def copyNumbers (o t : Obj) : List Cell → Heap → Except PyErr Heap
  | [], H => .ok H
  | a :: l, H => match getNumber H o a.1 a.2 with
    | .error e => .error e
    | .ok v => match setNumber H t a.1 a.2 v with
      | .error e => .error e
      | .ok H' => copyNumbers o t l H'

/-- sudoku.py:137-140: the second loop of `copy`. -/
def copyCandidates (o t : Obj) : List Cell → Heap → Except PyErr Heap
  | [], H => .ok H
  | a :: l, H => match getCandidates H o a.1 a.2 with
    | .error e => .error e
    | .ok v => match setCandidates H t a.1 a.2 v with
      | .error e => .error e
      | .ok H' => copyCandidates o t l H'

/-- sudoku.py:69-75 `__iter__`. -/
def cells (o : Obj) : List Cell := Coordinates.product (List.range (o.bw * o.bh)) (List.range (o.bw * o.bh))

/-- sudoku.py:124-142 `copy`. -/
def copy (H : Heap) (o : Obj) (includeCandidates : Bool) : Except PyErr (Heap × Obj) :=
  let (H, t) := init H o.bw o.bh
  match copyNumbers o t (cells o) H with
  | .error e => .error e
  | .ok H =>
    if includeCandidates then
      match copyCandidates o t (cells o) H with
      | .error e => .error e
      | .ok H => .ok (H, t)
    else .ok (H, t)

/-- The calls of a program using `Sudoku` objects; `k` names the `k`-th object created. -/
inductive Cmd
  | new (bw bh : Nat)
  | copy (k : Nat) (includeCandidates : Bool)
  | setNumber (k : Nat) (i j v : Int)
  | setCandidates (k : Nat) (i j : Int) (v : List Int)
  | removeCandidates (k : Nat) (i j : Int) (v : List Int)

/-- Heap and all objects created so far. -/
structure State where
  heap : Heap
  objs : List Obj

/-- The start of the program. -/
def State.start : State := ⟨⟨[], []⟩, []⟩

/-- A write call on object `k`. (`k` not yet created cannot be written in a program: no effect.) -/
def State.write (σ : State) (k : Nat) (f : Obj → Except PyErr Heap) : State × Except PyErr Unit :=
  match σ.objs[k]? with
  | none => (σ, .ok ())
  | some o => match f o with
    | .error e => (σ, .error e)
    | .ok H => ({ σ with heap := H }, .ok ())

/-- One call; the exception, if any, is part of the result. -/
def exec (σ : State) : Cmd → State × Except PyErr Unit
  | .new bw bh => let (H, o) := init σ.heap bw bh; (⟨H, σ.objs ++ [o]⟩, .ok ())
  | .copy k ic => match σ.objs[k]? with
    | none => (σ, .ok ())
    | some o => match copy σ.heap o ic with
      | .error e => (σ, .error e)
      | .ok (H, t) => (⟨H, σ.objs ++ [t]⟩, .ok ())
  | .setNumber k i j v => σ.write k fun o => setNumber σ.heap o i j v
  | .setCandidates k i j v => σ.write k fun o => setCandidates σ.heap o i j v.toFinset
  | .removeCandidates k i j v => σ.write k fun o => removeCandidates σ.heap o i j v.toFinset

/-- A program; a caller catches every exception and goes on. -/
def run (σ : State) : List Cmd → State × List (Except PyErr Unit)
  | [] => (σ, [])
  | c :: cs => let (σ', r) := exec σ c; let (σ'', rs) := run σ' cs; (σ'', r :: rs)

end Store
