import Verif.Proofs.Game

set_option autoImplicit false

/-! # C54: `GameShell.autofill` -/

open Spec

namespace Props

open Game

/-- **C54** `autofill` comes to an end, if no empty field has the candidate 0 or numbers are not set automatically. -/
theorem C54_terminates (set : Settings) (verbose : Bool) (s : Sudoku) (out : List Event)
    (h : set.autoset = true → ∀ a, InGrid s.bw s.bh a → s.num a = 0 → (0 : Int) ∉ s.cand a) :
    ∃ rounds r, ∀ m, rounds ≤ m → autofill set verbose m s out = some r := by
  obtain ⟨r, hr⟩ := loop_ends set verbose (size s + 1) ⟨s, true, out⟩ h (Nat.lt_succ_self _)
  exact ⟨size s + 1, r, fun m hm => loop_mono set verbose _ _ hm _ hr⟩

/-- **C54** Otherwise it may go on for ever: an empty field with the only candidate 0 is "set" again and again. -/
theorem C54_forever (set : Settings) (hset : set.autoset = true) (verbose : Bool) (s : Sudoku) (h9 : verbose = true → s.bw * s.bh ≤ 9)
    (out : List Event) (a : Cell) (ha : InGrid s.bw s.bh a) (h0 : s.num a = 0) (hc : s.cand a = {0}) (rounds : Nat) :
    autofill set verbose rounds s out = none :=
  loop_forever set hset verbose rounds ⟨s, true, out⟩ h9 ha h0 hc

/-- **C54** Afterwards no field has the number of a filled peer among its candidates (`autoremove`), and no empty field has exactly
one candidate (`autoset`). -/
theorem C54_closed (set : Settings) (verbose : Bool) (rounds : Nat) (s : Sudoku) (out : List Event) (r : Fill)
    (hr : autofill set verbose rounds s out = some (r, none)) :
    (set.autoremove = true → ∀ a b, InGrid s.bw s.bh a → InGrid s.bw s.bh b → Peer s.bw s.bh a b → r.sudoku.num a ≠ 0 →
      r.sudoku.num a ∉ r.sudoku.cand b) ∧
    (set.autoset = true → ∀ a, InGrid s.bw s.bh a → r.sudoku.num a = 0 → (r.sudoku.cand a).card ≠ 1) := by
  have h1 : Shrinks s r.sudoku := loop_inv (keeps_shrinks set s) verbose rounds (s := ⟨s, true, out⟩) (Shrinks.refl s) hr
  obtain ⟨h2, h3⟩ := loop_closed set verbose rounds _ r hr
  rw [← h1.bw, ← h1.bh]
  refine ⟨fun hset a b ha hb hp hn => ?_, fun hset a ha hn hc => h3 hset a ((Sudoku.mem_cells _).2 ha) ⟨hn, hc⟩⟩
  exact h2 hset a ((Sudoku.mem_cells _).2 ha) hn b ((Sudoku.mem_surroundingOf_false _ ha).2 ⟨hb, hp⟩)

/-- **C54** Only empty fields are filled, each with one of its candidates; candidates are only removed. (Also if an exception was
raised on the way.) -/
theorem C54_only (set : Settings) (verbose : Bool) (rounds : Nat) (s : Sudoku) (out : List Event) (r : Fill × Option PyErr)
    (hr : autofill set verbose rounds s out = some r) :
    r.1.sudoku.bw = s.bw ∧ r.1.sudoku.bh = s.bh ∧
    (∀ a, r.1.sudoku.cand a ⊆ s.cand a) ∧ (∀ a, r.1.sudoku.num a = s.num a ∨ (s.num a = 0 ∧ r.1.sudoku.num a ∈ s.cand a)) := by
  have h1 : Shrinks s r.1.sudoku := loop_inv (keeps_shrinks set s) verbose rounds (s := ⟨s, true, out⟩) (Shrinks.refl s) hr
  exact ⟨h1.bw, h1.bh, h1.cand, h1.num⟩

/-- **C54** No solution is lost. -/
theorem C54_sound (set : Settings) (verbose : Bool) (rounds : Nat) (s : Sudoku) (out : List Event) (r : Fill × Option PyErr)
    (hr : autofill set verbose rounds s out = some r) (g : Grid) (hg : Contains s g) : Contains r.1.sudoku g := by
  have h1 : (r.1.sudoku.bw = s.bw ∧ r.1.sudoku.bh = s.bh) ∧ Contains r.1.sudoku g :=
    loop_inv (keeps_contains set s.bw s.bh g) verbose rounds (s := ⟨s, true, out⟩) ⟨⟨rfl, rfl⟩, hg⟩ hr
  exact h1.2

/-- **C54** The result with the settings a `GameShell` starts with: the numbers are left alone and from the candidates exactly the
numbers of the filled peers are removed. -/
theorem C54_default (set : Settings) (h1 : set.autoremove = true) (h2 : set.autoset = false) (verbose : Bool) (rounds : Nat) (s : Sudoku)
    (out : List Event) (r : Fill) (hr : autofill set verbose rounds s out = some (r, none)) :
    r.sudoku.num = s.num ∧ ∀ b, InGrid s.bw s.bh b → ∀ v, v ∈ r.sudoku.cand b ↔
      v ∈ s.cand b ∧ ¬ ∃ a, InGrid s.bw s.bh a ∧ Peer s.bw s.bh a b ∧ s.num a ≠ 0 ∧ s.num a = v := by
  have h3 := loop_inv (keeps_exact set h2 s) verbose rounds (s := ⟨s, true, out⟩)
    ⟨⟨rfl, rfl⟩, rfl, fun b => ⟨Finset.Subset.refl _, fun v hv hn => absurd hv hn⟩⟩ hr
  obtain ⟨_, h4, h5⟩ := h3
  obtain ⟨h6, _⟩ := C54_closed set verbose rounds s out r hr
  refine ⟨h4, fun b hb v => ⟨fun hv => ⟨(h5 b).1 hv, ?_⟩, fun ⟨hv, hn⟩ => ?_⟩⟩
  · rintro ⟨a, ha, hp, hn, rfl⟩
    have := h6 h1 a b ha hb hp (by rw [h4]; exact hn)
    rw [h4] at this
    exact this hv
  · by_contra hcon
    exact hn ((h5 b).2 v hv hcon)

/-- **C54** No exception for sudokus up to 9 by 9, or if nothing is printed. -/
theorem C54_no_exception (set : Settings) (verbose : Bool) (rounds : Nat) (s : Sudoku) (h9 : verbose = true → s.bw * s.bh ≤ 9)
    (out : List Event) (r : Fill × Option PyErr) (hr : autofill set verbose rounds s out = some r) : r.2 = none :=
  loop_none set verbose rounds ⟨s, true, out⟩ h9 hr

/-- A sudoku of size 10 with a number in the last field, which is a candidate of the field above it. -/
def big : Sudoku := { bw := 5, bh := 2, num := fun a => if a = (9, 9) then 1 else 0, cand := fun a => if a = (8, 9) then {1, 2} else ∅ }

/-- **C54** For larger sudokus the line to be printed may raise a `ValueError`, as the fields are encoded as if the sudoku were 9
by 9 (shell.py:174); the candidate has been removed by then. -/
theorem C54_exception : ((autofill {} true 1 big []).map fun r => (r.2, r.1.sudoku.cand (8, 9), r.1.out)) = some (some .ValueError, {2}, []) := by
  decide +kernel

/-- A 2 by 2 sudoku with a 1 in the first field. -/
def small : Sudoku := { bw := 2, bh := 1, num := fun a => if a = (0, 0) then 1 else 0, cand := fun _ => {1, 2} }

example : ((autofill { autoset := true } true 9 small []).map fun r => (r.2, r.1.sudoku.num (0, 1), r.1.sudoku.num (1, 0), r.1.sudoku.num (1, 1), r.1.out)) =
    some (none, 2, 2, 1, [.text "autoremove: b1p24<>1".toList, .text "autoset: r1c2=2".toList, .text "autoset: r2c1=2".toList,
      .text "autoremove: b1p15<>2".toList, .text "autoset: r2c2=1".toList]) := by
  decide +kernel

/-- `C54_terminates` applies to `small`. -/
example : ∃ rounds r, ∀ m, rounds ≤ m → autofill { autoset := true } true m small [] = some r :=
  C54_terminates _ _ _ _ fun _ a _ _ => show (0 : Int) ∉ ({1, 2} : Finset Int) by decide

/-- `C54_forever` applies, when the only candidate left is 0. -/
example (rounds : Nat) : autofill { autoset := true } true rounds { small with cand := fun _ => {0} } [] = none :=
  C54_forever _ rfl _ _ (fun _ => by decide) _ (1, 1) (by decide) rfl rfl rounds

end Props
