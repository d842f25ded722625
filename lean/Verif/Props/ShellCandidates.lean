import Verif.Props.Arguments

set_option autoImplicit false

/-!
# C84: candidates, `encode` and `view` with arguments in the shell
-/

open Spec

namespace Props

open Shell

variable {ν ω : Type} {lib : Lib Sudoku ν ω} {val : Val → ν} {π : Solve.SetOrder} {fuel : Nat}

private theorem call_line (hr : Real lib val π fuel) (i : Bool) (w : String) (name : Name) (hw : command? w.toList = some name) (hn : IsLibrary name)
    (ht : name.takesSudoku = true) (items : List Item) (hi : ∀ x ∈ items, x.Ok) (vs : List (Arg Val)) (h : LineBinds name items vs)
    (s : State Sudoku ν ω) (hl : s.loopN = none) (y : Sudoku) (r : Except PyErr (Result Sudoku)) (hc : callFn π fuel (s.sudoku lib) name vs = some (y, r)) :
    (r = .ok .none → executeLine lib i (itemText w items) s = ({ s with heap := s.heap.set s.cur y }, none)) ∧
    (∀ t, r = .ok (.text t) → executeLine lib i (itemText w items) s =
      ({ s with heap := s.heap.set s.cur y, out := s.out ++ [.text (t ++ ['\n'])] }, none)) ∧
    (∀ e, r = .error e → executeLine lib i (itemText w items) s = error i (.exn e) { s with heap := s.heap.set s.cur y }) := by
  have h0 := (item_execute hr i w name hw hn items hi s hl).trans (library lib i ⟨name, _, _⟩ hn s)
  simp only [if_pos ht] at h0
  rw [hr.call _ _ _ _ _ _ _ _ ht (((line_binds name items).1 vs).2 h) hc] at h0
  refine ⟨fun hr => ?_, fun t hr => ?_, fun e hr => ?_⟩ <;> subst hr <;> exact h0

private theorem changed (s : State Sudoku ν ω) (hs : Separate s) (y : Sudoku) :
    let t : State Sudoku ν ω := { s with heap := s.heap.set s.cur y }
    t.sudoku lib = y ∧ stackValues lib t = stackValues lib s := by
  refine ⟨?_, ?_⟩
  · unfold State.sudoku
    simp only
    rw [List.getD_eq_getElem?_getD, List.getElem?_set_self hs.cur]
    rfl
  · unfold stackValues
    simp only
    refine List.map_congr_left fun a ha => ?_
    rw [List.getD_eq_getElem?_getD, List.getD_eq_getElem?_getD, List.getElem?_set_ne (fun h : s.cur = a => hs.apart (by rw [h]; exact ha))]

/-- The line changes the current sudoku to one with the same numbers and the candidates `cand`, and nothing else. -/
def NewCandidates (lib : Lib Sudoku ν ω) (i : Bool) (line : List Char) (s : State Sudoku ν ω) (cand : Cell → Finset Int) : Prop :=
  ∃ t, executeLine lib i line s = (t, none) ∧ (t.sudoku lib).bw = (s.sudoku lib).bw ∧ (t.sudoku lib).bh = (s.sudoku lib).bh ∧
    (∀ a, InGrid (s.sudoku lib).bw (s.sudoku lib).bh a → (t.sudoku lib).get a = (s.sudoku lib).get a ∧ (t.sudoku lib).getCandidates a = cand a) ∧
    stackValues lib t = stackValues lib s ∧ t.out = s.out ∧ t.errors = s.errors

/-- **C84** `set_candidates row col collection` replaces the candidates of the field, and changes nothing else; outside of the grid an error is reported. -/
theorem C84_set (hr : Real lib val π fuel) (i : Bool) (s : State Sudoku ν ω) (hs : Separate s) (hl : s.loopN = none) (items : List Item)
    (hi : ∀ x ∈ items, x.Ok) (r c : Int) (kind : Kind) (l : List Int)
    (hb : LineBinds .setCandidates items [.value (.int r), .value (.int c), .value (.ints kind l)]) :
    (∀ a, Actions.locate (s.sudoku lib) (r, c) = .ok a → NewCandidates lib i (itemText "set_candidates" items) s fun b =>
      if b = a then l.toFinset else (s.sudoku lib).getCandidates b) ∧
    (∀ e, Actions.locate (s.sudoku lib) (r, c) = .error e → executeLine lib i (itemText "set_candidates" items) s = error i (.exn e) s) := by
  constructor
  · intro a ha
    have h := (call_line hr i "set_candidates" .setCandidates rfl (by simp [IsLibrary]) rfl items hi _ hb s hl ((s.sudoku lib).setCandidates a l.toFinset) (.ok .none)
      (by simp [callFn, setCandidatesFn, ha])).1 rfl
    obtain ⟨h1, h2⟩ := changed (lib := lib) s hs ((s.sudoku lib).setCandidates a l.toFinset)
    refine ⟨_, h, ?_, ?_, ?_, h2, rfl, rfl⟩
    · rw [h1]; rfl
    · rw [h1]; rfl
    · rw [h1]; exact fun b _ => ⟨rfl, rfl⟩
  · intro e he
    have h := (call_line hr i "set_candidates" .setCandidates rfl (by simp [IsLibrary]) rfl items hi _ hb s hl (s.sudoku lib) (.error e)
      (by simp [callFn, setCandidatesFn, he])).2.2 e rfl
    rwa [set_self s hs] at h

/-- **C84** `remove_candidates row col collection` removes these candidates from the field, and changes nothing else; outside of the grid an error is
reported. -/
theorem C84_remove (hr : Real lib val π fuel) (i : Bool) (s : State Sudoku ν ω) (hs : Separate s) (hl : s.loopN = none) (items : List Item)
    (hi : ∀ x ∈ items, x.Ok) (r c : Int) (kind : Kind) (l : List Int)
    (hb : LineBinds .removeCandidates items [.value (.int r), .value (.int c), .value (.ints kind l)]) :
    (∀ a, Actions.locate (s.sudoku lib) (r, c) = .ok a → NewCandidates lib i (itemText "remove_candidates" items) s fun b =>
      if b = a then (s.sudoku lib).getCandidates a \ l.toFinset else (s.sudoku lib).getCandidates b) ∧
    (∀ e, Actions.locate (s.sudoku lib) (r, c) = .error e → executeLine lib i (itemText "remove_candidates" items) s = error i (.exn e) s) := by
  constructor
  · intro a ha
    have h := (call_line hr i "remove_candidates" .removeCandidates rfl (by simp [IsLibrary]) rfl items hi _ hb s hl
      ((s.sudoku lib).removeCandidates a l.toFinset) (.ok .none) (by simp [callFn, removeCandidatesFn, ha])).1 rfl
    obtain ⟨h1, h2⟩ := changed (lib := lib) s hs ((s.sudoku lib).removeCandidates a l.toFinset)
    refine ⟨_, h, ?_, ?_, ?_, h2, rfl, rfl⟩
    · rw [h1]; rfl
    · rw [h1]; rfl
    · rw [h1]; exact fun b _ => ⟨rfl, rfl⟩
  · intro e he
    have h := (call_line hr i "remove_candidates" .removeCandidates rfl (by simp [IsLibrary]) rfl items hi _ hb s hl (s.sudoku lib) (.error e)
      (by simp [callFn, removeCandidatesFn, he])).2.2 e rfl
    rwa [set_self s hs] at h

/-- **C84** A single number instead of a collection is an error, and changes nothing. -/
theorem C84_number (hr : Real lib val π fuel) (i : Bool) (s : State Sudoku ν ω) (hs : Separate s) (hl : s.loopN = none) (w : String)
    (hw : w = "set_candidates" ∨ w = "remove_candidates") (r c v : Int) :
    ∃ e, executeLine lib i (commandText w [r, c, v]) s = error i (.exn e) s := by
  have hi : ∀ x ∈ [r, c, v].map (fun k => Item.pos (Py.intStr k) (.int k)), x.Ok := by
    intro x hx
    obtain ⟨k, _, rfl⟩ := List.mem_map.1 hx
    exact ⟨literal_int k, int_word k, int_char (by decide) (by decide) k⟩
  rw [commandText_eq]
  rcases hw with rfl | rfl
  · have h := (call_line hr i "set_candidates" .setCandidates rfl (by simp [IsLibrary]) rfl _ hi _ (((line_binds .setCandidates _).1 _).1 rfl) s hl
      (s.sudoku lib) (.error .TypeError) rfl).2.2 _ rfl
    rw [set_self s hs] at h
    exact ⟨_, h⟩
  · have h0 : ∃ e, callFn π fuel (s.sudoku lib) .removeCandidates [.value (.int r), .value (.int c), .value (.int v)] = some (s.sudoku lib, .error e) := by
      cases hc : Actions.locate (s.sudoku lib) (r, c) with
      | ok a => exact ⟨.TypeError, by simp [callFn, removeCandidatesFn, hc]⟩
      | error e => exact ⟨e, by simp [callFn, removeCandidatesFn, hc]⟩
    obtain ⟨e, he⟩ := h0
    have h := (call_line hr i "remove_candidates" .removeCandidates rfl (by simp [IsLibrary]) rfl _ hi _ (((line_binds .removeCandidates _).1 _).1 rfl) s hl
      _ _ he).2.2 _ rfl
    rw [set_self s hs] at h
    exact ⟨_, h⟩

/-- **C84** `init_candidates`, or with an argument: a filled field gets its number as only candidate; an empty field the numbers that are in none of its
peers, or stays as it is if the argument is true. -/
theorem C84_init (hr : Real lib val π fuel) (i : Bool) (s : State Sudoku ν ω) (hs : Separate s) (hl : s.loopN = none) (items : List Item)
    (hi : ∀ x ∈ items, x.Ok) (f : Arg Val) (hb : LineBinds .initCandidates items [f]) :
    NewCandidates lib i (itemText "init_candidates" items) s fun b =>
      if f.truth = false ∨ (s.sudoku lib).get b ≠ 0 then Solve.calcCandidates (s.sudoku lib) b else (s.sudoku lib).getCandidates b := by
  have h := (call_line hr i "init_candidates" .initCandidates rfl (by simp [IsLibrary]) rfl items hi _ hb s hl (Solve.initCandidates (s.sudoku lib) f.truth)
    (.ok .none) rfl).1 rfl
  obtain ⟨h1, h2⟩ := changed (lib := lib) s hs (Solve.initCandidates (s.sudoku lib) f.truth)
  obtain ⟨g1, g2, g3, g4⟩ := C14_init (s.sudoku lib) f.truth
  refine ⟨_, h, ?_, ?_, ?_, h2, rfl, rfl⟩
  · rw [h1, g1]
  · rw [h1, g2]
  · rw [h1]; exact fun b hb => ⟨g3 b, g4 b hb⟩

/-- **C84** `encode` with separators, and with or without candidates, prints what the function returns, and changes nothing. -/
theorem C84_encode (hr : Real lib val π fuel) (i : Bool) (s : State Sudoku ν ω) (hs : Separate s) (hl : s.loopN = none) (items : List Item)
    (hi : ∀ x ∈ items, x.Ok) (rowSep colSep : List Char) (f : Arg Val) (hb : LineBinds .encode items [.value (.str rowSep), .value (.str colSep), f]) :
    executeLine lib i (itemText "encode" items) s =
      ({ s with out := s.out ++ [.text (Codec.encode (s.sudoku lib) rowSep colSep f.truth ++ ['\n'])] }, none) := by
  have h := (call_line hr i "encode" .encode rfl (by simp [IsLibrary]) rfl items hi _ hb s hl _ _ rfl).2.1 _ rfl
  rwa [set_self s hs] at h

/-- **C84** `view` with or without candidates, with another prefix or alignment prints what the function returns, and changes nothing; `number_sep` has no
effect. -/
theorem C84_view (hr : Real lib val π fuel) (i : Bool) (s : State Sudoku ν ω) (hs : Separate s) (hl : s.loopN = none) (items : List Item)
    (hi : ∀ x ∈ items, x.Ok) (f sep right : Arg Val) (prefix_ : List Char) (hb : LineBinds .view items [f, sep, .value (.str prefix_), right])
    (t : List Char) (ht : Codec.view (s.sudoku lib) f.truth prefix_ right.truth = .ok t) :
    executeLine lib i (itemText "view" items) s = ({ s with out := s.out ++ [.text (t ++ ['\n'])] }, none) := by
  have h := (call_line hr i "view" .view rfl (by simp [IsLibrary]) rfl items hi _ hb s hl (s.sudoku lib) (.ok (.text t))
    (by simp [callFn, ht, ofText])).2.1 _ rfl
  rwa [set_self s hs] at h

/-! ## Samples -/

private def sortedOrder : Solve.SetOrder := fun _ S => Solvers.sortSet S
private def demo' : Lib Sudoku Val Unit := demo sortedOrder 100
private def start : State Sudoku Val Unit := init demo' true ()
private def after (l : List String) : State Sudoku Val Unit := (seq (executeLine demo' true) (l.map String.toList) start).1

private theorem start_separate : Separate start := (separate_init demo' true ()).1
private def change : List Item := [.pos "0".toList (.int 0), .pos "-1".toList (.int (-1)), .key "value".toList "{1,2}".toList (.ints .set [1, 2])]
private theorem change_ok : ∀ x ∈ change, x.Ok := by
  intro x hx
  simp only [change, List.mem_cons, List.not_mem_nil, or_false] at hx
  rcases hx with rfl | rfl | rfl
  · exact ⟨by decide +kernel, by unfold Word; decide +kernel, by decide⟩
  · exact ⟨by decide +kernel, by unfold Word; decide +kernel, by decide⟩
  · exact ⟨by decide +kernel, by unfold Word; decide +kernel, by unfold Word; decide +kernel, by decide⟩
example : itemText "set_candidates" change = "set_candidates 0 -1 value={1,2}".toList := by decide +kernel
example := C84_set (demo_real sortedOrder 100) true start start_separate rfl change change_ok 0 (-1) .set [1, 2] (((line_binds .setCandidates change).1 _).1 rfl)
example := C84_remove (demo_real sortedOrder 100) true start start_separate rfl change change_ok 0 (-1) .set [1, 2]
  (((line_binds .removeCandidates change).1 _).1 rfl)
-- the last field of the first row; the others stay
example : ((after ["set_candidates 0 -1 value={1,2}"]).sudoku demo').getCandidates (0, 8) = {1, 2} ∧
    ((after ["set_candidates 0 -1 value={1,2}"]).sudoku demo').getCandidates (0, 7) = ∅ := by decide +kernel
example : ((after ["init_candidates", "remove_candidates 0 1 1,2,3"]).sudoku demo').getCandidates (0, 1) = {4, 5, 6, 7, 8, 9} := by decide +kernel
example : (after ["set_candidates 0 0 5", "remove_candidates 0 0 5", "remove_candidates 9 0 5", "set_candidates 9 0 5"]).errors =
    [.exn .TypeError, .exn .TypeError, .exn .IndexError, .exn .TypeError] := by decide +kernel
example : ((after ["set 0 0 5", "init_candidates True"]).sudoku demo').getCandidates (0, 0) = {5} ∧
    ((after ["set 0 0 5", "init_candidates True"]).sudoku demo').getCandidates (0, 1) = ∅ ∧
    ((after ["set 0 0 5", "init_candidates"]).sudoku demo').getCandidates (0, 1) = {1, 2, 3, 4, 6, 7, 8, 9} := by decide +kernel
example : (after ["new 1,2", "set 0 0 1", "encode \"/\" col_sep=\"_\"", "view candidate_prefix=\"?\" align_right=0", "set_candidates 0 1 [2]",
    "view True 0 \"?\" 0"]).out = [.text "1_0/0_0\n".toList, .text "1 | ?\n? | ?\n".toList, .text "1  | ?2\n?  | ? \n".toList] := by decide +kernel

end Props
