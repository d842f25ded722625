import Verif.Props.Game
import Verif.Props.GameRun
import Verif.Proofs.GameCommands
import Verif.Props.Generate
import Verif.Props.Solve
import Verif.Props.Solvers

set_option autoImplicit false

/-! # C74: the beginning of a game -/

open Spec

namespace Props

open Game

/-- What a new game looks like: one position with the numbers of `x`, and the solution. -/
structure NewGame (set : Settings) (w h : Nat) (x : Sudoku) (s : State) : Prop where
  fine : Fine w h s
  one : s.history = ⟨[s.now], 0⟩
  /-- The solution is the only one. -/
  solves : IsSolution w h x.get s.solution.get
  only : ∀ g, IsSolution w h x.get g → SameGrid w h s.solution.get g
  /-- The clues are shown. -/
  clues : ∀ a, InGrid w h a → x.get a ≠ 0 → s.now.get a = x.get a
  /-- Nothing more, unless numbers are set automatically. -/
  others : set.autoset = false → ∀ a, s.now.get a = x.get a
  /-- Neither the numbers nor the candidates contradict the solution. -/
  right : set.autocandidates = true → Contains s.now s.solution.get
  /-- The candidates of a filled field, and those of an empty one. -/
  filled : ∀ a, InGrid w h a → x.get a ≠ 0 → s.now.getCandidates a = {x.get a}
  empty : set.autocandidates = true → set.autoset = false → ∀ a, InGrid w h a → x.get a = 0 → ∀ v, v ∈ s.now.getCandidates a ↔
    IsNumber w h v ∧ ∀ b, InGrid w h b → Peer w h a b → x.get b ≠ v
  none : set.autocandidates = false → ∀ a, InGrid w h a → x.get a = 0 → s.now.getCandidates a = ∅
  /-- The difficulty is announced. -/
  rating : ∃ r : Nat, (r ≤ 7 ∨ r = 10) ∧
    s.out = [.text ("Generating new sudoku. Rating: ".toList ++ Py.intStr r ++ "/10".toList)]

theorem newGame_of {w h : Nat} (set : Settings) (π : Solve.SetOrder) (hπ : π.Ok) (ρ : Solvers.Orders Solvers.Run) (hρ : ρ.Ok)
    (fuel : Nat) (x : Sudoku) (hp : Plain w h x) (hu : UniqueSolution w h x.get) (hf : x.empty.length < fuel) :
    ∃ m, ∀ rounds, m ≤ rounds → ∃ s, newGame set π ρ fuel rounds (.ok (some x)) = some (.ok s) ∧ NewGame set w h x s := by
  obtain ⟨rfl, rfl, -, hcand⟩ := hp
  obtain ⟨g, hg, huniq⟩ := hu
  -- the solution
  obtain ⟨sols, h1, -, h3, h4, -⟩ := C20_bruteforce π hπ fuel x hf
  obtain ⟨t0, ht0, -⟩ := h4 g ⟨hg.keeps, fun a ha _ => hg.full a ha, hg.valid⟩
  obtain ⟨sol, rest, rfl⟩ : ∃ sol rest, sols = sol :: rest := by
    cases sols with
    | nil => cases ht0
    | cons sol rest => exact ⟨sol, rest, rfl⟩
  have hsol : IsSolution x.bw x.bh x.get sol.get := by
    obtain ⟨-, k⟩ := h3 sol (by simp)
    refine ⟨k.keeps, fun a ha => ?_, k.valid⟩
    by_cases h0 : x.get a = 0
    · exact k.full a ha h0
    · rw [k.keeps a ha h0, ← hg.keeps a ha h0]; exact hg.full a ha
  have honly : ∀ g', IsSolution x.bw x.bh x.get g' → SameGrid x.bw x.bh sol.get g' := by
    intro g' hg' a ha
    rw [← huniq _ hsol a ha, huniq _ hg' a ha]
  -- the end of `autofill`
  have hnum : ∀ a, InGrid x.bw x.bh a → ∀ v ∈ Solve.calcCandidates x a, IsNumber x.bw x.bh v := by
    intro a ha v hv
    by_cases h0 : x.get a = 0
    · exact ((C13_empty x a ha h0 v).1 hv).1
    · rw [(C13_filled x a h0 v).1 hv, ← hg.keeps a ha h0]; exact hg.full a ha
  obtain ⟨i1, i2, i3, i4⟩ := C14_init x false
  simp only [true_or, if_true] at i4
  obtain ⟨m, r, hm⟩ := C54_terminates set false (Solve.initCandidates x) [] (by
    intro _ a ha _ h0
    have ha' : InGrid x.bw x.bh a := by rw [i1, i2] at ha; exact ha
    have h0' : (0 : Int) ∈ (Solve.initCandidates x).getCandidates a := h0
    rw [i4 a ha'] at h0'
    have := (hnum a ha' 0 h0').1
    omega)
  refine ⟨max m (x.empty.length * (x.bw * x.bh + 1) + 1), fun rounds hr => ?_⟩
  obtain ⟨q, -, -, -, hrate, hq, -, -⟩ := C32_rate ρ hρ x ⟨g, hg⟩ fuel rounds hf (by omega)
  have hfill := hm rounds (by omega)
  have hstart : ∃ s, newSudoku set rounds x sol = some (s, none) ∧ s.out = [] ∧ (set.autocandidates = true → s.now = r.1.sudoku) ∧
      (set.autocandidates = false → s.now = Solve.initCandidates x true) := by
    by_cases hc : set.autocandidates = true
    · have he := C54_no_exception set false rounds _ (by simp) [] r hfill
      obtain ⟨r, e⟩ := r
      simp only at he
      subst he
      refine ⟨{ heap := [r.sudoku], sudokus := [0], index := 0, solution := sol, hints := none, hinted := none, out := [] },
        by unfold newSudoku; simp only [if_pos hc, hfill], rfl, fun _ => rfl, fun h => ?_⟩
      rw [h] at hc; cases hc
    · exact ⟨{ heap := [Solve.initCandidates x true], sudokus := [0], index := 0, solution := sol, hints := none, hinted := none, out := [] },
        by unfold newSudoku; simp [hc], rfl, fun h => absurd h hc, fun _ => rfl⟩
  obtain ⟨s, hs, hout, hnow, hnow'⟩ := hstart
  obtain ⟨k1, k2, k3, -, k5⟩ := C53_start set rounds x sol s none hs
  refine ⟨{ s with out := .text ("Generating new sudoku. Rating: ".toList ++ Py.intStr q ++ "/10".toList) :: s.out }, ?_, ?_⟩
  · unfold newGame; simp only [h1, hrate, hs]
  have hcont : Contains (Solve.initCandidates x) sol.get := by
    refine ⟨by rw [i1, i2, show (Solve.initCandidates x).num = x.get from funext i3]; exact hsol, fun a ha => ?_⟩
    rw [i1, i2] at ha
    show sol.get a ∈ (Solve.initCandidates x).getCandidates a
    rw [i4 a ha]
    exact Solvers.mem_calc hsol ha
  have hright : set.autocandidates = true → Contains s.now sol.get := by
    intro hc
    rw [hnow hc]
    exact C54_sound set false rounds _ [] r hfill sol.get hcont
  obtain ⟨o1, o2, o3, o4⟩ := C54_only set false rounds _ [] r hfill
  have hclues : ∀ a, InGrid x.bw x.bh a → x.get a ≠ 0 → s.now.get a = x.get a := by
    intro a ha h0
    by_cases hc : set.autocandidates = true
    · rw [hnow hc]
      rcases o4 a with h | ⟨h, -⟩
      · exact h.trans (i3 a)
      · exact absurd ((i3 a).symm.trans h) h0
    · rw [hnow' (by simpa using hc)]
      exact (C14_init x true).2.2.1 a
  refine ⟨⟨k1.index, k1.addr⟩, k2, by rw [show State.solution _ = s.solution from rfl, k3]; exact hsol,
    by rw [show State.solution _ = s.solution from rfl, k3]; exact honly, hclues, fun hset a => ?_, fun hc => ?_, ?_, ?_, ?_,
    q, hq, by simp [hout]⟩
  · have := k5 hset
    exact congrFun this a
  · show Contains s.now s.solution.get
    rw [k3]; exact hright hc
  · intro a ha h0
    show s.now.getCandidates a = _
    by_cases hc : set.autocandidates = true
    · have hr1 := (hright hc).2 a (by rw [hnow hc, o1, o2, i1, i2]; exact ha)
      have hk : sol.get a = x.get a := hsol.keeps a ha h0
      rw [hk] at hr1
      refine Finset.Subset.antisymm ?_ (Finset.singleton_subset_iff.2 hr1)
      rw [hnow hc]
      refine (o3 a).trans ?_
      show (Solve.initCandidates x).getCandidates a ⊆ _
      rw [i4 a ha]
      intro v hv
      exact Finset.mem_singleton.2 ((C13_filled x a h0 v).1 hv)
    · rw [hnow' (by simpa using hc), (C14_init x true).2.2.2 a ha, if_pos (Or.inr h0)]
      ext v
      rw [Finset.mem_singleton, C13_filled x a h0]
  · intro hc hset a ha h0 v
    show v ∈ s.now.getCandidates a ↔ _
    have hcal : v ∈ (Solve.initCandidates x).getCandidates a ↔ IsNumber x.bw x.bh v ∧ ∀ b, InGrid x.bw x.bh b → Peer x.bw x.bh a b →
        x.get b ≠ v := by rw [i4 a ha]; exact C13_empty x a ha h0 v
    rw [← hcal]
    refine ⟨fun hv => by rw [hnow hc] at hv; exact o3 a hv, fun hv => ?_⟩
    obtain ⟨-, -, he⟩ := loop_inv (keeps_exact set hset (Solve.initCandidates x)) false rounds (s := ⟨Solve.initCandidates x, true, []⟩)
      ⟨⟨rfl, rfl⟩, rfl, fun b => ⟨Finset.Subset.refl _, fun v hv hn => absurd hv hn⟩⟩ hfill
    rw [hnow hc]
    by_contra hn
    obtain ⟨b, hb, hpeer, -, hbv⟩ := (he a).2 v hv hn
    rw [i1, i2] at hb hpeer
    exact (hcal.1 hv).2 b hb (Geometry.peer_symm.1 hpeer) ((i3 b).symm.trans hbv)
  · intro hc a ha h0
    show s.now.getCandidates a = _
    rw [hnow' hc, (C14_init x true).2.2.2 a ha, if_neg (by simp [h0])]
    exact hcand a

/-- The settings a game begins with. -/
def usual : Settings := {}

/-- **C74** A new game: `generate()` yields a sudoku with exactly one solution, this solution is kept for "check", the clues are
shown, the candidates are the possible ones (none, if `autocandidates` is off), and the difficulty is announced.  For all settings,
random outcomes and orders. -/
theorem C74_new_game (set : Settings) (e : Generate.Env 3 3) (π : Solve.SetOrder) (hπ : π.Ok) (ρ : Solvers.Orders Solvers.Run) (hρ : ρ.Ok) :
    ∃ x m, e.generate 0 none = .ok (some x) ∧ ∀ rounds, m ≤ rounds → ∃ s,
      newGame set π ρ e.fuel rounds (e.generate 0 none) = some (.ok s) ∧ NewGame set 3 3 x s := by
  obtain ⟨x, hx⟩ := (C39_value_error e 0 none).2 (by decide)
  obtain ⟨hp, sol, -, h1, h2⟩ := C35_unique e 0 none x hx
  have hlen : x.empty.length < e.fuel := by
    have h3 : x.empty.length ≤ x.cells.length := List.length_filter_le _ _
    have h4 := Generate.length_cells x
    have := e.hf
    simp only [Sudoku.len, hp.1, hp.2.1] at h4
    omega
  obtain ⟨m, hm⟩ := newGame_of set π hπ ρ hρ e.fuel x hp ⟨sol.get, h1, h2⟩ hlen
  rw [hx]
  exact ⟨x, m, rfl, hm⟩

/-- **C74** So "check" has nothing to complain about at the beginning, if `autocandidates` is on. -/
theorem C74_check {w h : Nat} (set : Settings) (x : Sudoku) (s : State) (hs : NewGame set w h x s) (hc : set.autocandidates = true) :
    ∀ a, InGrid w h a → s.now.get a ≠ 0 → s.now.get a = s.solution.get a := by
  intro a ha h0
  have h1 := (hs.right hc).1.keeps a
  obtain ⟨e1, e2⟩ := now_size hs.fine
  rw [e1, e2] at h1
  exact (h1 ha h0).symm

/-- Random outcomes and orders exist. -/
example : ∃ x m, (plainEnv 3 3 (by decide) (by decide)).generate 0 none = .ok (some x) ∧ ∀ rounds, m ≤ rounds → ∃ s,
    newGame usual (fun _ S => Solvers.sortSet S) (plainWatch Solvers.Run) 82 rounds (.ok (some x)) = some (.ok s) ∧
      NewGame usual 3 3 x s := by
  obtain ⟨x, m, h1, h2⟩ := C74_new_game usual (plainEnv 3 3 (by decide) (by decide)) (fun _ S => Solvers.sortSet S)
    (fun _ S => ⟨by obtain ⟨l, h, rfl⟩ := Solvers.exists_list S; exact (List.perm_insertionSort _ l).nodup_iff.2 h, fun _ => Solvers.mem_sortSet⟩)
    (plainWatch Solvers.Run) (plainWatch_ok _)
  rw [h1] at h2
  exact ⟨x, m, h1, h2⟩

end Props
