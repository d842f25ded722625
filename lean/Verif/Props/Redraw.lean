import Verif.Props.Rate
import Verif.Proofs.Redraw

set_option autoImplicit false

/-!
# C89: redrawn sudokus

Other symbols, rows exchanged with columns, rows and columns permuted such that the boxes are kept: all functions show the same.
-/

open Spec Solvers Solve

namespace Props

variable {w h w' h' : Nat}

/-- **C89** `calc_candidates`. -/
theorem C89_candidates (σ : Redrawing w h w' h') (s t : Sudoku) (hs : σ.Shows s t) (a : Cell) (ha : InGrid w h a) (v : Int) :
    σ.number v ∈ calcCandidates t (σ.field a) ↔ v ∈ calcCandidates s a := Redraw.mem_calc_image hs ha v

/-- **C89** `find_conflicts`: each conflict is found redrawn, and no others. -/
theorem C89_conflicts (σ : Redrawing w h w' h') (s t : Sudoku) (hs : σ.Shows s t) :
    (findConflicts t).Perm ((findConflicts s).map fun c => (σ.field c.1, σ.field c.2.1, σ.number c.2.2)) := by
  obtain ⟨n1, m1, -⟩ := C15_all s
  obtain ⟨n2, m2, -⟩ := C15_all t
  have hinj : Function.Injective fun c : Cell × Cell × Int => (σ.field c.1, σ.field c.2.1, σ.number c.2.2) := by
    rintro ⟨a, b, v⟩ ⟨a', b', v'⟩ e
    simp only [Prod.mk.injEq, σ.field.injective.eq_iff, σ.number.injective.eq_iff] at e ⊢
    exact e
  rw [List.perm_ext_iff_of_nodup n2 (n1.map hinj)]
  rintro ⟨a, b, v⟩
  obtain ⟨a, rfl⟩ := σ.field.surjective a
  obtain ⟨b, rfl⟩ := σ.field.surjective b
  obtain ⟨v, rfl⟩ := σ.number.surjective v
  rw [show (σ.field a, σ.field b, σ.number v) = (fun c : Cell × Cell × Int => (σ.field c.1, σ.field c.2.1, σ.number c.2.2)) (a, b, v) from rfl,
    List.mem_map_of_injective hinj, m1, m2, hs.bw', hs.bh', σ.inGrid, hs.bw, hs.bh]
  refine and_congr_right fun ha => ?_
  unfold Conflict
  rw [hs.bw, hs.bh, hs.bw', hs.bh', σ.inGrid]
  constructor
  · rintro ⟨hb, hp, h0, h1, h2⟩
    rw [hs.get a ha] at h1
    rw [hs.get b hb] at h2
    exact ⟨hb, (Redraw.peer σ ha hb).1 hp, fun e => h0 ((Redraw.zero_iff σ).2 e), σ.number.injective h1, σ.number.injective h2⟩
  · rintro ⟨hb, hp, h0, h1, h2⟩
    rw [hs.get a ha, hs.get b hb, h1, h2]
    exact ⟨hb, (Redraw.peer σ ha hb).2 hp, fun e => h0 ((Redraw.zero_iff σ).1 e), rfl, rfl⟩

/-- **C89** `is_solved`. -/
theorem C89_solved (σ : Redrawing w h w' h') (s t : Sudoku) (hs : σ.Shows s t) : isSolved t = isSolved s := by
  rw [Bool.eq_iff_iff, C16_is_solved, C16_is_solved, hs.bw, hs.bh, hs.bw', hs.bh', Redraw.noConflict σ hs.get]
  refine and_congr_left fun _ => ⟨fun H a ha e => ?_, fun H b hb e => ?_⟩
  · refine H (σ.field a) ((σ.inGrid a).2 ha) ?_
    rw [hs.get a ha, e, σ.zero]
  · obtain ⟨a, rfl⟩ := σ.field.surjective b
    rw [σ.inGrid] at hb
    rw [hs.get a hb, Redraw.zero_iff] at e
    exact H a hb e

private theorem back_grid (σ : Redrawing w h w' h') {x x' y : Sudoku} (h1 : ∀ a, InGrid w h a → y.get (σ.field a) = σ.number (x.get a))
    (h2 : ∀ a, InGrid w h a → y.get (σ.field a) = σ.number (x'.get a)) : SameGrid w h x.get x'.get :=
  fun a ha => σ.number.injective ((h1 a ha).symm.trans (h2 a ha))

private theorem dlx_le (σ : Redrawing w h w' h') (s t : Sudoku) (hs : σ.Shows s t) (π π' : Dlx.Orders) (hπ : π.Ok) (hπ' : π'.Ok)
    (fuel fuel' : Nat) (hf' : t.empty.length < fuel') (X Y : List Sudoku) (hX : Dlx.dlx π fuel s = .ok X)
    (hY : Dlx.dlx π' fuel' t = .ok Y) : (∀ x ∈ X, ∃ y ∈ Y, σ.Shows x y) ∧ X.length ≤ Y.length := by
  obtain ⟨Y', h1, h2, -⟩ := C18_dlx_complete π' hπ' fuel' t hf'
  rw [hY] at h1
  cases h1
  have hall : ∀ x ∈ X, ∃ y ∈ Y, σ.Shows x y := by
    intro x hx
    obtain ⟨⟨p1, p2, -⟩, h3⟩ := C17_dlx_sound π hπ fuel s X hX x hx
    rw [hs.bw, hs.bh] at h3
    obtain ⟨y, hy, e⟩ := h2 (Redraw.grid σ x.get) (by
      rw [hs.bw', hs.bh']
      exact (Redraw.isSolution hs fun a _ => Redraw.grid_field σ x.get a).2 h3)
    obtain ⟨⟨q1, q2, -⟩, -⟩ := C17_dlx_sound π' hπ' fuel' t Y hY y hy
    refine ⟨y, hy, p1.trans hs.bw, p2.trans hs.bh, q1.trans hs.bw', q2.trans hs.bh', fun a ha => ?_⟩
    rw [e _ (by rw [hs.bw', hs.bh', σ.inGrid]; exact ha), Redraw.grid_field]
  refine ⟨hall, Redraw.length_le (E := fun x x' => SameGrid s.bw s.bh x.get x'.get) (C19_dlx_nodup π hπ fuel s X hX) hall fun x _ x' _ y h4 h5 => ?_⟩
  rw [hs.bw, hs.bh]
  exact back_grid σ h4.get h5.get

/-- **C89** `dlx`: the solutions are the redrawn solutions, as many as before. -/
theorem C89_dlx (σ : Redrawing w h w' h') (s t : Sudoku) (hs : σ.Shows s t) (π π' : Dlx.Orders) (hπ : π.Ok) (hπ' : π'.Ok)
    (fuel fuel' : Nat) (hf : s.empty.length < fuel) (hf' : t.empty.length < fuel') :
    ∃ X Y, Dlx.dlx π fuel s = .ok X ∧ Dlx.dlx π' fuel' t = .ok Y ∧ (∀ x ∈ X, ∃ y ∈ Y, σ.Shows x y) ∧ X.length = Y.length := by
  obtain ⟨X, hX, -⟩ := C18_dlx_complete π hπ fuel s hf
  obtain ⟨Y, hY, -⟩ := C18_dlx_complete π' hπ' fuel' t hf'
  obtain ⟨h1, h2⟩ := dlx_le σ s t hs π π' hπ hπ' fuel fuel' hf' X Y hX hY
  obtain ⟨-, h3⟩ := dlx_le σ.symm t s (Redraw.Shows.symm hs) π' π hπ' hπ fuel' fuel hf Y X hY hX
  exact ⟨X, Y, hX, hY, h1, le_antisymm h2 h3⟩

private theorem brute_le (σ : Redrawing w h w' h') (s t : Sudoku) (hs : σ.Shows s t) (π π' : SetOrder) (hπ : π.Ok) (hπ' : π'.Ok)
    (fuel fuel' : Nat) (hf : s.empty.length < fuel) (hf' : t.empty.length < fuel') (X Y : List Sudoku) (hX : bruteforce π fuel s = some X)
    (hY : bruteforce π' fuel' t = some Y) : (∀ x ∈ X, ∃ y ∈ Y, σ.Shows x y) ∧ X.length ≤ Y.length := by
  obtain ⟨Y', h1, -, h2', h2, -⟩ := C20_bruteforce π' hπ' fuel' t hf'
  rw [hY] at h1
  cases h1
  obtain ⟨X', h1, h3, h4, -, -⟩ := C20_bruteforce π hπ fuel s hf
  rw [hX] at h1
  cases h1
  have hall : ∀ x ∈ X, ∃ y ∈ Y, σ.Shows x y := by
    intro x hx
    obtain ⟨⟨p1, p2, -⟩, h5⟩ := h4 x hx
    rw [hs.bw, hs.bh] at h5
    obtain ⟨y, hy, e⟩ := h2 (Redraw.grid σ x.get) (by
      rw [hs.bw', hs.bh']
      exact (Redraw.isCompletion hs fun a _ => Redraw.grid_field σ x.get a).2 h5)
    obtain ⟨⟨q1, q2, -⟩, -⟩ := h2' y hy
    refine ⟨y, hy, p1.trans hs.bw, p2.trans hs.bh, q1.trans hs.bw', q2.trans hs.bh', fun a ha => ?_⟩
    rw [e _ (by rw [hs.bw', hs.bh', σ.inGrid]; exact ha), Redraw.grid_field]
  refine ⟨hall, Redraw.length_le (E := fun x x' => SameGrid s.bw s.bh x.get x'.get) h3 hall fun x _ x' _ y h4 h5 => ?_⟩
  rw [hs.bw, hs.bh]
  exact back_grid σ h4.get h5.get

/-- **C89** `bruteforce`: likewise (also with clues that are no numbers of the sudoku). -/
theorem C89_bruteforce (σ : Redrawing w h w' h') (s t : Sudoku) (hs : σ.Shows s t) (π π' : SetOrder) (hπ : π.Ok) (hπ' : π'.Ok)
    (fuel fuel' : Nat) (hf : s.empty.length < fuel) (hf' : t.empty.length < fuel') :
    ∃ X Y, bruteforce π fuel s = some X ∧ bruteforce π' fuel' t = some Y ∧ (∀ x ∈ X, ∃ y ∈ Y, σ.Shows x y) ∧ X.length = Y.length := by
  obtain ⟨X, hX, -⟩ := C20_bruteforce π hπ fuel s hf
  obtain ⟨Y, hY, -⟩ := C20_bruteforce π' hπ' fuel' t hf'
  obtain ⟨h1, h2⟩ := brute_le σ s t hs π π' hπ hπ' fuel fuel' hf hf' X Y hX hY
  obtain ⟨-, h3⟩ := brute_le σ.symm t s (Redraw.Shows.symm hs) π' π hπ' hπ fuel' fuel hf' hf Y X hY hX
  exact ⟨X, Y, hX, hY, h1, le_antisymm h2 h3⟩

private theorem unique_of (σ : Redrawing w h w' h') (s t : Sudoku) (hs : σ.Shows s t) (hu : UniqueSolution s.bw s.bh s.get) :
    UniqueSolution t.bw t.bh t.get := by
  rw [hs.bw, hs.bh] at hu
  rw [hs.bw', hs.bh']
  obtain ⟨g, hg, hu⟩ := hu
  refine ⟨Redraw.grid σ g, (Redraw.isSolution hs fun a _ => Redraw.grid_field σ g a).2 hg, fun g' hg' b hb => ?_⟩
  obtain ⟨a, rfl⟩ := σ.field.surjective b
  rw [σ.inGrid] at hb
  have := hu (fun a => σ.number.symm (g' (σ.field a)))
    ((Redraw.isSolution hs (g := fun a => σ.number.symm (g' (σ.field a))) fun a _ => by simp).1 hg') a hb
  rw [Redraw.grid_field, this, Equiv.apply_symm_apply]

/-- **C89** `is_unique`. -/
theorem C89_unique (σ : Redrawing w h w' h') (s t : Sudoku) (hs : σ.Shows s t) (π π' : Dlx.Orders) (hπ : π.Ok) (hπ' : π'.Ok)
    (fuel fuel' : Nat) (hf : s.empty.length < fuel) (hf' : t.empty.length < fuel') :
    ∃ b, Dlx.isUnique π fuel s = .ok b ∧ Dlx.isUnique π' fuel' t = .ok b := by
  obtain ⟨b, h1, h2⟩ := C22_is_unique π hπ fuel s hf
  obtain ⟨c, h3, h4⟩ := C22_is_unique π' hπ' fuel' t hf'
  refine ⟨b, h1, ?_⟩
  rw [h3]
  congr 1
  rw [Bool.eq_iff_iff, h2, h4]
  exact ⟨unique_of σ.symm t s (Redraw.Shows.symm hs), unique_of σ s t hs⟩

/-- **C89** `rate`. -/
theorem C89_rate (σ : Redrawing w h w' h') (s t : Sudoku) (hs : σ.Shows s t) (hsol : Solvable s.bw s.bh s.get) (π π' : Orders Run)
    (hπ : π.Ok) (hπ' : π'.Ok) (fuel fuel' rounds rounds' : Nat) (hf : s.empty.length < fuel) (hf' : t.empty.length < fuel') (r q : Nat)
    (hr : rate π fuel rounds s = .ok (some r)) (hq : rate π' fuel' rounds' t = .ok (some q)) : r = q := by
  have ht : Solvable t.bw t.bh t.get := by
    rw [hs.bw', hs.bh']
    rw [hs.bw, hs.bh] at hsol
    exact Redraw.solvable hs hsol
  exact le_antisymm (rate_le_of_blocked (fun k => Redraw.blocked_image (Redraw.Shows.symm hs)) hπ' hπ ht hsol hf' hf hq hr)
    (rate_le_of_blocked (fun k => Redraw.blocked_image hs) hπ hπ' hsol ht hf hf' hr hq)

/-! Cases: a 6x6 sudoku with boxes 3 wide and 2 high, transposed; two symbols exchanged; two rows and two stacks of columns exchanged. -/

def six : Sudoku := ((Sudoku.new 3 2).setNumber (0, 4) 5).setNumber (3, 1) 2
def sixT : Sudoku := ((Sudoku.new 2 3).setNumber (4, 0) 5).setNumber (1, 3) 2
def sixR : Sudoku := ((Sudoku.new 3 2).setNumber (0, 4) 2).setNumber (3, 1) 5
def sixP : Sudoku := ((Sudoku.new 3 2).setNumber (1, 1) 5).setNumber (3, 4) 2

instance (w h : Nat) (P : Cell → Prop) [DecidablePred P] : Decidable (∀ a, InGrid w h a → P a) :=
  decidable_of_iff (∀ r : Fin (w * h), ∀ c : Fin (w * h), P (r.1, c.1))
    ⟨fun H a ha => H ⟨a.1, ha.1⟩ ⟨a.2, ha.2⟩, fun H r c => H _ ⟨r.2, c.2⟩⟩

example : (transposition 3 2).Shows six sixT :=
  ⟨rfl, rfl, rfl, rfl, fun a ha => (show ∀ a, InGrid 3 2 a → sixT.get (a.2, a.1) = six.get a by decide +kernel) a ha⟩

example : (relabelling 3 2 (Equiv.swap 2 5) (by decide) (fun v => by
    unfold IsNumber
    rw [Equiv.swap_apply_def]
    split
    · omega
    · split <;> omega)).Shows six sixR :=
  ⟨rfl, rfl, rfl, rfl, fun a ha => (show ∀ a, InGrid 3 2 a → sixR.get a = Equiv.swap 2 5 (six.get a) by decide +kernel) a ha⟩

/-- Exchange the columns 0, 1, 2 with 3, 4, 5. -/
def sideSwap : Nat ≃ Nat where
  toFun c := if c < 3 then c + 3 else if c < 6 then c - 3 else c
  invFun c := if c < 3 then c + 3 else if c < 6 then c - 3 else c
  left_inv c := by dsimp only; split_ifs <;> omega
  right_inv c := by dsimp only; split_ifs <;> omega

/-- Exchange the rows 0 and 1. -/
def firstRows : Nat ≃ Nat where
  toFun r := if r < 2 then 1 - r else r
  invFun r := if r < 2 then 1 - r else r
  left_inv r := by dsimp only; split_ifs <;> omega
  right_inv r := by dsimp only; split_ifs <;> omega

def six' : Redrawing 3 2 3 2 := permutation 3 2 firstRows sideSwap
  (fun r => by simp only [firstRows, Equiv.coe_fn_mk]; split_ifs <;> omega)
  (fun c => by simp only [sideSwap, Equiv.coe_fn_mk]; split_ifs <;> omega)
  (fun q r hq hr => by simp only [firstRows, Equiv.coe_fn_mk]; split_ifs <;> omega)
  (fun c d hc hd => by simp only [sideSwap, Equiv.coe_fn_mk]; split_ifs <;> omega)

example : six'.Shows six sixP :=
  ⟨rfl, rfl, rfl, rfl, fun a ha => (show ∀ a, InGrid 3 2 a → sixP.get (firstRows a.1, sideSwap a.2) = six.get a by decide +kernel) a ha⟩

/-- For C89_rate: the easy sudoku from above, transposed. -/
def easyT : Sudoku := { easy4 with num := fun a => easy4.num (a.2, a.1) }

example : (transposition 2 2).Shows easy4 easyT :=
  ⟨rfl, rfl, rfl, rfl, fun _ _ => rfl⟩
example : (rate (plainWatch Run) 30 6 easyT).toOption = some (some 1) := by decide +kernel

end Props
