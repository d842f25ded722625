import Verif.Proofs.RateRun

set_option autoImplicit false

/-! Helper lemmas: which parts of the search for steps depend on the order in which sets are visited. -/

open Spec

namespace Solvers

theorem list_const {α : Type} {c : α} : ∀ {l l' : List α}, l.Nodup → l'.Nodup → (∀ x, x ∈ l ↔ x ∈ l') → (∀ x ∈ l, x = c) → l = l' := by
  have key : ∀ l : List α, l.Nodup → (∀ x ∈ l, x = c) → l = [] ∨ l = [c] := by
    intro l hn hc
    cases l with
    | nil => exact Or.inl rfl
    | cons a t =>
      right
      have ha := hc a (by simp)
      subst ha
      cases t with
      | nil => rfl
      | cons b u =>
        have hb := hc b (by simp)
        subst hb
        simp at hn
  intro l l' hn hn' hm hc
  rcases key l hn hc with rfl | rfl
  · rcases key l' hn' (fun x hx => by simpa using (hm x).2 hx) with rfl | rfl
    · rfl
    · simpa using hm c
  · rcases key l' hn' (fun x hx => hc x ((hm x).2 hx)) with rfl | rfl
    · have := (hm c).1 (by simp); simp at this
    · rfl

theorem foldl_same {α β : Type} (P : β → Prop) (f f' : β → α → β) (l : List α) (h : ∀ b, ∀ a ∈ l, P b → f b a = f' b a ∧ P (f b a)) :
    ∀ b, P b → l.foldl f b = l.foldl f' b := by
  induction l with
  | nil => intro b _; rfl
  | cons a l ih =>
    intro b hb
    obtain ⟨h1, h2⟩ := h b a (by simp) hb
    rw [List.foldl_cons, List.foldl_cons, ← h1]
    exact ih (fun b x hx => h b x (by simp [hx])) _ h2

section
variable {W : Type} {view : W → Sudoku} {κ : W → Step → W} {w h : Nat} {G : Grid → Prop} {P : W → Prop}

theorem hiddenUnits_same (c : Ctx view κ w h .hiddenSingle G P) (hG : ∃ g, G g) {π π' : Orders W} (hπ : π.Ok) (hπ' : π'.Ok) (a : Cell)
    (ks : List Nat) : ∀ p : W × List Cell, P p.1 → InGrid w h a →
      hiddenUnits view κ π a ks p = hiddenUnits view κ π' a ks p := by
  induction ks with
  | nil => intro p _ _; rfl
  | cons k ks ih =>
    intro p hp ha
    obtain ⟨g, hg⟩ := hG
    have ha' : InGrid (view p.1).bw (view p.1).bh a := by rw [c.bw _ hp, c.bh _ hp]; exact ha
    have hl : π.hidden p.1 a k (hiddenCands (view p.1) (unitOf (view p.1) k a false)) =
        π'.hidden p.1 a k (hiddenCands (view p.1) (unitOf (view p.1) k a false)) := by
      refine list_const (c := g a) (hπ.hidden _ _ _ _).1 (hπ'.hidden _ _ _ _).1 (fun x => ?_) fun x hx => ?_
      · rw [(hπ.hidden _ _ _ _).2, (hπ'.hidden _ _ _ _).2]
      · exact (hidden_forced (c.cons _ hp g hg) ha' k (((hπ.hidden _ _ _ _).2 x).1 hx)).symm
    unfold hiddenUnits
    dsimp only
    rw [← hl]
    have key : ∀ l : List Int, let r := l.foldl (fun (q : W × List Cell × Bool) v =>
          if a ∉ q.2.1 then (κ q.1 (Step.single .hiddenSingle a v), q.2.1 ++ [a], true) else q) (p.1, p.2, false)
        r.2.2 = false → r.1 = p.1 := by
      intro l
      refine foldl_inv (fun r : W × List Cell × Bool => r.2.2 = false → r.1 = p.1) _ l ?_ (p.1, p.2, false) (fun _ => rfl)
      intro q v _ hq
      try dsimp only
      split
      · intro h; cases h
      · exact hq
    have h1 := key (π.hidden p.1 a k (hiddenCands (view p.1) (unitOf (view p.1) k a false)))
    dsimp only at h1
    split
    · rfl
    · rename_i hb
      refine ih _ ?_ ha
      rw [show _ = p.1 from h1 (by simpa using hb)]
      exact hp

theorem findHiddenSingle_same (c : Ctx view κ w h .hiddenSingle G P) (hG : ∃ g, G g) {π π' : Orders W} (hπ : π.Ok) (hπ' : π'.Ok) (x : W)
    (hx : P x) : findHiddenSingle view κ π x = findHiddenSingle view κ π' x := by
  unfold findHiddenSingle
  congr 1
  refine foldl_same (fun p : W × List Cell => P p.1) _ _ _ ?_ (x, []) hx
  intro p a ha hp
  have ha' := (c.inGrid hx hp).1 ((Sudoku.mem_cells _).1 ha)
  try dsimp only
  split
  · rename_i h0
    refine ⟨hiddenUnits_same c hG hπ hπ' a _ p hp ?_, hiddenUnits_inv c hπ a _ p hp (fun _ => ⟨ha', h0⟩)⟩
    rw [c.bw _ hp, c.bh _ hp] at ha'; exact ha'
  · exact ⟨rfl, hp⟩

/-- All classes but `Bruteforce` find the same in whatever order sets are visited. -/
theorem find_same {π π' : Orders W} (hπ : π.Ok) (hπ' : π'.Ok) (hi : ∀ w v b l, π.fish w v b l = l) (hi' : ∀ w v b l, π'.fish w v b l = l)
    (fuel fuel' : Nat) {k : Kind} (hk : k ≠ .bruteforce) (c : Ctx view κ w h k G P) (hG : ∃ g, G g) (x : W) (hx : P x) :
    find view κ π fuel k x = find view κ π' fuel' k x := by
  cases k with
  | bruteforce => exact absurd rfl hk
  | hiddenSingle => exact congrArg Except.ok (findHiddenSingle_same c hG hπ hπ' x hx)
  | basicFish n =>
    refine congrArg Except.ok ?_
    unfold findFish
    congr 1
    funext y p
    unfold fishFor
    simp only [hi, hi']
  | calculateCandidates => rfl
  | nakedSingle => rfl
  | nakedTuple n => rfl
  | hiddenTuple n => rfl
  | pointingTuple n => rfl

end

theorem contains_ctx {W : Type} {view : W → Sudoku} {κ : W → Step → W} (hκ : ∀ x st, view (κ x st) = Step.apply (view x) st)
    (g : Grid) (w h : Nat) (k : Kind) :
    Ctx view κ w h k (fun g' => g' = g) (fun x => (view x).bw = w ∧ (view x).bh = h ∧ Contains (view x) g) where
  bw _ t := t.1
  bh _ t := t.2.1
  may _ t g' hg := by rw [hg]; exact t.2.2.1
  cons _ t g' hg := by rw [hg]; exact t.2.2
  step x st t e hst _ := by
    rw [hκ]
    exact ⟨(apply_dims _ st).1.trans t.1, (apply_dims _ st).2.trans t.2.1,
      contains_apply (Useful.shape hst.1) (hst.2 g rfl) t.2.2⟩

/-- What `Bruteforce` reports for a solution `r`. -/
def bruteSteps (r : Sudoku) (l : List Cell) : List Step := l.map fun a => Step.single .bruteforce a (r.get a)

theorem brutePass_log (r : Sudoku) (l : List Cell) (hl : l.Nodup) : ∀ w : Run, (∀ a ∈ l, InGrid w.1.bw w.1.bh a) →
    (brutePass r l w).2 = w.2 ++ bruteSteps r (l.filter fun a => decide (w.1.num a ≠ r.num a)) := by
  induction l with
  | nil => intro w _; simp [brutePass, bruteSteps]
  | cons b l ih =>
    intro w hin
    have hb := hin b (by simp)
    rw [List.nodup_cons] at hl
    unfold brutePass
    rw [List.foldl_cons]
    by_cases hne : w.1.num b ≠ r.num b
    · have e : (consume w (Step.single .bruteforce b (r.get b))).1 = _ :=
        apply_single (st := Step.single .bruteforce b (r.get b)) w.1 (Or.inr (Or.inr rfl)) hb rfl rfl
      rw [if_pos (show w.1.get b ≠ r.get b from hne)]
      refine (ih hl.2 _ ?_).trans ?_
      · intro c hc; rw [e]; exact hin c (by simp [hc])
      · rw [List.filter_cons, if_pos (by simpa using hne)]
        have h1 : (l.filter fun a => decide ((consume w (Step.single .bruteforce b (r.get b))).1.num a ≠ r.num a)) =
            l.filter fun a => decide (w.1.num a ≠ r.num a) := by
          refine List.filter_congr fun a ha => ?_
          have hab : a ≠ b := fun h => hl.1 (h ▸ ha)
          rw [e]
          simp [hab]
        rw [h1]
        simp [bruteSteps, consume]
    · rw [if_neg (show ¬ w.1.get b ≠ r.get b from hne), List.filter_cons, if_neg (by simpa using hne)]
      exact ih hl.2 w (fun c hc => hin c (by simp [hc]))

/-- In a sudoku where every filled field agrees with `r`. -/
theorem brutePass_empty {r : Sudoku} {w : Run} (hr : IsSolution w.1.bw w.1.bh w.1.num r.num) :
    (brutePass r w.1.cells w).2 = w.2 ++ bruteSteps r w.1.empty := by
  rw [brutePass_log r _ (Sudoku.nodup_cells _) w (fun a ha => (Sudoku.mem_cells _).1 ha)]
  congr 2
  unfold Sudoku.empty
  refine List.filter_congr fun a ha => ?_
  rw [Sudoku.mem_cells] at ha
  by_cases h0 : w.1.num a = 0
  · have := (hr.full a ha).1
    simp only [Sudoku.get, h0]
    simp
    omega
  · simp [Sudoku.get, h0, hr.keeps a ha h0]

theorem round_append (π : Orders Run) (fuel : Nat) (ks ks' : List Kind) (w : Run) :
    round π fuel (ks ++ ks') w = match round π fuel ks w with
      | .error e => .error e
      | .ok none => round π fuel ks' w
      | .ok (some w') => .ok (some w') := by
  induction ks with
  | nil => rfl
  | cons k ks ih =>
    rw [List.cons_append, round, round]
    cases h : find Prod.fst consume π fuel k w with
    | error e => rfl
    | ok w' =>
      simp only
      by_cases hl : w'.2.length > w.2.length
      · rw [if_pos hl, if_pos hl]
      · rw [if_neg hl, if_neg hl]; exact ih

theorem round_same {π π' : Orders Run} (hπ : π.Ok) (hπ' : π'.Ok) (hi : ∀ w v b l, π.fish w v b l = l) (hi' : ∀ w v b l, π'.fish w v b l = l)
    (fuel fuel' : Nat) {g : Grid} {w : Run} (hw : Contains w.1 g) (ks : List Kind) (hks : .bruteforce ∉ ks) :
    round π fuel ks w = round π' fuel' ks w := by
  induction ks with
  | nil => rfl
  | cons k ks ih =>
    rw [round, round, find_same hπ hπ' hi hi' fuel fuel' (fun e => hks (by simp [e]))
      (contains_ctx (view := Prod.fst) (κ := consume) (fun _ _ => rfl) g w.1.bw w.1.bh k) ⟨g, rfl⟩ w ⟨rfl, rfl, hw⟩,
      ih (fun h => hks (by simp [h]))]

/-- How two runs may differ: in the numbers found by `Bruteforce` at the end. -/
def AlmostSame (s : Sudoku) (w w' : Run) : Prop :=
  ∃ (l : List Step) (c : List Cell) (r r' : Sudoku), (∀ st ∈ l, st.kind ≠ .bruteforce) ∧ w.2 = l ++ bruteSteps r c ∧
    w'.2 = l ++ bruteSteps r' c ∧ IsSolution s.bw s.bh s.num r.num ∧ IsSolution s.bw s.bh s.num r'.num ∧ ∀ a ∈ c, InGrid s.bw s.bh a

theorem round_found {π : Orders Run} {fuel : Nat} {w w' : Run} : ∀ {ks : List Kind}, round π fuel ks w = .ok (some w') →
    ∃ k ∈ ks, find Prod.fst consume π fuel k w = .ok w' := by
  intro ks
  induction ks with
  | nil => intro h; simp [round] at h
  | cons k ks ih =>
    intro h
    rw [round] at h
    split at h
    · exact absurd h (by simp)
    · rename_i w₁ e
      split at h
      · cases h; exact ⟨k, by simp, e⟩
      · obtain ⟨j, hj, h⟩ := ih h; exact ⟨j, by simp [hj], h⟩

/-- A full sudoku: the loop ends. -/
theorem loop_full {π : Orders Run} (hπ : π.Ok) {fuel : Nat} (hf : 0 < fuel) {g : Grid} {w w' : Run} (hs : Neat g w.1) (he : w.1.empty = [])
    {rounds : Nat} (h : loop π fuel rounds w = .ok (some w')) : w' = w := by
  cases rounds with
  | zero => simp [loop] at h
  | succ r =>
    rw [loop] at h
    split at h
    · exact absurd h (by simp)
    · cases h; rfl
    · rename_i w₁ e
      obtain ⟨k, -, -, h1, hlen⟩ := round_idle hπ e
      have := find_full hπ hf hs he h1
      rw [this] at hlen
      omega

theorem brute_find {π : Orders Run} (hπ : π.Ok) {fuel : Nat} {w : Run} (hf : w.1.empty.length < fuel)
    (hg : ∃ g, IsSolution w.1.bw w.1.bh w.1.num g) :
    ∃ r, IsSolution w.1.bw w.1.bh w.1.num r.num ∧ find Prod.fst consume π fuel .bruteforce w = .ok (brutePass r w.1.cells w) := by
  obtain ⟨sols, h1, -, h3⟩ := Dlx.dlx_spec (hπ.dlx w) w.1 fuel hf
  obtain ⟨g, hg⟩ := hg
  obtain ⟨r, hr⟩ := canon_of hg
  have hr' := (h3 r).2 hr
  cases sols with
  | nil => simp at hr'
  | cons q rest =>
    refine ⟨q, ((h3 q).1 (by simp)).2, ?_⟩
    show findBruteforce Prod.fst consume π fuel w = _
    unfold findBruteforce
    rw [h1]
    rfl

theorem brutePass_dims (r : Sudoku) (l : List Cell) : ∀ w : Run, (brutePass r l w).1.bw = w.1.bw ∧ (brutePass r l w).1.bh = w.1.bh := by
  intro w
  refine foldl_inv (fun x : Run => x.1.bw = w.1.bw ∧ x.1.bh = w.1.bh) _ l ?_ w ⟨rfl, rfl⟩
  intro x a _ hx
  try dsimp only
  split
  · exact ⟨(apply_dims x.1 _).1.trans hx.1, (apply_dims x.1 _).2.trans hx.2⟩
  · exact hx

theorem brutePass_full {r : Sudoku} {w : Run} (hr : IsSolution w.1.bw w.1.bh w.1.num r.num) : (brutePass r w.1.cells w).1.empty = [] := by
  refine empty_full fun a ha => ?_
  rw [(brutePass_dims r _ w).1, (brutePass_dims r _ w).2] at ha
  rw [brutePass_num r w.1.cells w [] (fun a ha => (Sudoku.mem_cells _).1 ha) (by simp) a (Or.inr ((Sudoku.mem_cells _).2 ha))]
  have := (hr.full a ha).1
  omega

theorem Past.some_neat {s : Sudoku} {w : Run} (h : Past s w) : ∃ g, Neat g w.1 := by
  rcases h.state with ⟨-, ⟨g, hg⟩, hall⟩ | ⟨g, hn, -⟩
  · exact ⟨g, hall g hg⟩
  · exact ⟨g, hn⟩

/-- The end of a run, when only `Bruteforce` is left. -/
theorem loop_brute {π : Orders Run} (hπ : π.Ok) {fuel : Nat} {s : Sudoku} (hf : s.empty.length < fuel) {w y : Run} (hw : Past s w)
    (hne : w.1.empty ≠ []) (hr : round π fuel solvers.dropLast w = .ok none) {rounds : Nat}
    (h : loop π fuel (rounds + 1) w = .ok (some y)) :
    ∃ r, IsSolution s.bw s.bh s.num r.num ∧ y.2 = w.2 ++ bruteSteps r w.1.empty := by
  rcases hw.state with ⟨hbel, hex, hall⟩ | ⟨g, hn, he⟩
  · have hlt := empty_lt_fuel hbel
    obtain ⟨r, h1, h2⟩ := brute_find hπ (lt_of_le_of_lt hlt hf) hex
    have hlog := brutePass_empty h1
    have hround : round π fuel solvers w = .ok (some (brutePass r w.1.cells w)) := by
      rw [show solvers = solvers.dropLast ++ [.bruteforce] from rfl, round_append, hr]
      simp only
      rw [round, h2]
      simp only
      rw [if_pos]
      rw [hlog]
      have := List.length_pos_of_ne_nil hne
      simp [bruteSteps]
      exact this
    rw [loop, hround] at h
    obtain ⟨g, hg⟩ := (past_step hπ hf hw hround).some_neat
    have := loop_full hπ (by omega) hg (brutePass_full h1) h
    refine ⟨r, hbel.solution h1, ?_⟩
    rw [this, hlog]
  · exact absurd he hne

theorem loop_same {π π' : Orders Run} (hπ : π.Ok) (hπ' : π'.Ok) (hi : ∀ w v b l, π.fish w v b l = l) (hi' : ∀ w v b l, π'.fish w v b l = l)
    {fuel fuel' : Nat} {s : Sudoku} (hf : s.empty.length < fuel) (hf' : s.empty.length < fuel') :
    ∀ {rounds : Nat} {w y y' : Run}, Past s w → (∃ g, IsSolution s.bw s.bh s.num g) → (∀ st ∈ w.2, st.kind ≠ .bruteforce) → loop π fuel rounds w = .ok (some y) → loop π' fuel' rounds w = .ok (some y') →
      AlmostSame s y y' := by
  intro rounds
  induction rounds with
  | zero => intro w y y' _ _ _ h; simp [loop] at h
  | succ r ih =>
    intro w y y' hw hs hnb h h'
    by_cases he : w.1.empty = []
    · obtain ⟨g, hg⟩ := hw.some_neat
      rw [loop_full hπ (by omega) hg he h, loop_full hπ' (by omega) hg he h']
      obtain ⟨g', hg'⟩ := hs
      exact ⟨w.2, [], ⟨0, 0, g', fun _ => ∅⟩, ⟨0, 0, g', fun _ => ∅⟩, hnb, by simp [bruteSteps], by simp [bruteSteps], hg', hg', by simp⟩
    · rcases hw.state with ⟨hbel, ⟨g, hg⟩, hall⟩ | ⟨g, -, he'⟩
      · have hsame := round_same hπ hπ' hi hi' fuel fuel' (hall g hg).cons solvers.dropLast (by decide)
        cases hr : round π fuel solvers.dropLast w with
        | error e =>
          rw [loop, show solvers = solvers.dropLast ++ [.bruteforce] from rfl, round_append, hr] at h
          simp at h
        | ok o =>
          cases o with
          | none =>
            obtain ⟨q, h1, h2⟩ := loop_brute hπ hf hw he hr h
            obtain ⟨q', h1', h2'⟩ := loop_brute hπ' hf' hw he (hsame ▸ hr) h'
            refine ⟨w.2, w.1.empty, q, q', hnb, h2, h2', h1, h1', fun a ha => ?_⟩
            unfold Sudoku.empty at ha
            rw [List.mem_filter, Sudoku.mem_cells, hbel.bw, hbel.bh] at ha
            exact ha.1
          | some w₁ =>
            have h1 : round π fuel solvers w = .ok (some w₁) := by
              rw [show solvers = solvers.dropLast ++ [.bruteforce] from rfl, round_append, hr]
            have h1' : round π' fuel' solvers w = .ok (some w₁) := by
              rw [show solvers = solvers.dropLast ++ [.bruteforce] from rfl, round_append, ← hsame, hr]
            rw [loop, h1] at h
            rw [loop, h1'] at h'
            refine ih (past_step hπ hf hw h1) hs (fun st hst => ?_) h h'
            obtain ⟨k, hk, hfk⟩ := round_found hr
            obtain ⟨L, hL, hLk⟩ := find_log' hπ hfk
            rw [hL] at hst
            rcases List.mem_append.1 hst with hst | hst
            · exact hnb st hst
            · rw [hLk st hst]; rintro rfl; exact absurd hk (by decide)
      · exact absurd he' he

/-- `solve` after the first round; the first round does not depend on any order. -/
theorem solve_loop (s : Sudoku) (rounds : Nat) : ∃ r w₁, (∀ (π : Orders Run) (fuel : Nat), rounds ≠ 0 → solve π fuel rounds s = loop π fuel r w₁) ∧
    Alike w₁.1 (Solve.initCandidates s false) ∧ ∀ st ∈ w₁.2, st.kind = .calculateCandidates := by
  have hal := first_alike s
  have hk : ∀ st ∈ (findCalc Prod.fst consume (Solve.initCandidates s.copy true, [])).2, st.kind = .calculateCandidates := by
    unfold findCalc
    refine foldl_inv (fun x : Run => ∀ st ∈ x.2, st.kind = .calculateCandidates) _ _ ?_ _ (by simp)
    intro x a _ hx
    split
    · exact hx
    · intro st hst
      simp only [consume, List.mem_append, List.mem_singleton] at hst
      rcases hst with hst | rfl
      · exact hx st hst
      · rfl
  by_cases hlen : (findCalc Prod.fst consume (Solve.initCandidates s.copy true, [])).2.length > 0
  · refine ⟨rounds - 1, _, fun π fuel h0 => ?_, hal, hk⟩
    obtain ⟨r, rfl⟩ := Nat.exists_eq_succ_of_ne_zero h0
    unfold solve
    rw [loop, show solvers = .calculateCandidates :: solvers.tail from rfl, round]
    simp only [find, List.length_nil, hlen, if_true]
    rfl
  · have := findCalc_still (w := (Solve.initCandidates s.copy true, [])) hlen
    rw [this] at hal
    exact ⟨rounds, _, fun _ _ _ => rfl, hal, by simp⟩

theorem solve_rounds {π : Orders Run} {fuel : Nat} {s : Sudoku} {rounds : Nat} {w : Run} (h : solve π fuel rounds s = .ok (some w))
    (n : Nat) (hn : rounds ≤ n) : solve π fuel n s = .ok (some w) := by
  exact loop_mono h _ hn

/-- Two runs of `solve`. -/
theorem solve_same {π π' : Orders Run} (hπ : π.Ok) (hπ' : π'.Ok) (hi : ∀ w v b l, π.fish w v b l = l) (hi' : ∀ w v b l, π'.fish w v b l = l)
    {fuel fuel' rounds rounds' : Nat} {s : Sudoku} (hs : Solvable s.bw s.bh s.num) (hf : s.empty.length < fuel) (hf' : s.empty.length < fuel')
    {y y' : Run} (h : solve π fuel rounds s = .ok (some y)) (h' : solve π' fuel' rounds' s = .ok (some y')) :
    AlmostSame s y y' := by
  have h := solve_rounds h (rounds + rounds' + 1) (by omega)
  have h' := solve_rounds h' (rounds + rounds' + 1) (by omega)
  obtain ⟨r, w₁, h1, h2, h3⟩ := solve_loop s (rounds + rounds' + 1)
  rw [h1 _ _ (by omega)] at h h'
  obtain ⟨g, hg⟩ := hs
  have e := init_dims s
  have key := loop_same hπ hπ' hi hi' (s := Solve.initCandidates s false) (by rw [init_empty]; exact hf) (by rw [init_empty]; exact hf')
    (w := w₁) ⟨fun st hst => Or.inl (h3 st hst), Or.inl ⟨h2.below, ⟨g, (h2.neat (neat_init hg)).cons.1⟩, fun g hg => ?_⟩⟩
    ⟨g, by rw [e.1, e.2.1, e.2.2]; exact hg⟩ (fun st hst => by rw [h3 st hst]; simp) h h'
  · unfold AlmostSame at key ⊢
    rw [e.1, e.2.1, e.2.2] at key
    exact key
  · have := h2.below.solution hg
    rw [e.1, e.2.1, e.2.2] at this
    exact h2.neat (neat_init this)

/-- `solve` with enough rounds: the sudoku is what the reported steps make of the start, and their classes are known. -/
theorem solve_known {π : Orders Run} (hπ : π.Ok) {fuel rounds : Nat} {s : Sudoku} (hs : Solvable s.bw s.bh s.num)
    (hf : s.empty.length < fuel) {w : Run} (h : solve π fuel rounds s = .ok (some w)) :
    w.1 = w.2.foldl Step.apply (Solve.initCandidates s.copy true) ∧ ∀ st ∈ w.2, st.kind ∈ solvers := by
  obtain ⟨w', h1, -, -, -, h2, h3, -⟩ := solve_spec hπ s hs fuel (max rounds (s.empty.length * (s.bw * s.bh + 1) + 1)) hf (by omega)
  rw [solve_rounds h _ (le_max_left _ _)] at h1
  cases h1
  exact ⟨h2, h3⟩

theorem solve_replay {π : Orders Run} (hπ : π.Ok) {fuel rounds : Nat} {s : Sudoku} (hs : Solvable s.bw s.bh s.num)
    (hf : s.empty.length < fuel) {w : Run} (h : solve π fuel rounds s = .ok (some w)) :
    w.1 = w.2.foldl Step.apply (Solve.initCandidates s.copy true) := (solve_known hπ hs hf h).1

theorem score_run {π : Orders Run} (hπ : π.Ok) {fuel rounds : Nat} {s : Sudoku} (hs : Solvable s.bw s.bh s.num)
    (hf : s.empty.length < fuel) {r : Nat} (h : score π fuel rounds s = .ok (some r)) :
    ∃ w, solve π fuel rounds s = .ok (some w) ∧ r = (w.2.map fun st => (rating st.kind).getD 0).sum := by
  unfold score at h
  split at h
  · exact absurd h (by simp)
  · exact absurd h (by simp)
  · rename_i w hw
    rw [ratings_ok w.2 (solve_known hπ hs hf hw).2] at h
    cases h
    exact ⟨w, hw, rfl⟩

theorem solve_steps {π π' : Orders Run} (hπ : π.Ok) (hπ' : π'.Ok) (hi : ∀ w v b l, π.fish w v b l = l) (hi' : ∀ w v b l, π'.fish w v b l = l)
    {fuel fuel' rounds rounds' : Nat} {s : Sudoku} (hs : Solvable s.bw s.bh s.num) (hf : s.empty.length < fuel) (hf' : s.empty.length < fuel')
    {w w' : Run} (h : solve π fuel rounds s = .ok (some w)) (h' : solve π' fuel' rounds' s = .ok (some w')) :
    ∃ (l : List Step) (c : List Cell) (g g' : Grid), (∀ st ∈ l, st.kind ≠ .bruteforce) ∧
      w.2 = l ++ c.map (fun a => Step.single .bruteforce a (g a)) ∧ w'.2 = l ++ c.map (fun a => Step.single .bruteforce a (g' a)) ∧
      IsSolution s.bw s.bh s.num g ∧ IsSolution s.bw s.bh s.num g' ∧ ∀ a ∈ c, InGrid s.bw s.bh a := by
  obtain ⟨l, c, r, r', h1⟩ := solve_same hπ hπ' hi hi' hs hf hf' h h'
  exact ⟨l, c, r.num, r'.num, h1⟩

end Solvers
