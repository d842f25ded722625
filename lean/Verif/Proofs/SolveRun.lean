import Verif.Proofs.Apply
import Mathlib.Data.Nat.Cast.Basic

set_option autoImplicit false

/-! Helper lemmas: `solve` run to the end. -/

open Spec

namespace Solvers

/-- All classes but `Bruteforce`. -/
theorem find_inv {W : Type} {view : W → Sudoku} {κ : W → Step → W} {w h : Nat} {G : Grid → Prop} {P : W → Prop}
    {π : Orders W} (hπ : π.Ok) (fuel : Nat) {k : Kind} (hk : k ≠ .bruteforce) (c : Ctx view κ w h k G P) (x : W) (hx : P x) :
    ∃ y, find view κ π fuel k x = .ok y ∧ P y := by
  cases k with
  | calculateCandidates => exact ⟨_, rfl, findCalc_inv c.toCtx0 x hx⟩
  | nakedSingle => exact ⟨_, rfl, findNakedSingle_inv c x hx⟩
  | hiddenSingle => exact ⟨_, rfl, findHiddenSingle_inv c hπ x hx⟩
  | bruteforce => exact absurd rfl hk
  | nakedTuple n => exact ⟨_, rfl, findNakedTuple_inv n c x hx⟩
  | hiddenTuple n => exact ⟨_, rfl, findHiddenTuple_inv n c x hx⟩
  | pointingTuple n => exact ⟨_, rfl, findPointing_inv n c x hx⟩
  | basicFish n => exact ⟨_, rfl, findFish_inv n c hπ x hx⟩

theorem empty_congr {s t : Sudoku} (hw : s.bw = t.bw) (hh : s.bh = t.bh) (hn : s.num = t.num) : s.empty = t.empty := by
  unfold Sudoku.empty; rw [cells_congr hw hh]; simp only [Sudoku.get, hn]

/-- What is known about a running `solve`. -/
structure Track (s0 : Sudoku) (M : Nat) (G : Grid → Prop) (w : Run) : Prop where
  bw : w.1.bw = s0.bw
  bh : w.1.bh = s0.bh
  ext : Extends s0.bw s0.bh s0.num w.1.num
  may : ∀ g, G g → MayContain w.1 g
  bound : measure w.1 + w.2.length ≤ M
  replay : w.1 = w.2.foldl Step.apply s0
  kinds : ∀ st ∈ w.2, st.kind ∈ solvers
  fills : w.1.empty.length + (w.2.filter fun st => decide st.kind.Fills).length = s0.empty.length

theorem num_step {G : Grid → Prop} (hG : ∃ g, G g) {s : Sudoku} (may : ∀ g, G g → MayContain s g) {st : Step}
    (hst : Good G s st) : (∀ a, InGrid s.bw s.bh a → s.num a ≠ 0 → (Step.apply s st).num a = s.num a) ∧
      (Step.apply s st).empty.length + (if st.kind.Fills then 1 else 0) = s.empty.length := by
  obtain ⟨g, hg⟩ := hG
  rcases effect (Useful.shape hst.1) with ⟨c, hk, hc, e, truth, hus⟩ | ⟨c, v, hk, hc, e, truth, hus⟩ | ⟨R, hk, e, truth, hus⟩
  · have : ¬ st.kind.Fills := by rw [hk]; simp [Kind.Fills]
    rw [e, if_neg this]
    exact ⟨fun a _ _ => rfl, rfl⟩
  · obtain ⟨h0, -⟩ := hus hst.1
    have hv0 : v ≠ 0 := by rw [← truth g (hst.2 g hg)]; have := ((may g hg).1.full c hc).1; omega
    rw [e, if_pos hk]
    refine ⟨fun a _ hne => ?_, ?_⟩
    · simp only; rw [if_neg]; rintro rfl; exact hne h0
    · rw [← Solve.empty_place hc h0 hv0]
      congr 2
  · rw [e, if_neg hk.2]
    exact ⟨fun a _ _ => rfl, rfl⟩

theorem closed_step {G : Grid → Prop} (hG : ∃ g, G g) {s : Sudoku} (may : ∀ g, G g → MayContain s g) {st : Step}
    (hst : Good G s st) (closed : ∀ g, IsSolution s.bw s.bh s.num g → G g) :
    ∀ g, IsSolution s.bw s.bh (Step.apply s st).num g → G g := by
  intro g hg
  have hnum := (num_step hG may hst).1
  apply closed
  refine ⟨fun a ha h0 => ?_, hg.full, hg.valid⟩
  have h1 := hnum a ha h0
  rw [← h1]
  exact hg.keeps a ha (by rw [h1]; exact h0)

theorem Track.step {s0 : Sudoku} {M : Nat} {G : Grid → Prop} (hG : ∃ g, G g) {w : Run} (t : Track s0 M G w) {st : Step}
    (hk : st.kind ∈ solvers) (hst : Good G w.1 st) : Track s0 M G (consume w st) := by
  have hd := apply_dims w.1 st
  have hnum := num_step hG t.may hst
  rw [t.bw, t.bh] at hnum
  obtain ⟨g, hg⟩ := hG
  have hm := measure_apply hst.1 (hst.2 g hg) (t.may g hg)
  refine ⟨hd.1.trans t.bw, hd.2.trans t.bh, ?_, ?_, ?_, ?_, ?_, ?_⟩
  · intro a ha h0
    have h1 := t.ext a ha h0
    show (Step.apply w.1 st).num a = _
    rw [hnum.1 a ha (by rw [h1]; exact h0), h1]
  · intro g hg
    exact mayContain_apply (Useful.shape hst.1) (hst.2 g hg) (t.may g hg)
  · have := t.bound
    simp only [consume, List.length_append, List.length_cons, List.length_nil]
    omega
  · simp only [consume, List.foldl_append, List.foldl_cons, List.foldl_nil, ← t.replay]
  · intro st' h'
    simp only [consume, List.mem_append, List.mem_singleton] at h'
    rcases h' with h' | rfl
    · exact t.kinds st' h'
    · exact hk
  · have h1 := t.fills
    have h2 := hnum.2
    simp only [consume, List.filter_append, List.length_append]
    by_cases hf : st.kind.Fills
    · rw [if_pos hf] at h2
      simp only [hf, List.filter_cons, decide_true, if_true, List.filter_nil, List.length_cons, List.length_nil]
      omega
    · rw [if_neg hf] at h2
      simp only [hf, List.filter_cons, decide_false, Bool.false_eq_true, if_false, List.filter_nil, List.length_nil]
      omega

/-- `G` contains all solutions of the current numbers. -/
def Closed (s : Sudoku) (G : Grid → Prop) : Prop := ∀ g, IsSolution s.bw s.bh s.num g → G g

theorem Closed.step {G : Grid → Prop} (hG : ∃ g, G g) {s : Sudoku} (may : ∀ g, G g → MayContain s g) {st : Step}
    (hst : Good G s st) (closed : Closed s G) : Closed (Step.apply s st) G := by
  intro g hg
  have hd := apply_dims s st
  rw [hd.1, hd.2] at hg
  exact closed_step hG may hst closed g hg

theorem track_ctx0 (s0 : Sudoku) (M : Nat) {G : Grid → Prop} (hG : ∃ g, G g) {k : Kind} (hk : k ∈ solvers) :
    Ctx0 Prod.fst consume s0.bw s0.bh k G (fun w => Track s0 M G w ∧ Closed w.1 G) :=
  ⟨fun _ t => t.1.bw, fun _ t => t.1.bh, fun _ t g hg => (t.1.may g hg).1,
    fun _ _ t e hst _ => ⟨t.1.step hG (e ▸ hk) hst, t.2.step hG t.1.may hst⟩⟩

theorem track_ctx (s0 : Sudoku) (M : Nat) {G : Grid → Prop} (hG : ∃ g, G g) {k : Kind} (hk : k ∈ solvers) :
    Ctx Prod.fst consume s0.bw s0.bh k G (fun w => (Track s0 M G w ∧ Closed w.1 G) ∧ ∀ g, G g → Contains w.1 g) where
  bw _ t := t.1.1.bw
  bh _ t := t.1.1.bh
  may _ t g hg := (t.1.1.may g hg).1
  step _ _ t e hst hj := ⟨(track_ctx0 s0 M hG hk).step _ _ t.1 e hst (hj.imp fun _ h => ⟨h.1.1, h.2⟩),
    fun g hg => contains_apply (Useful.shape hst.1) (hst.2 g hg) (t.2 g hg)⟩
  cons _ t := t.2

/-- The state of `solve` between two classes. -/
def RunInv (s0 : Sudoku) (M : Nat) (w : Run) : Prop := ∃ G : Grid → Prop, (∃ g, G g) ∧ Track s0 M G w ∧ Closed w.1 G

theorem foldl_still {α : Type} {f : Run → α → Run} (hf : ∀ w a, f w a = w ∨ w.2.length < (f w a).2.length) (l : List α) :
    ∀ w, w.2.length ≤ (l.foldl f w).2.length ∧ ((l.foldl f w).2.length ≤ w.2.length → ∀ a ∈ l, f w a = w) := by
  induction l with
  | nil => intro w; simp
  | cons a l ih =>
    intro w
    rw [List.foldl_cons]
    obtain ⟨h1, h2⟩ := ih (f w a)
    rcases hf w a with h | h
    · rw [h] at h1 h2 ⊢
      refine ⟨h1, fun hl b hb => ?_⟩
      rcases List.mem_cons.1 hb with rfl | hb
      · exact h
      · exact h2 hl b hb
    · exact ⟨by omega, fun hl => by omega⟩

theorem consume_longer (w : Run) (st : Step) : w.2.length < (consume w st).2.length := by
  simp [consume]

theorem calc_still {w : Run} (h : ¬ (findCalc Prod.fst consume w).2.length > w.2.length) :
    ∀ a, InGrid w.1.bw w.1.bh a → w.1.cand a ≠ ∅ := by
  intro a ha h0
  have key := (foldl_still (f := fun (w : Run) a => if w.1.getCandidates a ≠ ∅ then w
    else consume w (Step.mkSet .calculateCandidates [a] [a] (Solve.calcCandidates w.1 a))) (fun w a => ?_) w.1.cells w).2
    (not_lt.1 h) a ((Sudoku.mem_cells _).2 ha)
  · have h' : ¬ w.1.getCandidates a ≠ ∅ := not_not.2 h0
    simp only [if_neg h'] at key
    have := consume_longer w (Step.mkSet .calculateCandidates [a] [a] (Solve.calcCandidates w.1 a))
    rw [key] at this
    omega
  · split
    · exact Or.inl rfl
    · exact Or.inr (consume_longer _ _)

/-- The pass over the fields in `Bruteforce`. -/
def brutePass (t : Sudoku) (l : List Cell) (w : Run) : Run :=
  l.foldl (fun w a => if w.1.get a ≠ t.get a then consume w (Step.single .bruteforce a (t.get a)) else w) w

theorem brutePass_num (t : Sudoku) (l : List Cell) : ∀ (w : Run) (done : List Cell), (∀ a ∈ l, InGrid w.1.bw w.1.bh a) →
    (∀ a ∈ done, w.1.num a = t.num a) → ∀ a, a ∈ done ∨ a ∈ l → (brutePass t l w).1.num a = t.num a := by
  induction l with
  | nil => intro w done _ hd a ha; simpa [brutePass] using hd a (by simpa using ha)
  | cons b l ih =>
    intro w done hin hd a ha
    unfold brutePass
    rw [List.foldl_cons]
    have hb := hin b (by simp)
    by_cases hne : w.1.get b ≠ t.get b
    · rw [if_pos hne]
      have e : (consume w (Step.single .bruteforce b (t.get b))).1 = _ :=
        apply_single (st := Step.single .bruteforce b (t.get b)) w.1 (Or.inr (Or.inr rfl)) hb rfl rfl
      refine ih _ (b :: done) ?_ ?_ a ?_
      · intro c hc; rw [e]; exact hin c (by simp [hc])
      · intro c hc
        rw [e]
        simp only
        split
        · rename_i h; rw [h]; rfl
        · rename_i h; exact hd c (by simpa [h] using hc)
      · simp only [List.mem_cons] at ha ⊢; tauto
    · rw [if_neg hne]
      rw [not_not] at hne
      refine ih _ (b :: done) (fun c hc => hin c (by simp [hc])) ?_ a ?_
      · intro c hc
        rcases List.mem_cons.1 hc with rfl | hc
        · exact hne
        · exact hd c hc
      · simp only [List.mem_cons] at ha ⊢; tauto

theorem sol_congr {w h : Nat} {s g g' : Grid} (hs : SameGrid w h g g') (hg : IsSolution w h s g) : IsSolution w h s g' := by
  refine ⟨fun a ha h0 => ?_, fun a ha => ?_, fun a b ha hb hp h0 => ?_⟩
  · rw [← hs a ha]; exact hg.keeps a ha h0
  · rw [← hs a ha]; exact hg.full a ha
  · rw [← hs a ha, ← hs b hb]; rw [← hs a ha] at h0; exact hg.valid a b ha hb hp h0

theorem may_congr {s : Sudoku} {g g' : Grid} (hs : SameGrid s.bw s.bh g g') (hg : MayContain s g) : MayContain s g' :=
  ⟨sol_congr hs hg.1, fun a ha => by rw [← hs a ha]; exact hg.2 a ha⟩

theorem canon_of {s : Sudoku} {g : Grid} (hg : IsSolution s.bw s.bh s.num g) :
    ∃ r, Solve.Canon s.bw s.bh r ∧ IsSolution s.bw s.bh s.num r.num := by
  refine ⟨⟨s.bw, s.bh, fun a => if InGrid s.bw s.bh a then g a else 0, fun _ => ∅⟩, ⟨rfl, rfl, ?_, fun _ => rfl⟩, ?_⟩
  · intro a ha; simp [ha]
  · exact sol_congr (fun a ha => by simp [ha]) hg

/-- `Bruteforce` fills everything. -/
theorem brute_inv {s0 : Sudoku} {M : Nat} {π : Orders Run} (hπ : π.Ok) {fuel : Nat} (hf : s0.empty.length < fuel) {w : Run}
    (hw : RunInv s0 M w) : ∃ w', find Prod.fst consume π fuel .bruteforce w = .ok w' ∧ RunInv s0 M w' ∧
      (¬ w'.2.length > w.2.length → IsSolution s0.bw s0.bh s0.num w.1.num) := by
  obtain ⟨G, ⟨g, hg⟩, t, hcl⟩ := hw
  have hf' : w.1.empty.length < fuel := by have := t.fills; omega
  obtain ⟨sols, h1, -, h3⟩ := Dlx.dlx_spec (hπ.dlx w) w.1 fuel hf'
  have hex : ∃ r, r ∈ sols := by
    obtain ⟨r, hr⟩ := canon_of (t.may g hg).1
    exact ⟨r, (h3 r).2 hr⟩
  cases sols with
  | nil => obtain ⟨r, hr⟩ := hex; simp at hr
  | cons r rest =>
    have hr := (h3 r).1 (by simp)
    have hin : ∀ a ∈ w.1.cells, InGrid w.1.bw w.1.bh a := fun a ha => (Sudoku.mem_cells _).1 ha
    have hrs : IsSolution s0.bw s0.bh w.1.num r.num := by rw [← t.bw, ← t.bh]; exact hr.2
    have hrs0 : IsSolution s0.bw s0.bh s0.num r.num := by
      refine ⟨fun a ha h0 => ?_, hrs.full, hrs.valid⟩
      rw [← t.ext a ha h0]
      exact hrs.keeps a ha (by rw [t.ext a ha h0]; exact h0)
    have hmay := t.may r.num (hcl r.num hr.2)
    refine ⟨brutePass r w.1.cells w, ?_, ?_, ?_⟩
    · show findBruteforce Prod.fst consume π fuel w = _
      unfold findBruteforce
      rw [h1]
      rfl
    · have key : Track s0 M (fun g => g = r.num) (brutePass r w.1.cells w) := by
        refine diffLoop_inv (view := Prod.fst) (κ := consume) (w := s0.bw) (h := s0.bh) (t := r.num) (P := Track s0 M (fun g => g = r.num))
          ⟨fun _ t => t.bw, fun _ t => t.bh, fun _ t g hg => (t.may g hg).1,
            fun _ _ t e hst _ => t.step (G := fun g => g = r.num) ⟨r.num, rfl⟩ (by rw [e]; decide) hst⟩ r rfl w.1.cells ?_ w ?_
        · intro a ha; rw [← t.bw, ← t.bh]; exact hin a ha
        · exact { t with may := by rintro g rfl; exact hmay }
      have hnum := brutePass_num r w.1.cells w [] hin (by simp)
      have hsame : SameGrid s0.bw s0.bh r.num (brutePass r w.1.cells w).1.num := by
        intro a ha
        refine (hnum a (Or.inr ?_)).symm
        rw [Sudoku.mem_cells, t.bw, t.bh]; exact ha
      refine ⟨fun g => SameGrid s0.bw s0.bh r.num g, ⟨r.num, fun a _ => rfl⟩, { key with may := ?_ }, ?_⟩
      · intro g hg
        refine may_congr ?_ (key.may r.num rfl)
        rw [key.bw, key.bh]; exact hg
      · intro g hg a ha
        rw [key.bw, key.bh] at hg
        rw [hsame a ha]
        refine (hg.keeps a ha ?_).symm
        rw [← hsame a ha]
        have := (hrs.full a ha).1
        omega
    · intro hlen
      have still := (foldl_still (f := fun (w : Run) a => if w.1.get a ≠ r.get a then consume w (Step.single .bruteforce a (r.get a)) else w)
        (fun w a => by split; exact Or.inr (consume_longer _ _); exact Or.inl rfl) w.1.cells w).2 (not_lt.1 hlen)
      refine sol_congr (g := r.num) ?_ hrs0
      intro a ha
      have h4 := still a (by rw [Sudoku.mem_cells, t.bw, t.bh]; exact ha)
      by_contra hne
      have h5 : w.1.get a ≠ r.get a := fun e => hne e.symm
      simp only [if_pos h5] at h4
      have := consume_longer w (Step.single .bruteforce a (r.get a))
      rw [h4] at this
      omega

/-- The classes after `CalculateCandidates`, when it found nothing. -/
theorem round_rest {s0 : Sudoku} {M : Nat} {π : Orders Run} (hπ : π.Ok) {fuel : Nat} (hf : s0.empty.length < fuel) {w : Run}
    (hw : RunInv s0 M w) (hne : ∀ a, InGrid w.1.bw w.1.bh a → w.1.cand a ≠ ∅) (ks : List Kind) (hks : ∀ k ∈ ks, k ∈ solvers)
    (hb : .bruteforce ∉ ks) :
    (round π fuel (ks ++ [.bruteforce]) w = .ok none ∧ IsSolution s0.bw s0.bh s0.num w.1.num) ∨
    ∃ w', round π fuel (ks ++ [.bruteforce]) w = .ok (some w') ∧ RunInv s0 M w' ∧ w.2.length < w'.2.length := by
  induction ks with
  | nil =>
    obtain ⟨w', h1, h2, h3⟩ := brute_inv hπ hf hw
    rw [List.nil_append, round, h1]
    simp only
    by_cases hlen : w'.2.length > w.2.length
    · rw [if_pos hlen]
      exact Or.inr ⟨w', rfl, h2, hlen⟩
    · rw [if_neg hlen]
      exact Or.inl ⟨rfl, h3 hlen⟩
  | cons k ks ih =>
    rw [List.cons_append, round]
    have hk : k ≠ .bruteforce := fun e => hb (by simp [e])
    obtain ⟨G, hG, t, hcl⟩ := hw
    have hcons : ∀ g, G g → Contains w.1 g := fun g hg =>
      ⟨(t.may g hg).1, fun a ha => ((t.may g hg).2 a ha).resolve_left (hne a ha)⟩
    obtain ⟨w', h1, h2⟩ := find_inv hπ fuel hk (track_ctx s0 M hG (hks k (by simp))) w ⟨⟨t, hcl⟩, hcons⟩
    rw [h1]
    simp only
    by_cases hlen : w'.2.length > w.2.length
    · rw [if_pos hlen]
      exact Or.inr ⟨w', rfl, ⟨G, hG, h2.1⟩, hlen⟩
    · rw [if_neg hlen]
      exact ih (fun k hk => hks k (by simp [hk])) (fun h => hb (by simp [h]))

theorem round_spec {s0 : Sudoku} {M : Nat} {π : Orders Run} (hπ : π.Ok) {fuel : Nat} (hf : s0.empty.length < fuel) {w : Run}
    (hw : RunInv s0 M w) :
    (round π fuel solvers w = .ok none ∧ IsSolution s0.bw s0.bh s0.num w.1.num) ∨
    ∃ w', round π fuel solvers w = .ok (some w') ∧ RunInv s0 M w' ∧ w.2.length < w'.2.length := by
  have e : solvers = .calculateCandidates :: ((solvers.tail.dropLast) ++ [.bruteforce]) := by decide
  rw [e, round]
  simp only [find]
  by_cases hlen : (findCalc Prod.fst consume w).2.length > w.2.length
  · rw [if_pos hlen]
    obtain ⟨G, hG, t, hcl⟩ := hw
    exact Or.inr ⟨_, rfl, ⟨G, hG, findCalc_inv (track_ctx0 s0 M hG (by decide)) w ⟨t, hcl⟩⟩, hlen⟩
  · rw [if_neg hlen]
    exact round_rest hπ hf hw (calc_still hlen) _ (by decide) (by decide)

theorem measure_ge (s : Sudoku) : s.cells.toFinset.card ≤ measure s := by
  unfold measure
  have : s.cells.toFinset.card = ∑ a ∈ s.cells.toFinset, 1 := by simp
  rw [this]
  refine Finset.sum_le_sum fun a _ => ?_
  unfold weight
  split
  · omega
  · rename_i h
    have := Finset.card_pos.2 (Finset.nonempty_iff_ne_empty.2 h)
    omega

theorem loop_spec {s0 : Sudoku} {M : Nat} {π : Orders Run} (hπ : π.Ok) {fuel : Nat} (hf : s0.empty.length < fuel) (rounds : Nat) :
    ∀ w, RunInv s0 M w → M < rounds + w.2.length + s0.cells.toFinset.card →
      ∃ w', loop π fuel rounds w = .ok (some w') ∧ RunInv s0 M w' ∧ IsSolution s0.bw s0.bh s0.num w'.1.num := by
  induction rounds with
  | zero =>
    rintro w ⟨G, hG, t, -⟩ hM
    have h1 := t.bound
    have h2 := measure_ge w.1
    rw [cells_congr t.bw t.bh] at h2
    omega
  | succ r ih =>
    intro w hw hM
    rw [loop]
    rcases round_spec hπ hf hw with ⟨h1, h2⟩ | ⟨w', h1, h2, h3⟩
    · rw [h1]; exact ⟨w, rfl, hw, h2⟩
    · rw [h1]; exact ih w' h2 (by omega)

/-! ### the start -/

/-- solvers.py:569-570: where `solve` starts. -/
theorem start_eq (s : Sudoku) : Solve.initCandidates s.copy true =
    { bw := s.bw, bh := s.bh, num := fun a => if InGrid s.bw s.bh a then s.num a else 0,
      cand := fun a => if InGrid s.bw s.bh a ∧ s.num a ≠ 0 then {s.num a} else ∅ } := by
  rw [Solve.initCandidates_eq, Sudoku.copy_eq]
  simp only [Bool.true_eq_false, false_or]
  congr 1
  funext a
  by_cases ha : InGrid s.bw s.bh a
  · simp only [ha, true_and, if_true]
    split
    · rename_i h0
      rw [Solve.calc_filled (by simpa [ha] using h0)]; simp [ha]
    · simp
  · simp [ha]

theorem start_empty (s : Sudoku) : (Solve.initCandidates s.copy true).empty = s.empty := by
  rw [start_eq]
  unfold Sudoku.empty
  rw [cells_congr (t := s) rfl rfl]
  refine List.filter_congr fun a ha => ?_
  rw [Sudoku.mem_cells] at ha
  simp [Sudoku.get, ha]

theorem start_measure (s : Sudoku) :
    measure (Solve.initCandidates s.copy true) ≤ s.cells.toFinset.card + s.empty.length * (s.bw * s.bh + 1) := by
  unfold measure
  have hc : (Solve.initCandidates s.copy true).cells = s.cells := by rw [start_eq]; exact cells_congr rfl rfl
  rw [hc]
  have h1 : ∀ a ∈ s.cells.toFinset, weight (Solve.initCandidates s.copy true) a ≤ 1 + if s.num a = 0 then s.bw * s.bh + 1 else 0 := by
    intro a ha
    rw [List.mem_toFinset, Sudoku.mem_cells] at ha
    rw [start_eq]
    unfold weight
    by_cases h0 : s.num a = 0
    · simp [ha, h0]; omega
    · simp [ha, h0]
  refine le_trans (Finset.sum_le_sum h1) ?_
  rw [Finset.sum_add_distrib, Finset.sum_const, nsmul_eq_mul, Nat.cast_id, Nat.mul_one, ← Finset.sum_filter, Finset.sum_const, nsmul_eq_mul, Nat.cast_id]
  refine Nat.add_le_add_left (Nat.mul_le_mul_right _ ?_) _
  have : s.cells.toFinset.filter (fun a => s.num a = 0) = s.empty.toFinset := by
    ext a
    unfold Sudoku.empty
    rw [Finset.mem_filter, List.mem_toFinset, List.mem_toFinset, List.mem_filter]
    simp [Sudoku.get]
  rw [this]
  exact List.toFinset_card_le _

theorem start_sol {s : Sudoku} {g : Grid} :
    IsSolution s.bw s.bh (Solve.initCandidates s.copy true).num g ↔ IsSolution s.bw s.bh s.num g := by
  rw [start_eq]
  constructor
  · intro h
    exact ⟨fun a ha h0 => by have := h.keeps a ha (by simpa [ha] using h0); simpa [ha] using this, h.full, h.valid⟩
  · intro h
    exact ⟨fun a ha h0 => by simp only [ha, if_true] at h0 ⊢; exact h.keeps a ha h0, h.full, h.valid⟩

theorem start_inv {s : Sudoku} (hs : Solvable s.bw s.bh s.num) :
    RunInv (Solve.initCandidates s.copy true) (measure (Solve.initCandidates s.copy true)) (Solve.initCandidates s.copy true, []) := by
  have hb : (Solve.initCandidates s.copy true).bw = s.bw := by rw [start_eq]
  have hh : (Solve.initCandidates s.copy true).bh = s.bh := by rw [start_eq]
  refine ⟨fun g => IsSolution s.bw s.bh s.num g, hs, ⟨rfl, rfl, fun _ _ _ => rfl, ?_, by simp, rfl, by simp, by simp⟩, ?_⟩
  · intro g hg
    refine ⟨?_, fun a ha => ?_⟩
    · rw [hb, hh, start_sol]; exact hg
    · rw [hb, hh] at ha
      rw [start_eq]
      simp only
      split
      · rename_i h; right; rw [hg.keeps a ha h.2]; simp
      · left; rfl
  · intro g hg
    rw [hb, hh, start_sol] at hg; exact hg

/-- `solve` on a solvable sudoku. -/
theorem solve_spec {π : Orders Run} (hπ : π.Ok) (s : Sudoku) (hs : Solvable s.bw s.bh s.num) (fuel rounds : Nat)
    (hf : s.empty.length < fuel) (hr : s.empty.length * (s.bw * s.bh + 1) < rounds) :
    ∃ w, solve π fuel rounds s = .ok (some w) ∧ IsSolution s.bw s.bh s.num w.1.num ∧ w.1.bw = s.bw ∧ w.1.bh = s.bh ∧
      w.1 = w.2.foldl Step.apply (Solve.initCandidates s.copy true) ∧ (∀ st ∈ w.2, st.kind ∈ solvers) ∧
      (w.2.filter fun st => decide st.kind.Fills).length = s.empty.length ∧
      w.2.length ≤ s.empty.length * (s.bw * s.bh + 1) := by
  have hb : (Solve.initCandidates s.copy true).bw = s.bw := by rw [start_eq]
  have hh : (Solve.initCandidates s.copy true).bh = s.bh := by rw [start_eq]
  have hM := start_measure s
  have hcs : (Solve.initCandidates s.copy true).cells = s.cells := cells_congr hb hh
  obtain ⟨w, h1, ⟨G, hG, t, -⟩, h3⟩ := loop_spec hπ (by rw [start_empty]; exact hf) rounds _ (start_inv hs)
    (by rw [hcs]; simp only [List.length_nil]; omega)
  rw [hb, hh] at h3
  refine ⟨w, h1, ?_, t.bw.trans hb, t.bh.trans hh, t.replay, t.kinds, ?_, ?_⟩
  · refine ⟨fun a ha h0 => ?_, h3.full, h3.valid⟩
    have := h3.keeps a ha (by rw [start_eq]; simpa [ha] using h0)
    rw [this, start_eq]; simp [ha]
  · have h4 := t.fills
    rw [start_empty] at h4
    have : w.1.empty = [] := by
      unfold Sudoku.empty
      rw [List.filter_eq_nil_iff]
      intro a ha
      rw [Sudoku.mem_cells, t.bw, t.bh, hb, hh] at ha
      have := (h3.full a ha).1
      simp only [Sudoku.get, beq_iff_eq]
      omega
    rw [this] at h4
    simpa using h4
  · have h4 := t.bound
    have h5 := measure_ge w.1
    rw [cells_congr (t := s) (t.bw.trans hb) (t.bh.trans hh)] at h5
    omega

end Solvers
