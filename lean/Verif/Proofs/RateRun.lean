import Verif.Proofs.Rate
import Verif.Proofs.Watch

set_option autoImplicit false

/-! Helper lemmas: `rate` is the least rating that suffices. -/

open Spec

namespace Solvers

/-! ### above a sudoku where nothing is found -/

/-- `x` has the solution `g` and all that is still in `T`. -/
def Over (g : Grid) (T x : Sudoku) : Prop := Neat g x ∧ Below T x

theorem fills_values {g : Grid} {s : Sudoku} (hg : IsSolution s.bw s.bh s.num g) {st : Step} (hsh : Shape s.bw s.bh st)
    (htr : TrueOf g st) (hf : st.kind.Fills) : ∀ v ∈ st.values, v ≠ 0 := by
  intro v hv
  obtain ⟨hin, hsh⟩ := hsh
  have key : ∀ a u, st.affected = [a] → st.values = [u] → (∀ a ∈ st.affected, ∀ v ∈ st.values, g a = v) → v ≠ 0 := by
    intro a u h1 h2 h3
    rw [← h3 a (by rw [h1]; simp) v hv]
    have := (hg.full a (hin a (by rw [h1]; simp))).1
    omega
  unfold TrueOf at htr
  rcases hf with hf | hf | hf <;> rw [hf] at hsh htr <;> obtain ⟨a, u, h1, h2⟩ := hsh <;> exact key a u h1 h2 htr

theorem not_calc {g : Grid} {s : Sudoku} (hs : Neat g s) {st : Step} (hu : Useful s st) : st.kind ≠ .calculateCandidates := by
  intro hk
  obtain ⟨h1, h2⟩ := hu
  rw [hk] at h2
  obtain ⟨a, -, h3, h4, -⟩ := h2
  have := hs.cons.2 a (h1 a (by rw [h3]; simp))
  rw [h4] at this
  simp at this

theorem over_step {g : Grid} {T s u : Sudoku} {st : Step} (hT : Neat g T) (hs : Over g T s) (hu : Over g T u)
    (hsh : Shape s.bw s.bh st) (hk : st.kind ≠ .calculateCandidates) (hb : st.kind ≠ .bruteforce)
    (hi : ∀ k ∈ needs st.kind, Idle T k) (htr : TrueOf g st) (hj : Justified u st) : Over g T (Step.apply s st) :=
  ⟨neat_apply hs.1 hsh hk htr, below_apply hT hs.2 hsh (justified_trueOn hu.1 hT hu.2 hk hb hi hj) (fills_values hs.1.cons.1 hsh htr)⟩

/-- Any consumer that applies the steps. -/
theorem over_ctx {W : Type} {view : W → Sudoku} {κ : W → Step → W} (hκ : ∀ x st, view (κ x st) = Step.apply (view x) st)
    {g : Grid} {T : Sudoku} (hT : Neat g T) {k : Kind} (hb : k ≠ .bruteforce) (hi : ∀ j ∈ needs k, Idle T j) :
    Ctx view κ T.bw T.bh k (fun g' => g' = g) (fun x => Over g T (view x)) where
  bw _ t := t.2.bw.symm
  bh _ t := t.2.bh.symm
  may _ t g' hg := by rw [hg]; exact t.1.cons.1
  cons _ t g' hg := by rw [hg]; exact t.1.cons
  step x st t e hst hj := by
    obtain ⟨y, hy, hj⟩ := hj
    rw [hκ]
    exact over_step hT t hy (Useful.shape hst.1) (not_calc t.1 hst.1) (e ▸ hb) (e ▸ hi) (hst.2 g rfl) hj

/-- The listed steps. -/
theorem lists_good {g : Grid} {u : Sudoku} (hu : Neat g u) {π : Orders Watch} (hπ : π.Ok) {k : Kind} (hb : k ≠ .bruteforce)
    {L : List Step} (hL : Lists π k u L) : ∀ st ∈ L, st.kind = k ∧ Useful u st ∧ TrueOf g st ∧ Justified u st := by
  obtain ⟨y, h1, h2⟩ := find_inv hπ 0 hb (show Ctx Prod.fst (watch leave) u.bw u.bh k (fun g' => g' = g)
    (fun x : Watch => x.1 = u ∧ ∀ p ∈ x.2, p.2.kind = k ∧ Useful u p.2 ∧ TrueOf g p.2 ∧ Justified u p.2) from
    { bw := fun _ t => by rw [t.1]
      bh := fun _ t => by rw [t.1]
      may := fun _ t g' hg => by rw [hg, t.1]; exact hu.cons.1
      cons := fun _ t g' hg => by rw [hg, t.1]; exact hu.cons
      step := by
        rintro x st ⟨h1, h2⟩ e hst ⟨z, hz, hj⟩
        refine ⟨h1, fun p hp => ?_⟩
        simp only [watch, List.mem_append, List.mem_singleton] at hp
        rcases hp with hp | rfl
        · exact h2 p hp
        · rw [h1] at hst
          rw [hz.1] at hj
          exact ⟨e, hst.1, hst.2 g rfl, hj⟩ }) (u, []) ⟨rfl, by simp⟩
  rw [hL] at h1
  cases h1
  intro st hst
  exact h2.2 (u, st) (List.mem_map.2 ⟨st, hst, rfl⟩)

theorem reached_over {K : Kind → Prop} {g : Grid} {T s : Sudoku} (hT : Neat g T) (hs : Over g T s)
    (hK : ∀ k, K k → k ≠ .bruteforce ∧ ∀ j ∈ needs k, Idle T j) {t : Sudoku} (ht : Reached K s t) : Over g T t := by
  induction ht with
  | start => exact hs
  | apply h1 h2 hk hπ hL hst ih1 ih2 =>
    obtain ⟨e, hu, htr, hj⟩ := lists_good ih2.1 hπ (hK _ hk).1 hL _ hst
    have hsh := Useful.shape hu
    rw [← ih2.2.bw, ← ih2.2.bh, ih1.2.bw, ih1.2.bh] at hsh
    exact over_step hT ih1 ih2 hsh (not_calc ih2.1 hu) (e ▸ (hK _ hk).1) (e ▸ (hK _ hk).2) htr hj
  | applyAll h1 hk hπ h2 ih =>
    obtain ⟨y, h3, h4⟩ := find_inv hπ _ (hK _ hk).1 (over_ctx (view := id) (κ := Step.apply) (fun _ _ => rfl) hT (hK _ hk).1 (hK _ hk).2) _ ih
    rw [show find id Step.apply _ _ _ _ = _ from h2] at h3
    cases h3
    exact h4

theorem Over.empty {g : Grid} {T x : Sudoku} (h : Over g T x) (hT : T.empty ≠ []) : x.empty ≠ [] := by
  obtain ⟨a, ha⟩ := List.exists_mem_of_ne_nil _ hT
  unfold Sudoku.empty at ha
  rw [List.mem_filter, Sudoku.mem_cells] at ha
  obtain ⟨hag, h0⟩ := ha
  rw [h.2.bw, h.2.bh] at hag
  have h0 : T.num a = 0 := by simpa [Sudoku.get] using h0
  refine List.ne_nil_of_mem (a := a) ?_
  unfold Sudoku.empty
  rw [List.mem_filter, Sudoku.mem_cells]
  refine ⟨hag, ?_⟩
  by_contra hne
  have hne : x.num a ≠ 0 := by simpa [Sudoku.get] using hne
  exact hne ((h.2.num a hag hne).symm.trans h0)

/-- A sudoku in which the classes find nothing can be reached. -/
theorem exists_idle {K : Kind → Prop} (hb : ¬ K .bruteforce) {π : Orders Watch} (hπ : π.Ok) {g : Grid} {s : Sudoku} :
    ∀ (m : Nat) (t : Sudoku), measure t ≤ m → Neat g t → Below t s → Reached K s t →
      ∃ u, Reached K s u ∧ Neat g u ∧ Below u s ∧ ∀ k ∈ solvers, K k → Idle u k := by
  intro m
  induction m with
  | zero =>
    intro t hm hn hbel hr
    refine ⟨t, hr, hn, hbel, fun k hks hk => ?_⟩
    by_contra hid
    have hkb : k ≠ .bruteforce := by rintro rfl; exact hb hk
    obtain ⟨L, h1, h2⟩ := complete_find hπ t [] k hkb (solvers_pointing k hks)
    have hL : Lists π k t L := by rw [Lists, h1]; rfl
    by_cases hnil : L = []
    · rw [hnil] at h2; exact hid (idle_of_nil h2)
    · obtain ⟨st, hst⟩ := List.exists_mem_of_ne_nil _ hnil
      obtain ⟨-, hu, htr, -⟩ := lists_good hn hπ hkb hL st hst
      have := measure_apply hu htr ⟨hn.cons.1, fun a ha => Or.inr (hn.cons.2 a ha)⟩
      omega
  | succ m ih =>
    intro t hm hn hbel hr
    by_cases hall : ∀ k ∈ solvers, K k → Idle t k
    · exact ⟨t, hr, hn, hbel, hall⟩
    · push Not at hall
      obtain ⟨k, hks, hk, hid⟩ := hall
      have hkb : k ≠ .bruteforce := by rintro rfl; exact hb hk
      obtain ⟨L, h1, h2⟩ := complete_find hπ t [] k hkb (solvers_pointing k hks)
      have hL : Lists π k t L := by rw [Lists, h1]; rfl
      by_cases hnil : L = []
      · rw [hnil] at h2; exact absurd (idle_of_nil h2) hid
      · obtain ⟨st, hst⟩ := List.exists_mem_of_ne_nil _ hnil
        obtain ⟨-, hu, htr, -⟩ := lists_good hn hπ hkb hL st hst
        have := measure_apply hu htr ⟨hn.cons.1, fun a ha => Or.inr (hn.cons.2 a ha)⟩
        exact ih (Step.apply t st) (by omega) (neat_apply hn (Useful.shape hu) (not_calc hn hu) htr)
          ((apply_below hn hu (not_calc hn hu) htr).trans hbel) (.apply hr hr hk hπ hL hst)

/-! ### rounds -/

theorem round_some {π : Orders Run} {fuel : Nat} {w w' : Run} : ∀ {ks : List Kind}, round π fuel ks w = .ok (some w') →
    ∃ l₁ k l₂, ks = l₁ ++ k :: l₂ ∧ (∀ j ∈ l₁, ∃ u, find Prod.fst consume π fuel j w = .ok u ∧ ¬ u.2.length > w.2.length) ∧
      find Prod.fst consume π fuel k w = .ok w' ∧ w'.2.length > w.2.length := by
  intro ks
  induction ks with
  | nil => intro h; simp [round] at h
  | cons k ks ih =>
    intro h
    rw [round] at h
    split at h
    · exact absurd h (by simp)
    · rename_i u hu
      split at h
      · rename_i hlen
        cases h
        exact ⟨[], k, ks, rfl, by simp, hu, hlen⟩
      · rename_i hlen
        obtain ⟨l₁, k', l₂, h1, h2, h3⟩ := ih h
        refine ⟨k :: l₁, k', l₂, by rw [h1]; rfl, fun j hj => ?_, h3⟩
        rcases List.mem_cons.1 hj with rfl | hj
        · exact ⟨u, hu, hlen⟩
        · exact h2 j hj

theorem mem_of_earlier {l₁ l₂ : List Kind} {k j : Kind} (e : solvers = l₁ ++ k :: l₂) (h : Earlier k j) : j ∈ l₁ := by
  by_contra hj
  have h1 := h.2
  rw [e] at h1
  rw [List.idxOf_append_of_notMem hj, List.idxOf_append] at h1
  split at h1
  · rename_i hk
    have := List.idxOf_lt_length_of_mem hk
    omega
  · simp at h1

/-- The next class that finds something. -/
theorem round_idle {π : Orders Run} (hπ : π.Ok) {fuel : Nat} {w w' : Run} (h : round π fuel solvers w = .ok (some w')) :
    ∃ k ∈ solvers, (∀ j, Earlier k j → Idle w.1 j) ∧ find Prod.fst consume π fuel k w = .ok w' ∧ w'.2.length > w.2.length := by
  obtain ⟨l₁, k, l₂, e, h1, h2⟩ := round_some h
  refine ⟨k, by rw [e]; simp, fun j hj => ?_, h2⟩
  obtain ⟨u, h3, h4⟩ := h1 j (mem_of_earlier e hj)
  exact idle_of_silent hπ fuel hj.1 h3 h4

/-- The log only grows, by steps of the class. -/
theorem find_log {π : Orders Run} (hπ : π.Ok) {fuel : Nat} {k : Kind} (hb : k ≠ .bruteforce) {w w' : Run}
    (h : find Prod.fst consume π fuel k w = .ok w') : ∃ L, w'.2 = w.2 ++ L ∧ ∀ st ∈ L, st.kind = k := by
  obtain ⟨y, h1, -, -, h2⟩ := find_inv hπ fuel hb (show Ctx Prod.fst consume w.1.bw w.1.bh k (fun _ => False)
    (fun x : Run => x.1.bw = w.1.bw ∧ x.1.bh = w.1.bh ∧ ∃ L, x.2 = w.2 ++ L ∧ ∀ st ∈ L, st.kind = k) from
    { bw := fun _ t => t.1
      bh := fun _ t => t.2.1
      may := fun _ _ _ hg => hg.elim
      cons := fun _ _ _ hg => hg.elim
      step := by
        rintro x st ⟨h1, h2, L, h3, h4⟩ e hst -
        have hd := apply_dims x.1 st
        refine ⟨hd.1.trans h1, hd.2.trans h2, L ++ [st], by simp [consume, h3], fun st' h' => ?_⟩
        rcases List.mem_append.1 h' with h' | h'
        · exact h4 st' h'
        · rw [List.mem_singleton.1 h']; exact e }) w ⟨rfl, rfl, [], by simp, by simp⟩
  rw [h] at h1
  cases h1
  exact h2

/-- `Bruteforce` too. -/
theorem brute_log {π : Orders Run} {fuel : Nat} {w w' : Run}
    (h : find Prod.fst consume π fuel .bruteforce w = .ok w') : ∃ L, w'.2 = w.2 ++ L ∧ ∀ st ∈ L, st.kind = .bruteforce := by
  change findBruteforce Prod.fst consume π fuel w = _ at h
  unfold findBruteforce at h
  split at h
  · exact absurd h (by simp)
  · cases h; exact ⟨[], by simp, by simp⟩
  · cases h
    refine foldl_inv (fun x : Run => ∃ L, x.2 = w.2 ++ L ∧ ∀ st ∈ L, st.kind = .bruteforce) _ _ ?_ w ⟨[], by simp, by simp⟩
    rintro x a - ⟨L, h1, h2⟩
    split
    · refine ⟨L ++ [_], by simp only [consume]; rw [h1, List.append_assoc], fun st' h' => ?_⟩
      rcases List.mem_append.1 h' with h' | h'
      · exact h2 st' h'
      · rw [List.mem_singleton.1 h']; rfl
    · exact ⟨L, h1, h2⟩

theorem find_log' {π : Orders Run} (hπ : π.Ok) {fuel : Nat} {k : Kind} {w w' : Run}
    (h : find Prod.fst consume π fuel k w = .ok w') : ∃ L, w'.2 = w.2 ++ L ∧ ∀ st ∈ L, st.kind = k := by
  by_cases hb : k = .bruteforce
  · subst hb; exact brute_log h
  · exact find_log hπ hb h

theorem loop_log {π : Orders Run} (hπ : π.Ok) {fuel : Nat} : ∀ {rounds : Nat} {w w' : Run}, loop π fuel rounds w = .ok (some w') →
    ∃ L, w'.2 = w.2 ++ L := by
  intro rounds
  induction rounds with
  | zero => intro w w' h; simp [loop] at h
  | succ r ih =>
    intro w w' h
    rw [loop] at h
    split at h
    · exact absurd h (by simp)
    · cases h; exact ⟨[], by simp⟩
    · rename_i w₁ hr
      obtain ⟨k, -, -, h1, -⟩ := round_idle hπ hr
      obtain ⟨L, h2, -⟩ := find_log' hπ h1
      obtain ⟨L', h3⟩ := ih h
      exact ⟨L ++ L', by rw [h3, h2, List.append_assoc]⟩

/-- With classes that find nothing in `T`, `solve` does not get below `T`. -/
theorem loop_over {K : Kind → Prop} {g : Grid} {T : Sudoku} (hT : Neat g T)
    (hK : ∀ k, K k → k ≠ .bruteforce ∧ ∀ j ∈ needs k, Idle T j) {π : Orders Run} (hπ : π.Ok) {fuel : Nat} :
    ∀ {rounds : Nat} {w w' : Run}, loop π fuel rounds w = .ok (some w') → Over g T w.1 → (∀ st ∈ w'.2, K st.kind) →
      Over g T w'.1 := by
  intro rounds
  induction rounds with
  | zero => intro w w' h; simp [loop] at h
  | succ r ih =>
    intro w w' h ho hlog
    rw [loop] at h
    split at h
    · exact absurd h (by simp)
    · cases h; exact ho
    · rename_i w₁ hr
      obtain ⟨k, -, -, h1, hlen⟩ := round_idle hπ hr
      obtain ⟨L, h2, h3⟩ := find_log' hπ h1
      obtain ⟨L', h4⟩ := loop_log hπ h
      have hk : K k := by
        cases L with
        | nil => rw [h2] at hlen; simp at hlen
        | cons st L =>
          rw [← h3 st (by simp)]
          apply hlog
          rw [h4, h2]; simp
      obtain ⟨y, h5, h6⟩ := find_inv hπ fuel (hK k hk).1 (over_ctx (view := Prod.fst) (κ := consume) (fun _ _ => rfl) hT (hK k hk).1 (hK k hk).2) w ho
      rw [h1] at h5
      cases h5
      exact ih h h6 hlog

/-! ### full sudokus -/

theorem measure_full {g : Grid} {s : Sudoku} (hs : Neat g s) (he : s.empty = []) : measure s = s.cells.toFinset.card := by
  unfold measure
  rw [Finset.card_eq_sum_ones]
  refine Finset.sum_congr rfl fun a ha => ?_
  rw [List.mem_toFinset, Sudoku.mem_cells] at ha
  have h0 : s.num a ≠ 0 := by
    intro h0
    have : a ∈ s.empty := by
      unfold Sudoku.empty
      rw [List.mem_filter, Sudoku.mem_cells]
      exact ⟨ha, by simpa [Sudoku.get] using h0⟩
    rw [he] at this
    simp at this
  unfold weight
  rw [hs.filled a ha h0]
  simp [h0]

theorem not_useful_full {g : Grid} {s : Sudoku} (hs : Neat g s) (he : s.empty = []) {st : Step} (htr : TrueOf g st) : ¬ Useful s st := by
  intro hu
  have h1 := measure_apply hu htr ⟨hs.cons.1, fun a ha => Or.inr (hs.cons.2 a ha)⟩
  have h2 := measure_ge (Step.apply s st)
  have hd := apply_dims s st
  rw [cells_congr hd.1 hd.2] at h2
  rw [measure_full hs he] at h1
  omega

theorem full_num {s : Sudoku} (he : s.empty = []) {a : Cell} (ha : InGrid s.bw s.bh a) : s.num a ≠ 0 := by
  intro h0
  have : a ∈ s.empty := by
    unfold Sudoku.empty
    rw [List.mem_filter, Sudoku.mem_cells]
    exact ⟨ha, by simpa [Sudoku.get] using h0⟩
  rw [he] at this
  simp at this

/-- Nothing is found in a full sudoku. -/
theorem find_full {π : Orders Run} (hπ : π.Ok) {fuel : Nat} (hf : 0 < fuel) {g : Grid} {w w' : Run} (hs : Neat g w.1) (he : w.1.empty = [])
    {k : Kind} (h : find Prod.fst consume π fuel k w = .ok w') : w' = w := by
  by_cases hb : k = .bruteforce
  · subst hb
    obtain ⟨sols, h1, -, h3⟩ := Dlx.dlx_spec (hπ.dlx w) w.1 fuel (by rw [he]; exact hf)
    change findBruteforce Prod.fst consume π fuel w = _ at h
    unfold findBruteforce at h
    rw [h1] at h
    cases sols with
    | nil => cases h; rfl
    | cons r rest =>
      cases h
      have hr := (h3 r).1 (by simp)
      refine foldl_inv (fun x => x = w) _ _ ?_ w rfl
      rintro x a ha rfl
      rw [Sudoku.mem_cells] at ha
      rw [if_neg]
      rw [not_not]
      exact (hr.2.keeps a ha (full_num he ha)).symm
  · obtain ⟨y, h1, h2⟩ := find_inv hπ fuel hb (show Ctx Prod.fst consume w.1.bw w.1.bh k (fun g' => g' = g) (fun x : Run => x = w) from
      { bw := fun _ t => by rw [t]
        bh := fun _ t => by rw [t]
        may := fun _ t g' hg => by rw [hg, t]; exact hs.cons.1
        cons := fun _ t g' hg => by rw [hg, t]; exact hs.cons
        step := by
          rintro x st rfl e hst -
          exact absurd hst.1 (not_useful_full hs he (hst.2 g rfl)) }) w rfl
    rw [h] at h1
    cases h1
    exact h2

/-! ### the log of `solve` -/

/-- There is a sudoku between `s` and its solutions where the classes before `k` find nothing. -/
def Blocked (s : Sudoku) (k : Kind) : Prop :=
  ∃ g T, Neat g T ∧ Below T s ∧ T.empty ≠ [] ∧ ∀ j, Earlier k j → Idle T j

/-- What is known about `solve` after the first round. -/
structure Past (s : Sudoku) (w : Run) : Prop where
  log : ∀ st ∈ w.2, st.kind = .calculateCandidates ∨ Blocked s st.kind
  state : (Below w.1 s ∧ (∃ g, IsSolution w.1.bw w.1.bh w.1.num g) ∧ ∀ g, IsSolution w.1.bw w.1.bh w.1.num g → Neat g w.1) ∨
    ∃ g, Neat g w.1 ∧ w.1.empty = []

theorem empty_lt_fuel {s t : Sudoku} (hb : Below t s) : t.empty.length ≤ s.empty.length := by
  have h1 : t.empty.Nodup := (Sudoku.nodup_cells _).filter _
  rw [← List.toFinset_card_of_nodup h1, ← List.toFinset_card_of_nodup (l := s.empty) ((Sudoku.nodup_cells _).filter _)]
  refine Finset.card_le_card fun a ha => ?_
  rw [List.mem_toFinset] at ha ⊢
  unfold Sudoku.empty at ha ⊢
  rw [List.mem_filter, Sudoku.mem_cells] at ha ⊢
  rw [← hb.bw, ← hb.bh]
  refine ⟨ha.1, ?_⟩
  by_contra hne
  have hne : s.num a ≠ 0 := by simpa [Sudoku.get] using hne
  exact hne ((hb.num a (by rw [← hb.bw, ← hb.bh]; exact ha.1) hne).symm.trans (by simpa [Sudoku.get] using ha.2))

theorem empty_full {s : Sudoku} (h : ∀ a, InGrid s.bw s.bh a → s.num a ≠ 0) : s.empty = [] := by
  unfold Sudoku.empty
  rw [List.filter_eq_nil_iff]
  intro a ha
  rw [Sudoku.mem_cells] at ha
  simpa [Sudoku.get] using h a ha

theorem past_step {π : Orders Run} (hπ : π.Ok) {fuel : Nat} {s : Sudoku} (hf : s.empty.length < fuel) {w w' : Run} (hw : Past s w)
    (h : round π fuel solvers w = .ok (some w')) : Past s w' := by
  obtain ⟨k, hks, hidle, h1, hlen⟩ := round_idle hπ h
  rcases hw.state with ⟨hbel, ⟨g, hg⟩, hall⟩ | ⟨g, hn, he⟩
  · obtain ⟨L, hL, hLk⟩ := find_log' hπ h1
    have hne : w.1.empty ≠ [] := by
      intro he
      have := find_full hπ (by omega) (hall g hg) he h1
      rw [this] at hlen
      omega
    have hlog : ∀ st ∈ w'.2, st.kind = .calculateCandidates ∨ Blocked s st.kind := by
      intro st hst
      rw [hL] at hst
      rcases List.mem_append.1 hst with hst | hst
      · exact hw.log st hst
      · right
        rw [hLk st hst]
        exact ⟨g, w.1, hall g hg, hbel, hne, hidle⟩
    refine ⟨hlog, ?_⟩
    by_cases hb : k = .bruteforce
    · right
      subst hb
      obtain ⟨sols, e1, -, e3⟩ := Dlx.dlx_spec (hπ.dlx w) w.1 fuel (by have := empty_lt_fuel hbel; omega)
      change findBruteforce Prod.fst consume π fuel w = _ at h1
      unfold findBruteforce at h1
      rw [e1] at h1
      cases sols with
      | nil => cases h1; omega
      | cons r rest =>
        cases h1
        have hr := (e3 r).1 (by simp)
        have key : Neat r.num (brutePass r w.1.cells w).1 ∧ (brutePass r w.1.cells w).1.bw = w.1.bw ∧ (brutePass r w.1.cells w).1.bh = w.1.bh :=
          diffLoop_inv (view := Prod.fst) (κ := consume) (w := w.1.bw) (h := w.1.bh) (t := r.num)
            (P := fun x : Run => Neat r.num x.1 ∧ x.1.bw = w.1.bw ∧ x.1.bh = w.1.bh)
            ⟨fun _ t => t.2.1, fun _ t => t.2.2, fun _ t g hg => by rw [hg]; exact t.1.cons.1,
              fun x st t e hst _ => ⟨neat_apply t.1 (Useful.shape hst.1) (by rw [e]; simp) (hst.2 _ rfl),
                (apply_dims x.1 st).1.trans t.2.1, (apply_dims x.1 st).2.trans t.2.2⟩⟩ r rfl w.1.cells
            (fun a ha => (Sudoku.mem_cells _).1 ha) w ⟨hall r.num hr.2, rfl, rfl⟩
        refine ⟨r.num, key.1, empty_full fun a ha => ?_⟩
        change InGrid (brutePass r w.1.cells w).1.bw (brutePass r w.1.cells w).1.bh a at ha
        change (brutePass r w.1.cells w).1.num a ≠ 0
        rw [key.2.1, key.2.2] at ha
        rw [brutePass_num r w.1.cells w [] (fun a ha => (Sudoku.mem_cells _).1 ha) (by simp) a (Or.inr ((Sudoku.mem_cells _).2 ha))]
        have := (hr.2.full a ha).1
        omega
    · left
      obtain ⟨y, h5, h6⟩ := find_inv hπ fuel hb (show Ctx Prod.fst consume w.1.bw w.1.bh k (fun g => IsSolution w.1.bw w.1.bh w.1.num g)
        (fun x : Run => (x.1.bw = w.1.bw ∧ x.1.bh = w.1.bh) ∧ Below x.1 s ∧ (∀ g, IsSolution w.1.bw w.1.bh w.1.num g ↔ IsSolution x.1.bw x.1.bh x.1.num g) ∧
          ∀ g, IsSolution w.1.bw w.1.bh w.1.num g → Neat g x.1) from
        { bw := fun _ t => t.1.1
          bh := fun _ t => t.1.2
          may := fun _ t g' hg => (t.2.2.2 g' hg).cons.1
          cons := fun _ t g' hg => (t.2.2.2 g' hg).cons
          step := by
            rintro x st ⟨⟨h1, h1'⟩, h2, h3, h4⟩ e hst -
            have hd := apply_dims x.1 st
            have hn := h4 g hg
            have hkc := not_calc hn hst.1
            refine ⟨⟨hd.1.trans h1, hd.2.trans h1'⟩, (apply_below hn hst.1 hkc (hst.2 g hg)).trans h2, fun g' => ⟨fun hg' => ?_, fun hg' => ?_⟩, fun g' hg' => ?_⟩
            · exact (neat_apply (h4 g' hg') (Useful.shape hst.1) hkc (hst.2 g' hg')).cons.1
            · have hd' : (consume x st).1.bw = x.1.bw ∧ (consume x st).1.bh = x.1.bh := hd
              rw [hd'.1, hd'.2] at hg'
              refine (h3 g').2 ⟨fun a ha h0 => ?_, hg'.full, hg'.valid⟩
              have := keep_step hst.1 a h0
              rw [← this]
              exact hg'.keeps a ha (by show (Step.apply x.1 st).num a ≠ 0; rw [this]; exact h0)
            · exact neat_apply (h4 g' hg') (Useful.shape hst.1) hkc (hst.2 g' hg') }) w
        ⟨⟨rfl, rfl⟩, hbel, fun _ => Iff.rfl, hall⟩
      rw [h1] at h5
      cases h5
      exact ⟨h6.2.1, ⟨g, (h6.2.2.1 g).1 hg⟩, fun g' hg' => h6.2.2.2 g' ((h6.2.2.1 g').2 hg')⟩
  · have := find_full hπ (by omega) hn he h1
    rw [this] at hlen
    omega

theorem past_loop {π : Orders Run} (hπ : π.Ok) {fuel : Nat} {s : Sudoku} (hf : s.empty.length < fuel) :
    ∀ {rounds : Nat} {w w' : Run}, Past s w → loop π fuel rounds w = .ok (some w') → Past s w' := by
  intro rounds
  induction rounds with
  | zero => intro w w' _ h; simp [loop] at h
  | succ r ih =>
    intro w w' hw h
    rw [loop] at h
    split at h
    · exact absurd h (by simp)
    · cases h; exact hw
    · rename_i w₁ hr
      exact ih (past_step hπ hf hw hr) h

/-! ### the start -/

theorem foldl_fst (l : List Cell) : ∀ w : Run,
    (l.foldl (fun (w : Run) a => if w.1.getCandidates a ≠ ∅ then w
      else consume w (Step.mkSet .calculateCandidates [a] [a] (Solve.calcCandidates w.1 a))) w).1 =
    l.foldl (fun (w : Sudoku) a => if (id w : Sudoku).getCandidates a ≠ ∅ then w
      else Step.apply w (Step.mkSet .calculateCandidates [a] [a] (Solve.calcCandidates (id w) a))) w.1 := by
  induction l with
  | nil => intro w; rfl
  | cons a l ih =>
    intro w
    rw [List.foldl_cons, List.foldl_cons, ih]
    congr 1
    by_cases h : w.1.getCandidates a ≠ ∅
    · rw [if_pos h, if_pos (show (id w.1).getCandidates a ≠ ∅ from h)]
    · rw [if_neg h, if_neg (show ¬ (id w.1).getCandidates a ≠ ∅ from h)]; rfl

theorem findCalc_fst (w : Run) : (findCalc Prod.fst consume w).1 =
    { w.1 with cand := fun a => if InGrid w.1.bw w.1.bh a ∧ w.1.cand a = ∅ then Solve.calcCandidates w.1 a else w.1.cand a } := by
  unfold findCalc
  rw [foldl_fst, foldl_calc w.1.cells (Sudoku.nodup_cells _) w.1 (fun a ha => (Sudoku.mem_cells _).1 ha)]
  simp only [Sudoku.mem_cells]

theorem foldl_fixed {α β : Type} {f : β → α → β} {b : β} (l : List α) (h : ∀ a ∈ l, f b a = b) : l.foldl f b = b := by
  induction l with
  | nil => rfl
  | cons a l ih => rw [List.foldl_cons, h a (by simp)]; exact ih fun x hx => h x (by simp [hx])

theorem findCalc_still {w : Run} (h : ¬ (findCalc Prod.fst consume w).2.length > w.2.length) : findCalc Prod.fst consume w = w := by
  have key := (foldl_still (f := fun (w : Run) a => if w.1.getCandidates a ≠ ∅ then w
    else consume w (Step.mkSet .calculateCandidates [a] [a] (Solve.calcCandidates w.1 a))) (fun w a => by
      split
      · exact Or.inl rfl
      · exact Or.inr (consume_longer _ _)) w.1.cells w).2 (not_lt.1 h)
  exact foldl_fixed _ key

/-- The same sizes, numbers and candidates. -/
structure Alike (t s : Sudoku) : Prop where
  bw : t.bw = s.bw
  bh : t.bh = s.bh
  num : ∀ a, InGrid s.bw s.bh a → t.num a = s.num a
  cand : ∀ a, InGrid s.bw s.bh a → t.cand a = s.cand a

theorem Alike.below {t s : Sudoku} (h : Alike t s) : Below t s :=
  ⟨h.bw, h.bh, fun a ha _ => h.num a ha, fun a ha => by rw [h.cand a ha]⟩

theorem Alike.symm {t s : Sudoku} (h : Alike t s) : Alike s t :=
  ⟨h.bw.symm, h.bh.symm, fun a ha => (h.num a (by rw [← h.bw, ← h.bh]; exact ha)).symm,
    fun a ha => (h.cand a (by rw [← h.bw, ← h.bh]; exact ha)).symm⟩

theorem Alike.neat {t s : Sudoku} (h : Alike t s) {g : Grid} (hn : Neat g s) : Neat g t := by
  obtain ⟨h1, h2, h3, h4⟩ := h
  refine ⟨⟨⟨fun a ha h0 => ?_, ?_, ?_⟩, fun a ha => ?_⟩, fun a ha h0 => ?_, fun a b ha hb hp h0 => ?_⟩
  · rw [h1, h2] at ha; rw [h3 a ha] at h0 ⊢; exact hn.cons.1.keeps a ha h0
  · rw [h1, h2]; exact hn.cons.1.full
  · rw [h1, h2]; exact hn.cons.1.valid
  · rw [h1, h2] at ha; rw [h4 a ha]; exact hn.cons.2 a ha
  · rw [h1, h2] at ha; rw [h3 a ha] at h0 ⊢; rw [h4 a ha]; exact hn.filled a ha h0
  · rw [h1, h2] at ha hb hp; rw [h3 a ha] at h0 ⊢; rw [h4 b hb]; exact hn.peers a b ha hb hp h0

theorem neat_init {s : Sudoku} {g : Grid} (hg : IsSolution s.bw s.bh s.num g) : Neat g (Solve.initCandidates s false) := by
  rw [Solve.initCandidates_eq]
  refine ⟨⟨hg, fun a ha => ?_⟩, fun a ha h0 => ?_, fun a b ha hb hp h0 => ?_⟩
  · simp only at ha ⊢
    rw [if_pos ⟨ha, Or.inl trivial⟩]
    exact mem_calc hg ha
  · simp only at ha h0 ⊢
    rw [if_pos ⟨ha, Or.inl trivial⟩]
    exact Solve.calc_filled h0
  · simp only at ha hb hp h0 ⊢
    rw [if_pos ⟨hb, Or.inl trivial⟩]
    have hg0 : g a ≠ 0 := by have := (hg.full a ha).1; omega
    by_cases hb0 : s.num b = 0
    · rw [Solve.mem_calc_empty hb hb0]
      exact fun h => h.2 a ha ⟨fun e => hp.1 e.symm, hp.2.imp Eq.symm (Or.imp Eq.symm fun h => ⟨h.1.symm, h.2.symm⟩)⟩ rfl
    · rw [Solve.calc_filled hb0, Finset.mem_singleton, ← hg.keeps a ha h0, ← hg.keeps b hb hb0]
      exact hg.valid a b ha hb hp hg0

theorem first_alike (s : Sudoku) : Alike (findCalc Prod.fst consume (Solve.initCandidates s.copy true, [])).1 (Solve.initCandidates s false) := by
  rw [findCalc_fst, start_eq, Solve.initCandidates_eq]
  refine ⟨rfl, rfl, fun a ha => ?_, fun a ha => ?_⟩
  · simp only at ha ⊢; rw [if_pos ha]
  · simp only at ha ⊢
    by_cases h0 : s.num a = 0
    · simp only [ha, h0, ne_eq, not_true_eq_false, and_false, if_false, and_self, if_true, or_false]
      ext v
      rw [Solve.mem_calc_empty (s := ⟨s.bw, s.bh, fun a => if InGrid s.bw s.bh a then s.num a else 0, _⟩) ha (by simp [h0]),
        Solve.mem_calc_empty ha h0]
      refine and_congr_right fun _ => forall_congr' fun b => forall_congr' fun hb => ?_
      simp [hb]
    · simp [ha, h0, Solve.calc_filled h0]

/-- `solve` after the first round. -/
theorem solve_split {π : Orders Run} {fuel rounds : Nat} {s : Sudoku} {w : Run} (h : solve π fuel rounds s = .ok (some w)) :
    ∃ r w₁, loop π fuel r w₁ = .ok (some w) ∧ Alike w₁.1 (Solve.initCandidates s false) ∧ ∀ st ∈ w₁.2, st.kind = .calculateCandidates := by
  unfold solve at h
  have hal := first_alike s
  obtain ⟨L, hL⟩ : ∃ L, (findCalc Prod.fst consume (Solve.initCandidates s.copy true, [])).2 = L := ⟨_, rfl⟩
  have hk : ∀ st ∈ (findCalc Prod.fst consume (Solve.initCandidates s.copy true, [])).2, st.kind = .calculateCandidates := by
    unfold findCalc
    refine foldl_inv (fun x : Run => ∀ st ∈ x.2, st.kind = .calculateCandidates) _ _ ?_ _ (by simp)
    intro x a _ hx
    split
    · exact hx
    · intro st hst
      simp only [consume, List.mem_append, List.mem_singleton] at hst
      rcases hst with hst | rfl
      · exact hx st hst
      · rfl
  by_cases hlen : (findCalc Prod.fst consume (Solve.initCandidates s.copy true, [])).2.length > 0
  · cases rounds with
    | zero => simp [loop] at h
    | succ r =>
      rw [loop, show solvers = .calculateCandidates :: solvers.tail from rfl, round] at h
      simp only [find, List.length_nil, hlen, if_true] at h
      exact ⟨r, _, h, hal, hk⟩
  · have := findCalc_still (w := (Solve.initCandidates s.copy true, [])) hlen
    rw [this] at hal
    exact ⟨rounds, _, h, hal, by simp⟩

theorem init_empty (s : Sudoku) : (Solve.initCandidates s false).empty = s.empty := by
  rw [Solve.initCandidates_eq]
  exact empty_congr rfl rfl rfl

theorem init_dims (s : Sudoku) : (Solve.initCandidates s false).bw = s.bw ∧ (Solve.initCandidates s false).bh = s.bh ∧
    (Solve.initCandidates s false).num = s.num := by
  rw [Solve.initCandidates_eq]; exact ⟨rfl, rfl, rfl⟩

theorem Below.solution {t s : Sudoku} (h : Below t s) {g : Grid} (hg : IsSolution t.bw t.bh t.num g) : IsSolution s.bw s.bh s.num g := by
  rw [h.bw, h.bh] at hg
  exact ⟨fun a ha h0 => by rw [← h.num a ha h0]; exact hg.keeps a ha (by rw [h.num a ha h0]; exact h0), hg.full, hg.valid⟩

/-- Every reported step was needed. -/
theorem solve_blocked {π : Orders Run} (hπ : π.Ok) {fuel rounds : Nat} {s : Sudoku} (hs : Solvable s.bw s.bh s.num)
    (hf : s.empty.length < fuel) {w : Run} (h : solve π fuel rounds s = .ok (some w)) :
    ∀ st ∈ w.2, st.kind = .calculateCandidates ∨ Blocked (Solve.initCandidates s false) st.kind := by
  obtain ⟨r, w₁, h1, h2, h3⟩ := solve_split h
  obtain ⟨g, hg⟩ := hs
  refine (past_loop hπ (s := Solve.initCandidates s false) (by rw [init_empty]; exact hf) ⟨fun st hst => Or.inl (h3 st hst), Or.inl ⟨h2.below, ?_, fun g hg => ?_⟩⟩ h1).log
  · exact ⟨g, (h2.neat (neat_init hg)).cons.1⟩
  · refine h2.neat (neat_init ⟨fun a ha h0 => ?_, ?_, ?_⟩)
    · have e := h2.num a (by rw [(init_dims s).1, (init_dims s).2.1]; exact ha)
      rw [(init_dims s).2.2] at e
      rw [← e] at h0 ⊢
      exact hg.keeps a (by rw [h2.bw, h2.bh, (init_dims s).1, (init_dims s).2.1]; exact ha) h0
    · have := hg.full
      rw [h2.bw, h2.bh, (init_dims s).1, (init_dims s).2.1] at this
      exact this
    · have := hg.valid
      rw [h2.bw, h2.bh, (init_dims s).1, (init_dims s).2.1] at this
      exact this

/-- What `needs` needs, on the list of classes. -/
theorem needs_earlier : ∀ k ∈ solvers, k ≠ .bruteforce → ∀ j ∈ needs k, j ∈ solvers ∧ solvers.idxOf j ≤ solvers.idxOf k ∧
    (rating j).getD 0 ≤ (rating k).getD 0 := by decide

theorem rating_earlier : ∀ k ∈ solvers, ∀ j ∈ solvers, (rating j).getD 0 < (rating k).getD 0 → solvers.idxOf j < solvers.idxOf k := by decide

theorem brute_last : ∀ k ∈ solvers, ¬ solvers.idxOf .bruteforce < solvers.idxOf k := by decide

/-- If a step of class `k` was needed, the classes before `k` do not suffice. -/
theorem blocked_reached {s t : Sudoku} {k : Kind} (hk : k ∈ solvers) (hb : Blocked s k) (hs : ∀ g, IsSolution s.bw s.bh s.num g → Neat g s)
    (ht : Reached (Earlier k) s t) : t.empty ≠ [] := by
  obtain ⟨g, T, hT, hbel, he, hidle⟩ := hb
  refine Over.empty (reached_over hT ⟨hs g (hbel.solution hT.cons.1), hbel⟩ (fun j hj => ⟨?_, fun i hi => ?_⟩) ht) he
  · rintro rfl; exact brute_last k hk hj.2
  · have hj2 : j ≠ .bruteforce := by rintro rfl; exact brute_last k hk hj.2
    obtain ⟨h1, h2, -⟩ := needs_earlier j hj.1 hj2 i hi
    exact hidle i ⟨h1, lt_of_le_of_lt h2 hj.2⟩

theorem reached_mono {K K' : Kind → Prop} (h : ∀ k, K k → K' k) {s t : Sudoku} (ht : Reached K s t) : Reached K' s t := by
  induction ht with
  | start => exact .start
  | apply _ _ hk hπ hL hst ih1 ih2 => exact .apply ih1 ih2 (h _ hk) hπ hL hst
  | applyAll _ hk hπ h2 ih => exact .applyAll ih (h _ hk) hπ h2

end Solvers
