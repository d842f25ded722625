import Verif.Model.Calls
import Verif.Proofs.ExactCover
import Verif.Proofs.DlxSearch

set_option autoImplicit false

/-! Helper lemmas: how many calls the search of dlx.py makes. -/

open Spec

namespace Dlx

section
variable {κ ρ : Type} [DecidableEq κ] [DecidableEq ρ]

/-- Forgetting the number. -/
def forget {α β : Type} (r : Except PyErr (α × β × Nat)) : Except PyErr (α × β) := r.map fun p => (p.1, p.2.1)

theorem searchLoopN_same {rec : Dict κ (List ρ) → List ρ → Except PyErr (List (List ρ) × Dict κ (List ρ) × Nat)}
    {rec' : Dict κ (List ρ) → List ρ → Except PyErr (List (List ρ) × Dict κ (List ρ))} (hrec : ∀ X sol, forget (rec X sol) = rec' X sol)
    (Y : Dict ρ (List κ)) (rs : List ρ) :
    ∀ (X : Dict κ (List ρ)) (sol : List ρ), forget (searchLoopN rec Y rs X sol) = searchLoop rec' Y rs X sol := by
  induction rs with
  | nil => intro X sol; rfl
  | cons r rs ih =>
    intro X sol
    unfold searchLoopN searchLoop
    cases select X Y r with
    | error e => rfl
    | ok p =>
      obtain ⟨X1, cols⟩ := p
      simp only
      rw [← hrec X1 (sol ++ [r])]
      cases rec X1 (sol ++ [r]) with
      | error e => rfl
      | ok q =>
        obtain ⟨sols, X2, n⟩ := q
        simp only [forget, Except.map]
        cases deselect X2 Y r cols with
        | error e => rfl
        | ok X3 =>
          simp only
          rw [← ih X3 sol]
          unfold forget
          cases searchLoopN rec Y rs X3 sol with
          | error e => rfl
          | ok q => rfl

theorem searchN_same (π : OrdersOf κ ρ) (Y : Dict ρ (List κ)) (fuel : Nat) : ∀ (X : Dict κ (List ρ)) (sol : List ρ),
    forget (searchN π Y fuel X sol) = search π Y fuel X sol := by
  induction fuel with
  | zero => intro X sol; rfl
  | succ fuel ih =>
    intro X sol
    unfold searchN search
    cases minKey X (π.keys sol (X.map Prod.fst)) with
    | none => rfl
    | some c =>
      simp only
      cases Dict.get X c with
      | error e => rfl
      | ok rs =>
        simp only
        rw [← searchLoopN_same ih Y (π.rows sol rs) X sol]
        unfold forget
        cases searchLoopN (searchN π Y fuel) Y (π.rows sol rs) X sol with
        | error e => rfl
        | ok q => rfl

theorem dlxN_same (π : Orders) (fuel : Nat) (s : Sudoku) : (dlxN π fuel s).map Prod.fst = dlx π fuel s := by
  unfold dlxN dlx
  simp only
  cases exactCover (columns (s.copy.bh * s.copy.bw)) (matrix s.copy.bh s.copy.bw) with
  | error e => rfl
  | ok X =>
    simp only
    cases selectGiven s.copy (matrix s.copy.bh s.copy.bw) s.copy.cells X with
    | error e => rfl
    | ok o =>
      cases o with
      | none => rfl
      | some X =>
        simp only
        rw [← searchN_same]
        unfold forget
        cases searchN π (matrix s.copy.bh s.copy.bw) fuel X [] with
        | error e => rfl
        | ok q => rfl

namespace Cover

variable {K : List κ} {L : List ρ} {f : ρ → List κ}

theorem minKey_min (X : Dict κ (List ρ)) (ks : List κ) : ∀ c, minKey X ks = some c → ∀ k ∈ ks,
    ((List.lookup c X).getD []).length ≤ ((List.lookup k X).getD []).length := by
  induction ks with
  | nil => intro c h; cases h
  | cons k ks ih =>
    intro c h x hx
    simp only [minKey] at h
    cases hm : minKey X ks with
    | none =>
      rw [minKey_none] at hm
      subst hm
      simp only [minKey] at h
      injection h with h
      subst h
      rw [List.mem_singleton.1 hx]
    | some k' =>
      rw [hm] at h
      simp only at h
      split at h
      · rename_i hle
        injection h with h
        subst h
        rcases List.mem_cons.1 hx with rfl | hx
        · exact le_rfl
        · exact hle.trans (ih k' hm x hx)
      · rename_i hle
        injection h with h
        subst h
        rcases List.mem_cons.1 hx with rfl | hx
        · omega
        · exact ih k' hm x hx

/-- The columns covered after the rows `S` have been chosen, too. -/
def covS (f : ρ → List κ) (D : Finset κ) (S : Finset ρ) : Finset κ := D ∪ S.biUnion fun i => (f i).toFinset

omit [DecidableEq ρ] in
theorem mem_covS {D : Finset κ} {S : Finset ρ} {k : κ} : k ∈ covS f D S ↔ k ∈ D ∨ ∃ i ∈ S, k ∈ f i := by
  unfold covS; simp

theorem covS_erase {D : Finset κ} {S : Finset ρ} {r : ρ} (hr : r ∈ S) : covS f (D ∪ (f r).toFinset) (S.erase r) = covS f D S := by
  ext k
  rw [mem_covS, mem_covS, Finset.mem_union, List.mem_toFinset]
  constructor
  · rintro ((h | h) | ⟨i, hi, h⟩)
    · exact Or.inl h
    · exact Or.inr ⟨r, hr, h⟩
    · exact Or.inr ⟨i, Finset.mem_of_mem_erase hi, h⟩
  · rintro (h | ⟨i, hi, h⟩)
    · exact Or.inl (Or.inl h)
    · by_cases e : i = r
      · subst e; exact Or.inl (Or.inr h)
      · exact Or.inr ⟨i, Finset.mem_erase.2 ⟨e, hi⟩, h⟩

/-- `r` is the only row left for the column `k`. -/
def Alone (L : List ρ) (f : ρ → List κ) (D : Finset κ) (k : κ) (r : ρ) : Prop := ∀ i, (i ∈ L ∧ k ∈ f i ∧ ∀ k' ∈ f i, k' ∉ D) ↔ i = r

/-- Some column that is not covered has only one row left. -/
def HasAlone (K : List κ) (L : List ρ) (f : ρ → List κ) (D : Finset κ) : Prop := ∃ k ∈ K, ∃ r, Alone L f D k r

theorem searchLoopN_spec {rec : Dict κ (List ρ) → List ρ → Except PyErr (List (List ρ) × Dict κ (List ρ) × Nat)} {D : Finset κ} {P : ρ → Nat → Prop}
    (hrec : ∀ r X1 sol a X2 n, r ∈ L → (∀ k ∈ f r, k ∉ D) → Rep K L f X1 (D ∪ (f r).toFinset) → rec X1 sol = .ok (a, X2, n) →
      Rep K L f X2 (D ∪ (f r).toFinset) ∧ P r n) (rs : List ρ) :
    ∀ X sol a X' n, Rep K L f X D → (∀ r ∈ rs, r ∈ L ∧ ∀ k ∈ f r, k ∉ D) → searchLoopN rec (table L f) rs X sol = .ok (a, X', n) →
      Rep K L f X' D ∧ ∃ ns : List Nat, List.Forall₂ P rs ns ∧ n = ns.sum := by
  induction rs with
  | nil =>
    intro X sol a X' n h _ e
    cases e
    exact ⟨h, [], .nil, rfl⟩
  | cons r rs ih =>
    intro X sol a X' n h hall e
    obtain ⟨hr, hd⟩ := hall r (by simp)
    obtain ⟨X1, st, e1, r1, s1⟩ := select_ok h hr hd
    unfold searchLoopN at e
    rw [e1] at e
    simp only at e
    cases e2 : rec X1 (sol ++ [r]) with
    | error x => rw [e2] at e; cases e
    | ok q =>
      obtain ⟨sols, X2, n1⟩ := q
      rw [e2] at e
      simp only at e
      obtain ⟨r2, p2⟩ := hrec r X1 _ _ _ _ hr hd r1 e2
      obtain ⟨X3, e3, r3⟩ := deselect_ok r2 hr hd s1
      rw [e3] at e
      simp only at e
      cases e4 : searchLoopN rec (table L f) rs X3 sol with
      | error x => rw [e4] at e; cases e
      | ok q =>
        obtain ⟨sols', X4, n2⟩ := q
        rw [e4] at e
        cases e
        obtain ⟨r4, ns, p4, rfl⟩ := ih X3 sol _ _ _ r3 (fun x hx => hall x (by simp [hx])) e4
        exact ⟨r4, n1 :: ns, .cons p2 p4, by simp⟩

omit [DecidableEq ρ] in
theorem pick_sum {P : ρ → Nat → Prop} (hP : ∀ r n, P r n → 1 ≤ n) {rs : List ρ} {ns : List Nat} (h : List.Forall₂ P rs ns) :
    rs.length ≤ ns.sum ∧ ∀ r ∈ rs, ∃ n, P r n ∧ n + (rs.length - 1) ≤ ns.sum := by
  induction h with
  | nil => simp
  | @cons r n rs ns h1 h2 ih =>
    have := hP r n h1
    simp only [List.length_cons, List.sum_cons]
    refine ⟨by omega, fun x hx => ?_⟩
    rcases List.mem_cons.1 hx with rfl | hx
    · exact ⟨n, h1, by omega⟩
    · obtain ⟨m, h3, h4⟩ := ih.2 x hx
      have := List.length_pos_of_mem hx
      exact ⟨m, h3, by omega⟩

/-- The number of calls, if the rest can be covered by the rows `T`. -/
structure Count (K : List κ) (L : List ρ) (f : ρ → List κ) (D : Finset κ) (n : Nat) : Prop where
  pos : 1 ≤ n
  ge : ∀ T, IsCover K L f D T → T.card + 1 ≤ n
  forced : ∀ T, IsCover K L f D T → (∀ S ⊆ T, S ≠ T → HasAlone K L f (covS f D S)) → n = T.card + 1
  stuck : ∀ T, IsCover K L f D T → ∀ S ⊆ T, S ≠ T → ¬ HasAlone K L f (covS f D S) → T.card + 2 ≤ n

theorem searchN_count {π : OrdersOf κ ρ} (hπ : π.Ok) (fuel : Nat) : ∀ (D : Finset κ) (X : Dict κ (List ρ)) (sol : List ρ) a X' n,
    Rep K L f X D → searchN π (table L f) fuel X sol = .ok (a, X', n) → Rep K L f X' D ∧ Count K L f D n := by
  induction fuel with
  | zero => intro D X sol a X' n _ e; cases e
  | succ fuel ih =>
    intro D X sol a X' n h e
    unfold searchN at e
    cases hmin : minKey X (π.keys sol (X.map Prod.fst)) with
    | none =>
      rw [hmin] at e
      cases e
      rw [minKey_none] at hmin
      have hkeys : X.map Prod.fst = [] := List.perm_nil.1 ((hπ.1 sol _).symm.trans (by rw [hmin]))
      have hall : ∀ j ∈ K, j ∈ D := by
        intro j hj
        by_contra hD
        obtain ⟨l, hl⟩ := h.key hj hD
        have := (lookup_isSome_iff j X).1 ⟨l, hl⟩
        rw [hkeys] at this; cases this
      have hT : ∀ T, IsCover K L f D T → T = ∅ := by
        intro T hT
        rw [Finset.eq_empty_iff_forall_notMem]
        intro i hi
        obtain ⟨j, hj⟩ := List.exists_mem_of_ne_nil _ (hT.ne i hi)
        exact hT.disj i hi j hj (hall j (h.good.sub i (hT.legal i hi) j hj))
      refine ⟨h, by omega, fun T h' => ?_, fun T h' _ => ?_, fun T h' S hS hne => ?_⟩
      · rw [hT T h']; simp
      · rw [hT T h']; simp
      · rw [hT T h'] at hS hne
        exact absurd (Finset.subset_empty.1 hS) hne
    | some c =>
      rw [hmin] at e
      have hc : c ∈ X.map Prod.fst := (hπ.1 sol _).mem_iff.1 (minKey_mem X _ c hmin)
      obtain ⟨rs, hrs⟩ := (lookup_isSome_iff c X).2 hc
      obtain ⟨hcc, hcD⟩ := h.of_key hrs
      simp only [get_ok hrs] at e
      have hmem := h.mem c rs hrs
      cases e1 : searchLoopN (searchN π (table L f) fuel) (table L f) (π.rows sol rs) X sol with
      | error x => rw [e1] at e; cases e
      | ok q =>
        obtain ⟨sols, X2, m⟩ := q
        rw [e1] at e
        cases e
        obtain ⟨r2, ns, hns, rfl⟩ := searchLoopN_spec (K := K) (L := L) (f := f) (D := D) (P := fun r n => Count K L f (D ∪ (f r).toFinset) n)
          (fun r X1 sol a X2 n _ _ hX e => ih _ X1 sol a X2 n hX e) (π.rows sol rs) X sol _ _ _ h
          (fun r hr => by
            have := (hmem r).1 ((hπ.2 sol rs).mem_iff.1 hr)
            exact ⟨this.1, this.2.2⟩) e1
        obtain ⟨hlen, hpick⟩ := pick_sum (fun r n h => h.pos) hns
        have hperm := hπ.2 sol rs
        -- the row of the cover that is chosen here
        have hrow : ∀ T, IsCover K L f D T → ∃ r ∈ T, r ∈ π.rows sol rs ∧ c ∈ f r := by
          intro T hT
          obtain ⟨i, hi, hci⟩ := hT.ex c hcc hcD
          exact ⟨i, hi, hperm.mem_iff.2 ((hmem i).2 ⟨hT.legal i hi, hci, hT.disj i hi⟩), hci⟩
        have hsingle : ∀ r, π.rows sol rs = [r] → Alone L f D c r := by
          intro r hr i
          rw [← hmem, ← hperm.mem_iff, hr, List.mem_singleton]
        refine ⟨r2, by omega, fun T hT => ?_, fun T hT hF => ?_, fun T hT S hS hne hst => ?_⟩
        · obtain ⟨r, hrT, hr, -⟩ := hrow T hT
          obtain ⟨n0, h1, h2⟩ := hpick r hr
          have h3 := h1.ge _ (hT.erase hrT)
          rw [Finset.card_erase_of_mem hrT] at h3
          have := Finset.card_pos.2 ⟨r, hrT⟩
          omega
        · obtain ⟨r, hrT, hr, -⟩ := hrow T hT
          have hle : (π.rows sol rs).length ≤ 1 := by
            obtain ⟨k, hk, r', hal⟩ := hF ∅ (Finset.empty_subset _) (by rintro rfl; cases hrT)
            have e0 : covS f D ∅ = D := by unfold covS; simp
            rw [e0] at hal
            obtain ⟨-, hk1, hk2⟩ := (hal r').2 rfl
            obtain ⟨l, hl⟩ := h.key hk (hk2 k hk1)
            have h1 := minKey_min X _ c hmin k ((hπ.1 sol _).mem_iff.2 ((lookup_isSome_iff k X).1 ⟨l, hl⟩))
            rw [hrs, hl] at h1
            have h2 : l.length ≤ 1 := by
              rw [← List.toFinset_card_of_nodup (h.nodup k l hl), Finset.card_le_one]
              intro x hx y hy
              rw [List.mem_toFinset, h.mem k l hl, hal] at hx hy
              rw [hx, hy]
            rw [hperm.length_eq]
            exact h1.trans h2
          obtain ⟨r', e'⟩ : ∃ r', π.rows sol rs = [r'] := List.length_eq_one_iff.1 (by have := List.length_pos_of_mem hr; omega)
          rw [e', List.mem_singleton] at hr
          subst hr
          rw [e'] at hns
          cases hns with
          | cons h1 h2 =>
            cases h2
            have h3 := h1.forced _ (hT.erase hrT) (fun S hS hne => by
              have h4 := hF (insert r S) (Finset.insert_subset hrT (hS.trans (Finset.erase_subset _ _))) (fun e => hne (by
                rw [← e, Finset.erase_insert]
                exact fun h => (Finset.mem_erase.1 (hS h)).1 rfl))
              have h5 := covS_erase (f := f) (D := D) (Finset.mem_insert_self r S)
              rw [Finset.erase_insert (fun h => (Finset.mem_erase.1 (hS h)).1 rfl)] at h5
              rw [h5]; exact h4)
            rw [Finset.card_erase_of_mem hrT] at h3
            have := Finset.card_pos.2 ⟨r, hrT⟩
            simp only [List.sum_cons, List.sum_nil]
            omega
        · obtain ⟨r, hrT, hr, hcr⟩ := hrow T hT
          have hTpos := Finset.card_pos.2 ⟨r, hrT⟩
          obtain ⟨n0, h1, h2⟩ := hpick r hr
          by_cases hle : (π.rows sol rs).length ≤ 1
          · obtain ⟨r', e'⟩ : ∃ r', π.rows sol rs = [r'] := List.length_eq_one_iff.1 (by have := List.length_pos_of_mem hr; omega)
            rw [e', List.mem_singleton] at hr
            subst hr
            have hal := hsingle r e'
            have hrS : r ∈ S := by
              by_contra hrS
              refine hst ⟨c, hcc, r, fun i => ⟨fun hi => ?_, ?_⟩⟩
              · exact (hal i).1 ⟨hi.1, hi.2.1, fun k hk hD => hi.2.2 k hk (mem_covS.2 (Or.inl hD))⟩
              · rintro rfl
                refine ⟨hT.legal i hrT, hcr, fun k hk hD => ?_⟩
                rcases mem_covS.1 hD with hD | ⟨x, hx, hkx⟩
                · exact hT.disj i hrT k hk hD
                · have := hT.uniq i hrT x (hS hx) k hk hkx
                  subst this
                  exact hrS hx
            have h3 := h1.stuck _ (hT.erase hrT) (S.erase r) (Finset.erase_subset_erase r hS) (fun e => hne (by
              rw [← Finset.insert_erase hrS, e, Finset.insert_erase hrT])) (by rw [covS_erase hrS]; exact hst)
            rw [Finset.card_erase_of_mem hrT] at h3
            omega
          · have h3 := h1.ge _ (hT.erase hrT)
            rw [Finset.card_erase_of_mem hrT] at h3
            omega

end Cover

end

end Dlx
