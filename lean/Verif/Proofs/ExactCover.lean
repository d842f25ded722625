import Verif.Model.Dlx
import Mathlib.Data.List.Nodup
import Mathlib.Data.Finset.Dedup
import Mathlib.Tactic.Tauto

set_option autoImplicit false
set_option linter.unusedSectionVars false

/-! Helper lemmas: `select`, `deselect` and `solve` for any exact cover problem, that is columns `K`, rows `L` and the columns `f i`
of a row `i`. -/

namespace Dlx

section dict
variable {κ ν : Type} [DecidableEq κ]

theorem lookup_cons' (a k : κ) (v : ν) (l : List (κ × ν)) :
    List.lookup a ((k, v) :: l) = if a = k then some v else List.lookup a l := by
  rw [List.lookup_cons]
  by_cases h : a = k
  · simp [h]
  · have : (a == k) = false := by simpa using h
    rw [this, if_neg h]

theorem lookup_isSome_iff (a : κ) (d : List (κ × ν)) : (∃ v, List.lookup a d = some v) ↔ a ∈ d.map Prod.fst := by
  induction d with
  | nil => simp
  | cons p d ih =>
    obtain ⟨k, v⟩ := p
    rw [lookup_cons', List.map_cons, List.mem_cons, ← ih]
    by_cases h : a = k <;> simp [h]

theorem lookup_none_iff (a : κ) (d : List (κ × ν)) : List.lookup a d = none ↔ a ∉ d.map Prod.fst := by
  rw [← lookup_isSome_iff]
  cases List.lookup a d <;> simp

theorem lookup_map_set (d : List (κ × ν)) (k : κ) (v : ν) (a : κ) :
    List.lookup a (d.map fun p => if p.1 = k then (k, v) else p) =
      if a = k then (List.lookup k d).map (fun _ => v) else List.lookup a d := by
  induction d with
  | nil => simp
  | cons p d ih =>
    obtain ⟨k', v'⟩ := p
    rw [List.map_cons]
    by_cases h : k' = k
    · subst h
      simp only [if_true]
      rw [lookup_cons', lookup_cons', lookup_cons', ih]
      by_cases h' : a = k' <;> simp [h']
    · simp only [if_neg h]
      rw [lookup_cons', lookup_cons', lookup_cons', ih]
      by_cases h' : a = k
      · subst h'
        have : a ≠ k' := fun e => h e.symm
        simp [this]
      · by_cases h'' : a = k' <;> simp [h', h'']
        intro e; exact absurd e h

theorem lookup_filter_ne (d : List (κ × ν)) (k a : κ) :
    List.lookup a (d.filter fun p => p.1 ≠ k) = if a = k then none else List.lookup a d := by
  induction d with
  | nil => simp
  | cons p d ih =>
    obtain ⟨k', v'⟩ := p
    rw [lookup_cons']
    by_cases h : k' = k
    · subst h
      rw [List.filter_cons_of_neg (by simp), ih]
      by_cases h' : a = k' <;> simp [h']
    · rw [List.filter_cons_of_pos (by simp [h]), lookup_cons', ih]
      by_cases h' : a = k
      · subst h'
        have : a ≠ k' := fun e => h e.symm
        simp [this]
      · simp [h']

theorem lookup_append (d : List (κ × ν)) (k a : κ) (v : ν) :
    List.lookup a (d ++ [(k, v)]) = match List.lookup a d with
      | some x => some x
      | none => if a = k then some v else none := by
  induction d with
  | nil => rw [List.nil_append, lookup_cons']; rfl
  | cons p d ih =>
    obtain ⟨k', v'⟩ := p
    rw [List.cons_append, lookup_cons', lookup_cons', ih]
    by_cases h : a = k' <;> simp [h]

theorem get_ok {d : Dict κ ν} {k : κ} {v : ν} (h : List.lookup k d = some v) : Dict.get d k = .ok v := by
  unfold Dict.get; rw [h]

theorem get_err {d : Dict κ ν} {k : κ} (h : List.lookup k d = none) : Dict.get d k = .error .KeyError := by
  unfold Dict.get; rw [h]

theorem modify_ok {d : Dict κ ν} {k : κ} {v v' : ν} {f : ν → Except PyErr ν} (h : List.lookup k d = some v)
    (hf : f v = .ok v') : ∃ d', Dict.modify d k f = .ok d' ∧
      ∀ a, List.lookup a d' = if a = k then some v' else List.lookup a d := by
  refine ⟨_, by unfold Dict.modify; rw [h]; simp only; rw [hf], fun a => ?_⟩
  rw [lookup_map_set, h, Option.map_some]

theorem pop_ok {d : Dict κ ν} {k : κ} {v : ν} (h : List.lookup k d = some v) :
    ∃ d', Dict.pop d k = .ok (v, d') ∧ ∀ a, List.lookup a d' = if a = k then none else List.lookup a d := by
  refine ⟨_, by unfold Dict.pop; rw [h], fun a => ?_⟩
  rw [lookup_filter_ne]

theorem set_none {d : Dict κ ν} {k : κ} {v : ν} (h : List.lookup k d = none) (a : κ) :
    List.lookup a (Dict.set d k v) = if a = k then some v else List.lookup a d := by
  unfold Dict.set; rw [h]
  rw [lookup_append]
  by_cases e : a = k
  · subst e; rw [h]
  · simp only [if_neg e]; cases List.lookup a d <;> rfl

end dict

theorem foldlM_ok {α β : Type} {f : β → α → Except PyErr β} {a : α} {l : List α} {b b' : β} (h : f b a = .ok b') :
    (a :: l).foldlM f b = l.foldlM f b' := by rw [List.foldlM_cons, h]; rfl

theorem foldlM_err {α β : Type} {f : β → α → Except PyErr β} {a : α} {l : List α} {b : β} {e : PyErr}
    (h : f b a = .error e) : (a :: l).foldlM f b = .error e := by rw [List.foldlM_cons, h]; rfl

theorem foldlM_append_ok {α β : Type} {f : β → α → Except PyErr β} {l l' : List α} {b b' : β}
    (h : l.foldlM f b = .ok b') : (l ++ l').foldlM f b = l'.foldlM f b' := by rw [List.foldlM_append, h]; rfl


theorem lookup_map_self {α β : Type} [DecidableEq α] (l : List α) (f : α → β) (a : α) :
    List.lookup a (l.map fun x => (x, f x)) = if a ∈ l then some (f a) else none := by
  induction l with
  | nil => simp
  | cons x l ih =>
    rw [List.map_cons, lookup_cons', ih]
    by_cases h : a = x
    · subst h; simp
    · simp [h]


theorem foldlM_congr' {α β : Type} {f g : β → α → Except PyErr β} (l : List α) (h : ∀ a ∈ l, ∀ b, f b a = g b a) (b : β) :
    l.foldlM f b = l.foldlM g b := by
  induction l generalizing b with
  | nil => rfl
  | cons a l ih =>
    rw [List.foldlM_cons, List.foldlM_cons, h a (by simp)]
    congr 1
    funext b'
    exact ih (fun x hx => h x (by simp [hx])) b'


namespace Cover
variable {κ ρ : Type} [DecidableEq κ] [DecidableEq ρ]

/-! ### removing and adding rows -/

theorem removeKs (i : ρ) (j : κ) (ks : List κ) : ∀ (X : Dict κ (List ρ)), ks.Nodup →
    (∀ k ∈ ks, k ≠ j → ∃ l, List.lookup k X = some l ∧ i ∈ l) →
    ∃ X', ks.foldlM (fun X k => if k ≠ j then Dict.modify X k (setRemove i) else .ok X) X = .ok X' ∧
      ∀ k, List.lookup k X' = if k ∈ ks ∧ k ≠ j then (List.lookup k X).map (·.erase i) else List.lookup k X := by
  induction ks with
  | nil => intro X _ _; exact ⟨X, rfl, by simp⟩
  | cons k ks ih =>
    intro X hnd hX
    have hk : k ∉ ks := (List.nodup_cons.1 hnd).1
    by_cases hkj : k = j
    · obtain ⟨X', e, hl⟩ := ih X (List.nodup_cons.1 hnd).2 (fun k' h' => hX k' (by simp [h']))
      refine ⟨X', ?_, fun k' => ?_⟩
      · rw [foldlM_ok (b' := X) (by simp [hkj])]; exact e
      · rw [hl]
        simp only [List.mem_cons]
        by_cases h : k' = k
        · subst h; simp [hkj]
        · simp [h]
    · obtain ⟨l, hl1, hl2⟩ := hX k (by simp) hkj
      obtain ⟨X1, e1, h1⟩ := modify_ok (f := setRemove i) (v' := l.erase i) hl1 (by unfold setRemove; rw [if_pos hl2])
      obtain ⟨X', e, hl⟩ := ih X1 (List.nodup_cons.1 hnd).2 (by
        intro k' hk' hk'j
        obtain ⟨l', e', m'⟩ := hX k' (by simp [hk']) hk'j
        refine ⟨l', ?_, m'⟩
        rw [h1, if_neg]; · exact e'
        rintro rfl; exact hk hk')
      refine ⟨X', ?_, fun k' => ?_⟩
      · rw [foldlM_ok (b' := X1) (by rw [if_pos hkj]; exact e1)]; exact e
      · rw [hl, h1]
        simp only [List.mem_cons]
        by_cases h : k' = k
        · subst h; simp [hk, hkj, hl1]
        · simp [h]

theorem addKs (i : ρ) (j : κ) (ks : List κ) : ∀ (X : Dict κ (List ρ)), ks.Nodup →
    (∀ k ∈ ks, k ≠ j → ∃ l, List.lookup k X = some l) →
    ∃ X', ks.foldlM (fun X k => if k ≠ j then Dict.modify X k (setAdd i) else .ok X) X = .ok X' ∧
      ∀ k, List.lookup k X' = if k ∈ ks ∧ k ≠ j then
        (List.lookup k X).map (fun l => if i ∈ l then l else l ++ [i]) else List.lookup k X := by
  induction ks with
  | nil => intro X _ _; exact ⟨X, rfl, by simp⟩
  | cons k ks ih =>
    intro X hnd hX
    have hk : k ∉ ks := (List.nodup_cons.1 hnd).1
    by_cases hkj : k = j
    · obtain ⟨X', e, hl⟩ := ih X (List.nodup_cons.1 hnd).2 (fun k' h' => hX k' (by simp [h']))
      refine ⟨X', ?_, fun k' => ?_⟩
      · rw [foldlM_ok (b' := X) (by simp [hkj])]; exact e
      · rw [hl]
        simp only [List.mem_cons]
        by_cases h : k' = k
        · subst h; simp [hkj]
        · simp [h]
    · obtain ⟨l, hl1⟩ := hX k (by simp) hkj
      obtain ⟨X1, e1, h1⟩ := modify_ok (f := setAdd i) (v' := if i ∈ l then l else l ++ [i]) hl1 rfl
      obtain ⟨X', e, hl⟩ := ih X1 (List.nodup_cons.1 hnd).2 (by
        intro k' hk' hk'j
        obtain ⟨l', e'⟩ := hX k' (by simp [hk']) hk'j
        refine ⟨l', ?_⟩
        rw [h1, if_neg]; · exact e'
        rintro rfl; exact hk hk')
      refine ⟨X', ?_, fun k' => ?_⟩
      · rw [foldlM_ok (b' := X1) (by rw [if_pos hkj]; exact e1)]; exact e
      · rw [hl, h1]
        simp only [List.mem_cons]
        by_cases h : k' = k
        · subst h; simp [hk, hkj, hl1]
        · simp [h]


/-- The dict `Y`. -/
def table (L : List ρ) (f : ρ → List κ) : Dict ρ (List κ) := L.map fun i => (i, f i)

/-- Rows have no column twice, and only columns of `K`. -/
structure Good (K : List κ) (L : List ρ) (f : ρ → List κ) : Prop where
  nodup : ∀ i ∈ L, (f i).Nodup
  sub : ∀ i ∈ L, ∀ j ∈ f i, j ∈ K

variable {K : List κ} {L : List ρ} {f : ρ → List κ}

theorem lookup_table (i : ρ) : List.lookup i (table L f) = if i ∈ L then some (f i) else none := by
  unfold table
  rw [lookup_map_self]

theorem removeRows (hG : ∀ i ∈ L, (f i).Nodup) (j : κ) (is : List ρ) : ∀ (X : Dict κ (List ρ)), is.Nodup → (∀ i ∈ is, i ∈ L) →
    (∀ k l, List.lookup k X = some l → l.Nodup) →
    (∀ i ∈ is, ∀ k ∈ f i, k ≠ j → ∃ l, List.lookup k X = some l ∧ i ∈ l) →
    ∃ X', is.foldlM (removeRow (table L f) j) X = .ok X' ∧
      (∀ k, List.lookup k X' = none ↔ List.lookup k X = none) ∧
      ∀ k l', List.lookup k X' = some l' → l'.Nodup ∧ ∃ l, List.lookup k X = some l ∧
        ∀ x, x ∈ l' ↔ x ∈ l ∧ ¬ (x ∈ is ∧ k ∈ f x ∧ k ≠ j) := by
  induction is with
  | nil => intro X _ _ hnd _; exact ⟨X, rfl, by simp, fun k l' h => ⟨hnd k l' h, l', h, by simp⟩⟩
  | cons i is ih =>
    intro X hni hleg hnd hX
    have hi : i ∉ is := (List.nodup_cons.1 hni).1
    obtain ⟨X1, e1, h1⟩ := removeKs i j (f i) X (hG i (hleg i (by simp))) (hX i (by simp))
    have e1' : removeRow (table L f) j X i = .ok X1 := by
      unfold removeRow
      rw [get_ok (v := f i) (by rw [lookup_table, if_pos (hleg i (by simp))])]
      exact e1
    have hnd1 : ∀ k l, List.lookup k X1 = some l → l.Nodup := by
      intro k l hl
      rw [h1] at hl
      split at hl
      · rw [Option.map_eq_some_iff] at hl
        obtain ⟨l0, h0, rfl⟩ := hl
        exact (hnd k l0 h0).erase i
      · exact hnd k l hl
    obtain ⟨X', e, hn, hl⟩ := ih X1 (List.nodup_cons.1 hni).2 (fun x hx => hleg x (by simp [hx])) hnd1 (by
      intro x hx k hk hkj
      obtain ⟨l, hl, hm⟩ := hX x (by simp [hx]) k hk hkj
      rw [h1]
      by_cases hc : k ∈ f i ∧ k ≠ j
      · rw [if_pos hc, hl]
        refine ⟨_, rfl, ?_⟩
        rw [(hnd k l hl).mem_erase_iff]
        exact ⟨by rintro rfl; exact hi hx, hm⟩
      · rw [if_neg hc]; exact ⟨l, hl, hm⟩)
    refine ⟨X', by rw [foldlM_ok e1']; exact e, fun k => ?_, fun k l' hl' => ?_⟩
    · rw [hn, h1]; split <;> simp
    · obtain ⟨nd', l1, hl1, m1⟩ := hl k l' hl'
      refine ⟨nd', ?_⟩
      rw [h1] at hl1
      split at hl1
      · rename_i hc
        rw [Option.map_eq_some_iff] at hl1
        obtain ⟨l0, h0, rfl⟩ := hl1
        refine ⟨l0, h0, fun x => ?_⟩
        rw [m1, (hnd k l0 h0).mem_erase_iff, List.mem_cons]
        by_cases hx : x = i
        · subst hx; simp [hc]
        · simp [hx]
      · rename_i hc
        refine ⟨l1, hl1, fun x => ?_⟩
        rw [m1, List.mem_cons]
        by_cases hx : x = i
        · subst hx; tauto
        · simp [hx]

theorem addRows (hG : ∀ i ∈ L, (f i).Nodup) (j : κ) (is : List ρ) : ∀ (X : Dict κ (List ρ)), (∀ i ∈ is, i ∈ L) →
    (∀ k l, List.lookup k X = some l → l.Nodup) →
    (∀ i ∈ is, ∀ k ∈ f i, k ≠ j → ∃ l, List.lookup k X = some l) →
    ∃ X', is.foldlM (addRow (table L f) j) X = .ok X' ∧
      (∀ k, List.lookup k X' = none ↔ List.lookup k X = none) ∧
      ∀ k l', List.lookup k X' = some l' → l'.Nodup ∧ ∃ l, List.lookup k X = some l ∧
        ∀ x, x ∈ l' ↔ x ∈ l ∨ (x ∈ is ∧ k ∈ f x ∧ k ≠ j) := by
  induction is with
  | nil => intro X _ hnd _; exact ⟨X, rfl, by simp, fun k l' h => ⟨hnd k l' h, l', h, by simp⟩⟩
  | cons i is ih =>
    intro X hleg hnd hX
    obtain ⟨X1, e1, h1⟩ := addKs i j (f i) X (hG i (hleg i (by simp))) (hX i (by simp))
    have e1' : addRow (table L f) j X i = .ok X1 := by
      unfold addRow
      rw [get_ok (v := f i) (by rw [lookup_table, if_pos (hleg i (by simp))])]
      exact e1
    have hnd1 : ∀ k l, List.lookup k X1 = some l → l.Nodup := by
      intro k l hl
      rw [h1] at hl
      split at hl
      · rw [Option.map_eq_some_iff] at hl
        obtain ⟨l0, h0, rfl⟩ := hl
        split
        · exact hnd k l0 h0
        · rename_i hx
          rw [List.nodup_append']
          exact ⟨hnd k l0 h0, by simp, by simpa using hx⟩
      · exact hnd k l hl
    obtain ⟨X', e, hn, hl⟩ := ih X1 (fun x hx => hleg x (by simp [hx])) hnd1 (by
      intro x hx k hk hkj
      obtain ⟨l, hl⟩ := hX x (by simp [hx]) k hk hkj
      rw [h1, hl]
      split <;> exact ⟨_, rfl⟩)
    refine ⟨X', by rw [foldlM_ok e1']; exact e, fun k => ?_, fun k l' hl' => ?_⟩
    · rw [hn, h1]; split <;> simp
    · obtain ⟨nd', l1, hl1, m1⟩ := hl k l' hl'
      refine ⟨nd', ?_⟩
      rw [h1] at hl1
      split at hl1
      · rename_i hc
        rw [Option.map_eq_some_iff] at hl1
        obtain ⟨l0, h0, rfl⟩ := hl1
        refine ⟨l0, h0, fun x => ?_⟩
        rw [m1, List.mem_cons]
        have : (x ∈ if i ∈ l0 then l0 else l0 ++ [i]) ↔ x ∈ l0 ∨ x = i := by
          split
          · rename_i hm
            constructor
            · exact Or.inl
            · rintro (h | rfl); exacts [h, hm]
          · simp
        rw [this]
        by_cases hx : x = i
        · subst hx; simp [hc]
        · simp [hx]
      · rename_i hc
        refine ⟨l1, hl1, fun x => ?_⟩
        rw [m1, List.mem_cons]
        by_cases hx : x = i
        · subst hx; tauto
        · simp [hx]

/-! ### the meaning of `X` -/

/-- `X` is the matrix with the columns `D` covered. -/
structure Rep (K : List κ) (L : List ρ) (f : ρ → List κ) (X : Dict κ (List ρ)) (D : Finset κ) : Prop where
  good : Good K L f
  dom : ∀ j, List.lookup j X = none ↔ ¬ (j ∈ K ∧ j ∉ D)
  nodup : ∀ j l, List.lookup j X = some l → l.Nodup
  mem : ∀ j l, List.lookup j X = some l → ∀ i, i ∈ l ↔ i ∈ L ∧ j ∈ f i ∧ ∀ k ∈ f i, k ∉ D

theorem Rep.key {X : Dict κ (List ρ)} {D : Finset κ} (h : Rep K L f X D) {j : κ} (h1 : j ∈ K)
    (h2 : j ∉ D) : ∃ l, List.lookup j X = some l := by
  cases hl : List.lookup j X with
  | some l => exact ⟨l, rfl⟩
  | none => exact absurd ⟨h1, h2⟩ ((h.dom j).1 hl)

theorem Rep.of_key {X : Dict κ (List ρ)} {D : Finset κ} (h : Rep K L f X D) {j : κ} {l : List ρ}
    (hl : List.lookup j X = some l) : j ∈ K ∧ j ∉ D := by
  by_contra hc
  rw [(h.dom j).2 hc] at hl; cases hl

/-- The rows taken out when column `j` is covered. -/
def Popped (L : List ρ) (f : ρ → List κ) (D : Finset κ) (j : κ) (l : List ρ) : Prop :=
  l.Nodup ∧ ∀ i, i ∈ l ↔ i ∈ L ∧ j ∈ f i ∧ ∀ k ∈ f i, k ∉ D


theorem cover {X : Dict κ (List ρ)} {D : Finset κ} (h : Rep K L f X D) {j : κ} (hj : j ∈ K)
    (hD : j ∉ D) (cols : List (List ρ)) :
    ∃ X' l, selStep (table L f) (X, cols) j = .ok (X', l :: cols) ∧ Rep K L f X' (insert j D) ∧ Popped L f D j l := by
  obtain ⟨l, hl⟩ := h.key hj hD
  have hm := h.mem j l hl
  obtain ⟨X1, e1, n1, m1⟩ := removeRows (L := L) (f := f) h.good.nodup j l X (h.nodup j l hl) (fun i hi => ((hm i).1 hi).1) h.nodup (by
    intro i hi k hk hkj
    obtain ⟨a, b, c⟩ := (hm i).1 hi
    obtain ⟨lk, hlk⟩ := h.key (h.good.sub _ a k hk) (c k hk)
    exact ⟨lk, hlk, (h.mem k lk hlk i).2 ⟨a, hk, c⟩⟩)
  have hj1 : ∃ v, List.lookup j X1 = some v := by
    cases hv : List.lookup j X1 with
    | some v => exact ⟨v, rfl⟩
    | none => rw [n1, hl] at hv; cases hv
  obtain ⟨v, hv⟩ := hj1
  obtain ⟨ndv, l0, hl0, mv⟩ := m1 j v hv
  rw [hl] at hl0; injection hl0 with hl0; subst hl0
  obtain ⟨X2, e2, h2⟩ := pop_ok hv
  refine ⟨X2, v, ?_, ⟨h.good, ?_, ?_, ?_⟩, ndv, ?_⟩
  · unfold selStep
    simp only [get_ok hl, bind, Except.bind, e1, e2, pure, Except.pure]
  · intro k
    rw [h2]
    by_cases hk : k = j
    · subst hk; simp
    · rw [if_neg hk, n1, h.dom, Finset.mem_insert]
      tauto
  · intro k lk hlk
    rw [h2] at hlk
    split at hlk
    · cases hlk
    · exact (m1 k lk hlk).1
  · intro k lk hlk i
    rw [h2] at hlk
    split at hlk
    · cases hlk
    · rename_i hk
      obtain ⟨-, l0, hl0, m0⟩ := m1 k lk hlk
      rw [m0, h.mem k l0 hl0, hm]
      simp only [Finset.mem_insert, not_or]
      constructor
      · rintro ⟨⟨a, b, c⟩, d⟩
        refine ⟨a, b, fun x hx => ⟨?_, c x hx⟩⟩
        rintro rfl
        exact d ⟨⟨a, hx, c⟩, b, hk⟩
      · rintro ⟨a, b, c⟩
        refine ⟨⟨a, b, fun x hx => (c x hx).2⟩, ?_⟩
        rintro ⟨⟨-, hx, -⟩, -, -⟩
        exact (c j hx).1 rfl
  · intro i
    rw [mv, hm]
    simp

theorem uncover {X : Dict κ (List ρ)} {D : Finset κ} {j : κ} (h : Rep K L f X (insert j D)) {l : List ρ}
    (hj : j ∈ K) (hD : j ∉ D) (hp : Popped L f D j l) (cols : List (List ρ)) :
    ∃ X', deselStep (table L f) (X, l :: cols) j = .ok (X', cols) ∧ Rep K L f X' D := by
  have hnone : List.lookup j X = none := (h.dom j).2 (by simp)
  have h1 := set_none (v := l) hnone
  have hj1 : List.lookup j (Dict.set X j l) = some l := by rw [h1, if_pos rfl]
  obtain ⟨X1, e1, n1, m1⟩ := addRows (L := L) (f := f) h.good.nodup j l (Dict.set X j l) (fun i hi => ((hp.2 i).1 hi).1) (by
      intro k lk hlk
      rw [h1] at hlk
      split at hlk
      · injection hlk with hlk; subst hlk; exact hp.1
      · exact h.nodup k lk hlk) (by
      intro i hi k hk hkj
      obtain ⟨a, b, c⟩ := (hp.2 i).1 hi
      rw [h1, if_neg hkj]
      exact h.key (h.good.sub _ a k hk) (by simp [hkj, c k hk]))
  refine ⟨X1, ?_, h.good, ?_, ?_, ?_⟩
  · unfold deselStep
    simp only [get_ok hj1, bind, Except.bind, e1, pure, Except.pure]
  · intro k
    rw [n1, h1]
    by_cases hk : k = j
    · subst hk; simp [hj, hD]
    · rw [if_neg hk, h.dom, Finset.mem_insert]; tauto
  · intro k lk hlk; exact (m1 k lk hlk).1
  · intro k lk hlk i
    obtain ⟨-, l0, hl0, m0⟩ := m1 k lk hlk
    rw [m0, hp.2]
    rw [h1] at hl0
    split at hl0
    · rename_i hk
      subst hk
      injection hl0 with hl0; subst hl0
      rw [hp.2]; simp
    · rename_i hk
      rw [h.mem k l0 hl0]
      simp only [Finset.mem_insert, not_or]
      constructor
      · rintro (⟨a, b, c⟩ | ⟨⟨a, b, c⟩, d, e⟩)
        · exact ⟨a, b, fun x hx => (c x hx).2⟩
        · exact ⟨a, d, c⟩
      · rintro ⟨a, b, c⟩
        by_cases hjc : j ∈ f i
        · exact Or.inr ⟨⟨a, hjc, c⟩, b, hk⟩
        · refine Or.inl ⟨a, b, fun x hx => ⟨?_, c x hx⟩⟩
          rintro rfl; exact hjc hx

/-- The stack `cols` after covering `js` starting from `D` (last item first). -/
def StackOk (L : List ρ) (f : ρ → List κ) : Finset κ → List κ → List (List ρ) → List (List ρ) → Prop
  | _, [], base, st => st = base
  | D, j :: js, base, st => ∃ l, Popped L f D j l ∧ StackOk L f (insert j D) js (l :: base) st

theorem coverAll (js : List κ) : ∀ {X : Dict κ (List ρ)} {D : Finset κ} (_ : Rep K L f X D) (base : List (List ρ)),
    js.Nodup → (∀ j ∈ js, j ∈ K ∧ j ∉ D) →
    ∃ X' st, js.foldlM (selStep (table L f)) (X, base) = .ok (X', st) ∧ Rep K L f X' (D ∪ js.toFinset) ∧
      StackOk L f D js base st := by
  induction js with
  | nil => intro X D h base _ _; exact ⟨X, base, rfl, by simpa using h, rfl⟩
  | cons j js ih =>
    intro X D h base hnd hall
    obtain ⟨hj1, hj2⟩ := hall j (by simp)
    obtain ⟨X1, l, e1, r1, p1⟩ := cover h hj1 hj2 base
    obtain ⟨X2, st, e2, r2, s2⟩ := ih r1 (l :: base) (List.nodup_cons.1 hnd).2 (by
      intro k hk
      refine ⟨(hall k (by simp [hk])).1, ?_⟩
      rw [Finset.mem_insert, not_or]
      exact ⟨by rintro rfl; exact (List.nodup_cons.1 hnd).1 hk, (hall k (by simp [hk])).2⟩)
    refine ⟨X2, st, by rw [foldlM_ok e1]; exact e2, ?_, l, p1, s2⟩
    have : D ∪ (j :: js).toFinset = insert j D ∪ js.toFinset := by
      ext x; simp
    rw [this]; exact r2

theorem uncoverAll (js : List κ) : ∀ {X : Dict κ (List ρ)} {D : Finset κ} {base st : List (List ρ)},
    Rep K L f X (D ∪ js.toFinset) → js.Nodup → (∀ j ∈ js, j ∈ K ∧ j ∉ D) → StackOk L f D js base st →
    ∃ X', js.reverse.foldlM (deselStep (table L f)) (X, st) = .ok (X', base) ∧ Rep K L f X' D := by
  induction js with
  | nil => intro X D base st h _ _ hs; cases hs; exact ⟨X, rfl, by simpa using h⟩
  | cons j js ih =>
    intro X D base st h hnd hall hs
    obtain ⟨l, p1, s2⟩ := hs
    obtain ⟨hj1, hj2⟩ := hall j (by simp)
    have : D ∪ (j :: js).toFinset = insert j D ∪ js.toFinset := by
      ext x; simp
    rw [this] at h
    obtain ⟨X1, e1, r1⟩ := ih h (List.nodup_cons.1 hnd).2 (by
      intro k hk
      refine ⟨(hall k (by simp [hk])).1, ?_⟩
      rw [Finset.mem_insert, not_or]
      exact ⟨by rintro rfl; exact (List.nodup_cons.1 hnd).1 hk, (hall k (by simp [hk])).2⟩) s2
    obtain ⟨X2, e2, r2⟩ := uncover r1 hj1 hj2 p1 base
    refine ⟨X2, ?_, r2⟩
    rw [List.reverse_cons, foldlM_append_ok e1, foldlM_ok e2]
    rfl

/-- Some column is covered already: `KeyError`. -/
theorem coverAll_err (js : List κ) : ∀ {X : Dict κ (List ρ)} {D : Finset κ} (_ : Rep K L f X D) (base : List (List ρ)),
    js.Nodup → (∀ j ∈ js, j ∈ K) → (∃ j ∈ js, j ∈ D) →
    js.foldlM (selStep (table L f)) (X, base) = .error .KeyError := by
  induction js with
  | nil => rintro X D h base _ _ ⟨j, hj, _⟩; cases hj
  | cons j js ih =>
    rintro X D h base hnd hall ⟨k, hk, hkD⟩
    by_cases hjD : j ∈ D
    · apply foldlM_err
      unfold selStep
      rw [get_err ((h.dom j).2 (by simp [hjD]))]
      rfl
    · obtain ⟨X1, l, e1, r1, p1⟩ := cover h (hall j (by simp)) hjD base
      rw [foldlM_ok e1]
      refine ih r1 _ (List.nodup_cons.1 hnd).2 (fun x hx => hall x (by simp [hx])) ⟨k, ?_, by simp [hkD]⟩
      rcases List.mem_cons.1 hk with rfl | hk
      · exact absurd hkD hjD
      · exact hk

theorem select_ok {X : Dict κ (List ρ)} {D : Finset κ} (h : Rep K L f X D) {r : ρ} (hr : r ∈ L)
    (hd : ∀ j ∈ f r, j ∉ D) :
    ∃ X' st, select X (table L f) r = .ok (X', st) ∧ Rep K L f X' (D ∪ (f r).toFinset) ∧
      StackOk L f D (f r) [] st := by
  obtain ⟨X', st, e, r', s⟩ := coverAll (f r) h [] (h.good.nodup r hr) (fun j hj => ⟨h.good.sub _ hr j hj, hd j hj⟩)
  refine ⟨X', st, ?_, r', s⟩
  unfold select
  rw [get_ok (v := f r) (by rw [lookup_table, if_pos hr])]
  exact e

theorem select_err {X : Dict κ (List ρ)} {D : Finset κ} (h : Rep K L f X D) {r : ρ}
    (hd : ¬ (r ∈ L ∧ ∀ j ∈ f r, j ∉ D)) : select X (table L f) r = .error .KeyError := by
  unfold select
  by_cases hr : r ∈ L
  · rw [get_ok (v := f r) (by rw [lookup_table, if_pos hr])]
    refine coverAll_err (f r) h [] (h.good.nodup r hr) (h.good.sub _ hr) ?_
    by_contra hc
    push Not at hc
    exact hd ⟨hr, hc⟩
  · rw [get_err (by rw [lookup_table, if_neg hr])]
    rfl

theorem deselect_ok {X : Dict κ (List ρ)} {D : Finset κ} {r : ρ} {st : List (List ρ)}
    (h : Rep K L f X (D ∪ (f r).toFinset)) (hr : r ∈ L) (hd : ∀ j ∈ f r, j ∉ D)
    (hs : StackOk L f D (f r) [] st) :
    ∃ X', deselect X (table L f) r st = .ok X' ∧ Rep K L f X' D := by
  obtain ⟨X', e, r'⟩ := uncoverAll (f r) h (h.good.nodup r hr) (fun j hj => ⟨h.good.sub _ hr j hj, hd j hj⟩) hs
  refine ⟨X', ?_, r'⟩
  unfold deselect
  rw [get_ok (v := f r) (by rw [lookup_table, if_pos hr])]
  simp only [bind, Except.bind]
  rw [e]; rfl


/-! ### `exact_cover` -/

theorem addEach (i : ρ) (ks : List κ) : ∀ (X : Dict κ (List ρ)), (∀ k ∈ ks, ∃ l, List.lookup k X = some l) →
    ∃ X', ks.foldlM (fun X k => Dict.modify X k (setAdd i)) X = .ok X' ∧
      ∀ k, List.lookup k X' = if k ∈ ks then (List.lookup k X).map (fun l => if i ∈ l then l else l ++ [i]) else List.lookup k X := by
  induction ks with
  | nil => intro X _; exact ⟨X, rfl, by simp⟩
  | cons k ks ih =>
    intro X hX
    obtain ⟨l, hl1⟩ := hX k (by simp)
    obtain ⟨X1, e1, h1⟩ := modify_ok (f := setAdd i) (v' := if i ∈ l then l else l ++ [i]) hl1 rfl
    obtain ⟨X', e, hl⟩ := ih X1 (by
      intro k' hk'
      obtain ⟨l', e'⟩ := hX k' (by simp [hk'])
      rw [h1, e']
      split <;> exact ⟨_, rfl⟩)
    refine ⟨X', by rw [foldlM_ok e1]; exact e, fun k' => ?_⟩
    rw [hl, h1]
    simp only [List.mem_cons]
    by_cases h : k' = k
    · subst h
      simp only [if_true, true_or, hl1, Option.map_some]
      split
      · congr 1
        by_cases hi : i ∈ l <;> simp [hi]
      · rfl
    · simp [h]

theorem addEach_err (i : ρ) (ks : List κ) : ∀ (X : Dict κ (List ρ)), (∃ k ∈ ks, List.lookup k X = none) →
    ks.foldlM (fun X k => Dict.modify X k (setAdd i)) X = .error .KeyError := by
  induction ks with
  | nil => rintro X ⟨k, hk, -⟩; cases hk
  | cons k ks ih =>
    rintro X ⟨k', hk', hn⟩
    cases hl : List.lookup k X with
    | none => exact foldlM_err (by unfold Dict.modify; rw [hl])
    | some l =>
      obtain ⟨X1, e1, h1⟩ := modify_ok (f := setAdd i) (v' := if i ∈ l then l else l ++ [i]) hl rfl
      rw [foldlM_ok e1]
      rcases List.mem_cons.1 hk' with rfl | hk'
      · rw [hl] at hn; cases hn
      · refine ih X1 ⟨k', hk', ?_⟩
        rw [h1, if_neg, hn]
        rintro rfl; rw [hl] at hn; cases hn

theorem fillAll (Y : Dict ρ (List κ)) : ∀ (X : Dict κ (List ρ)), (∀ k l, List.lookup k X = some l → l.Nodup) →
    (∀ p ∈ Y, ∀ k ∈ p.2, ∃ l, List.lookup k X = some l) →
    ∃ X', Y.foldlM (fun X p => p.2.foldlM (fun X j => Dict.modify X j (setAdd p.1)) X) X = .ok X' ∧
      (∀ k, List.lookup k X' = none ↔ List.lookup k X = none) ∧
      ∀ k l', List.lookup k X' = some l' → l'.Nodup ∧ ∃ l, List.lookup k X = some l ∧
        ∀ x, x ∈ l' ↔ x ∈ l ∨ ∃ p ∈ Y, p.1 = x ∧ k ∈ p.2 := by
  induction Y with
  | nil => intro X hnd _; exact ⟨X, rfl, by simp, fun k l' h => ⟨hnd k l' h, l', h, by simp⟩⟩
  | cons p Y ih =>
    intro X hnd hX
    obtain ⟨X1, e1, h1⟩ := addEach p.1 p.2 X (hX p (by simp))
    have hnd1 : ∀ k l, List.lookup k X1 = some l → l.Nodup := by
      intro k l hl
      rw [h1] at hl
      split at hl
      · rw [Option.map_eq_some_iff] at hl
        obtain ⟨l0, h0, rfl⟩ := hl
        split
        · exact hnd k l0 h0
        · rename_i hx
          rw [List.nodup_append']
          exact ⟨hnd k l0 h0, by simp, by simpa using hx⟩
      · exact hnd k l hl
    obtain ⟨X', e, hn, hl⟩ := ih X1 hnd1 (by
      intro q hq k hk
      obtain ⟨l, hl⟩ := hX q (by simp [hq]) k hk
      rw [h1, hl]
      split <;> exact ⟨_, rfl⟩)
    refine ⟨X', by refine (foldlM_ok (b' := X1) ?_).trans e; exact e1, fun k => ?_, fun k l' hl' => ?_⟩
    · rw [hn, h1]; split <;> simp
    · obtain ⟨nd', l1, hl1, m1⟩ := hl k l' hl'
      refine ⟨nd', ?_⟩
      rw [h1] at hl1
      split at hl1
      · rename_i hc
        rw [Option.map_eq_some_iff] at hl1
        obtain ⟨l0, h0, rfl⟩ := hl1
        refine ⟨l0, h0, fun x => ?_⟩
        have : (x ∈ if p.1 ∈ l0 then l0 else l0 ++ [p.1]) ↔ x ∈ l0 ∨ p.1 = x := by
          split
          · rename_i hm
            constructor
            · exact Or.inl
            · rintro (h | rfl); exacts [h, hm]
          · simp [eq_comm]
        rw [m1, this]
        simp [hc, or_assoc]
      · rename_i hc
        refine ⟨l1, hl1, fun x => ?_⟩
        rw [m1]
        simp [hc]

theorem fillAll_err (Y : Dict ρ (List κ)) : ∀ (X : Dict κ (List ρ)), (∃ p ∈ Y, ∃ k ∈ p.2, List.lookup k X = none) →
    Y.foldlM (fun X p => p.2.foldlM (fun X j => Dict.modify X j (setAdd p.1)) X) X = .error .KeyError := by
  induction Y with
  | nil => rintro X ⟨p, hp, -⟩; cases hp
  | cons p Y ih =>
    rintro X ⟨q, hq, k, hk, hn⟩
    by_cases h : ∃ k ∈ p.2, List.lookup k X = none
    · exact foldlM_err (addEach_err p.1 p.2 X h)
    · push Not at h
      obtain ⟨X1, e1, h1⟩ := addEach p.1 p.2 X (fun k hk => by
        have := h k hk
        cases hl : List.lookup k X with
        | none => exact absurd hl this
        | some l => exact ⟨l, rfl⟩)
      refine (foldlM_ok (b' := X1) (by exact e1)).trans ?_
      rcases List.mem_cons.1 hq with rfl | hq
      · exact absurd hn (h k hk)
      · refine ih X1 ⟨q, hq, k, hk, ?_⟩
        rw [h1, hn]; simp

theorem lookup_start (K : List κ) (k : κ) :
    List.lookup k (K.dedup.map fun j => (j, ([] : List ρ))) = if k ∈ K then some [] else none := by
  rw [lookup_map_self]; simp

/-- `exact_cover` for columns `K` and any dict `Y` whose rows have columns of `K` only. -/
theorem exactCover_fill (K : List κ) (Y : Dict ρ (List κ)) (hsub : ∀ p ∈ Y, ∀ k ∈ p.2, k ∈ K) :
    ∃ X, exactCover K Y = .ok X ∧ (∀ k, List.lookup k X = none ↔ k ∉ K) ∧
      ∀ k l, List.lookup k X = some l → l.Nodup ∧ ∀ x, x ∈ l ↔ ∃ p ∈ Y, p.1 = x ∧ k ∈ p.2 := by
  obtain ⟨X, e, n, m⟩ := fillAll Y (K.dedup.map fun j => (j, ([] : List ρ))) (by
      intro k l hl
      rw [lookup_start] at hl
      split at hl
      · injection hl with hl; subst hl; simp
      · cases hl) (by
      intro p hp k hk
      rw [lookup_start, if_pos (hsub p hp k hk)]; exact ⟨_, rfl⟩)
  refine ⟨X, e, fun k => ?_, fun k l hl => ?_⟩
  · rw [n, lookup_start]; split <;> simp_all
  · obtain ⟨h1, l0, h0, m0⟩ := m k l hl
    rw [lookup_start] at h0
    split at h0
    · injection h0 with h0; subst h0
      exact ⟨h1, fun x => by rw [m0]; simp⟩
    · cases h0

theorem exactCover_err (K : List κ) (Y : Dict ρ (List κ)) (h : ∃ p ∈ Y, ∃ k ∈ p.2, k ∉ K) : exactCover K Y = .error .KeyError := by
  obtain ⟨p, hp, k, hk, hK⟩ := h
  exact fillAll_err Y _ ⟨p, hp, k, hk, by rw [lookup_start, if_neg hK]⟩

theorem exactCover_ok (hG : Good K L f) : ∃ X, exactCover K (table L f) = .ok X ∧ Rep K L f X ∅ := by
  obtain ⟨X, e, n, m⟩ := exactCover_fill K (table L f) (by
    intro p hp k hk
    obtain ⟨i, hi, rfl⟩ := List.mem_map.1 hp
    exact hG.sub i hi k hk)
  refine ⟨X, e, hG, fun j => by rw [n]; simp, fun j l hl => (m j l hl).1, fun j l hl i => ?_⟩
  rw [(m j l hl).2]
  unfold table
  simp

/-! ### exact covers -/

/-- `T` covers each column outside `D` exactly once and touches none inside. -/
structure IsCover (K : List κ) (L : List ρ) (f : ρ → List κ) (D : Finset κ) (T : Finset ρ) : Prop where
  legal : ∀ i ∈ T, i ∈ L
  ne : ∀ i ∈ T, f i ≠ []
  disj : ∀ i ∈ T, ∀ k ∈ f i, k ∉ D
  ex : ∀ j ∈ K, j ∉ D → ∃ i ∈ T, j ∈ f i
  uniq : ∀ i ∈ T, ∀ i' ∈ T, ∀ j ∈ f i, j ∈ f i' → i = i'

theorem IsCover.erase {D : Finset κ} {T : Finset ρ} (h : IsCover K L f D T) {r : ρ} (hr : r ∈ T) :
    IsCover K L f (D ∪ (f r).toFinset) (T.erase r) := by
  refine ⟨fun i hi => h.legal i (Finset.mem_of_mem_erase hi), fun i hi => h.ne i (Finset.mem_of_mem_erase hi), ?_, ?_, ?_⟩
  · intro i hi k hk
    rw [Finset.mem_union, List.mem_toFinset, not_or]
    refine ⟨h.disj i (Finset.mem_of_mem_erase hi) k hk, fun hk' => ?_⟩
    exact (Finset.ne_of_mem_erase hi) (h.uniq i (Finset.mem_of_mem_erase hi) r hr k hk hk')
  · intro j hj hD
    rw [Finset.mem_union, List.mem_toFinset, not_or] at hD
    obtain ⟨i, hi, hji⟩ := h.ex j hj hD.1
    refine ⟨i, Finset.mem_erase.2 ⟨?_, hi⟩, hji⟩
    rintro rfl; exact hD.2 hji
  · intro i hi i' hi' j
    exact h.uniq i (Finset.mem_of_mem_erase hi) i' (Finset.mem_of_mem_erase hi') j

theorem IsCover.insert {D : Finset κ} {T : Finset ρ} {r : ρ} (h : IsCover K L f (D ∪ (f r).toFinset) T)
    (hr : r ∈ L) (hne : f r ≠ []) (hd : ∀ k ∈ f r, k ∉ D) : r ∉ T ∧ IsCover K L f D (insert r T) := by
  have hnot : ∀ i ∈ T, ∀ k ∈ f i, k ∉ D ∧ k ∉ f r := by
    intro i hi k hk
    have := h.disj i hi k hk
    rw [Finset.mem_union, List.mem_toFinset, not_or] at this; exact this
  refine ⟨fun hrT => ?_, ?_, ?_, ?_, ?_, ?_⟩
  · obtain ⟨j, hj⟩ := List.exists_mem_of_ne_nil _ hne
    exact (hnot r hrT j hj).2 hj
  · intro i hi
    rcases Finset.mem_insert.1 hi with rfl | hi
    · exact hr
    · exact h.legal i hi
  · intro i hi
    rcases Finset.mem_insert.1 hi with rfl | hi
    · exact hne
    · exact h.ne i hi
  · intro i hi k hk
    rcases Finset.mem_insert.1 hi with rfl | hi
    · exact hd k hk
    · exact (hnot i hi k hk).1
  · intro j hj hD
    by_cases hjr : j ∈ f r
    · exact ⟨r, Finset.mem_insert_self _ _, hjr⟩
    · obtain ⟨i, hi, hji⟩ := h.ex j hj (by rw [Finset.mem_union, List.mem_toFinset, not_or]; exact ⟨hD, hjr⟩)
      exact ⟨i, Finset.mem_insert_of_mem hi, hji⟩
  · intro i hi i' hi' j hj hj'
    rcases Finset.mem_insert.1 hi with rfl | hi <;> rcases Finset.mem_insert.1 hi' with rfl | hi'
    · rfl
    · exact absurd hj (hnot i' ‹i' ∈ T› j hj').2
    · exact absurd hj' (hnot i ‹i ∈ T› j hj).2
    · exact h.uniq i hi i' hi' j hj hj'

/-! ### the search -/

theorem minKey_none (X : Dict κ (List ρ)) (ks : List κ) : minKey X ks = none ↔ ks = [] := by
  cases ks with
  | nil => simp [minKey]
  | cons k ks =>
    simp only [minKey, reduceCtorEq, iff_false]
    cases minKey X ks with
    | none => simp
    | some k' => simp only; split <;> simp

theorem minKey_mem (X : Dict κ (List ρ)) (ks : List κ) : ∀ c, minKey X ks = some c → c ∈ ks := by
  induction ks with
  | nil => intro c h; cases h
  | cons k ks ih =>
    intro c h
    simp only [minKey] at h
    cases hm : minKey X ks with
    | none => rw [hm] at h; injection h with h; subst h; simp
    | some k' =>
      rw [hm] at h
      simp only at h
      split at h
      · injection h with h; subst h; simp
      · injection h with h; subst h; exact List.mem_cons_of_mem _ (ih _ hm)

/-- What `search` delivers for the covered columns `D`, after the rows `sol` have been chosen. -/
def Delivers (K : List κ) (L : List ρ) (f : ρ → List κ) (D : Finset κ) (sol : List ρ)
    (res : Except PyErr (List (List ρ) × Dict κ (List ρ))) : Prop :=
  ∃ (exts : List (List ρ)) (X' : Dict κ (List ρ)), res = .ok (exts.map (sol ++ ·), X') ∧ Rep K L f X' D ∧ ((exts.map List.toFinset).Nodup ∧ ∀ e ∈ exts, e.Nodup) ∧
    ∀ T, T ∈ exts.map List.toFinset ↔ IsCover K L f D T

theorem searchLoop_spec {rec : Dict κ (List ρ) → List ρ → Except PyErr (List (List ρ) × Dict κ (List ρ))}
    {D : Finset κ} {c : κ} {sol : List ρ} {d : Nat} {B : Prop}
    (hrec : ∀ r X, r ∈ L → c ∈ f r → (∀ k ∈ f r, k ∉ D) →
      Rep K L f X (D ∪ (f r).toFinset) →
      (Delivers K L f (D ∪ (f r).toFinset) (sol ++ [r]) (rec X (sol ++ [r])) ∧
        ∀ T, IsCover K L f (D ∪ (f r).toFinset) T → T.card < d) ∨
      (rec X (sol ++ [r]) = .error .RecursionError ∧ B)) (rs : List ρ) :
    ∀ X, Rep K L f X D → rs.Nodup → (∀ r ∈ rs, r ∈ L ∧ c ∈ f r ∧ ∀ k ∈ f r, k ∉ D) →
    (∃ (exts : List (List ρ)) (X' : Dict κ (List ρ)),
      searchLoop rec (table L f) rs X sol = .ok (exts.map (sol ++ ·), X') ∧ Rep K L f X' D ∧
      ((exts.map List.toFinset).Nodup ∧ ∀ e ∈ exts, e.Nodup) ∧
      (∀ T, T ∈ exts.map List.toFinset ↔ IsCover K L f D T ∧ ∃ r ∈ rs, r ∈ T) ∧
      (∀ T, IsCover K L f D T → (∃ r ∈ rs, r ∈ T) → T.card < d + 1)) ∨
    (searchLoop rec (table L f) rs X sol = .error .RecursionError ∧ B) := by
  induction rs with
  | nil => intro X h _ _; exact Or.inl ⟨[], X, rfl, h, by simp, by simp, by simp⟩
  | cons r rs ih =>
    intro X h hnd hall
    obtain ⟨hr, hc, hd⟩ := hall r (by simp)
    obtain ⟨X1, st, e1, r1, s1⟩ := select_ok h hr hd
    rcases hrec r X1 hr hc hd r1 with ⟨⟨exts1, X2, e2, r2, n2, m2⟩, b2⟩ | ⟨e2, hB⟩
    swap
    · right
      refine ⟨?_, hB⟩
      unfold searchLoop
      rw [e1]; simp only
      rw [e2]
    obtain ⟨X3, e3, r3⟩ := deselect_ok r2 hr hd s1
    rcases ih X3 r3 (List.nodup_cons.1 hnd).2 (fun x hx => hall x (by simp [hx])) with
      ⟨exts2, X4, e4, r4, n4, m4, b4⟩ | ⟨e4, hB⟩
    swap
    · right
      refine ⟨?_, hB⟩
      unfold searchLoop
      rw [e1]; simp only
      rw [e2]; simp only
      rw [e3]; simp only
      rw [e4]
    left
    refine ⟨exts1.map (r :: ·) ++ exts2, X4, ?_, r4, ⟨?_, ?_⟩, ?_, ?_⟩
    · unfold searchLoop
      rw [e1]; simp only
      rw [e2]; simp only
      rw [e3]; simp only
      rw [e4]; simp only
      congr 2
      simp [List.map_map, Function.comp_def]
    · rw [List.map_append, List.nodup_append']
      refine ⟨?_, n4.1, ?_⟩
      · have hm : List.map List.toFinset (exts1.map (r :: ·)) = (exts1.map List.toFinset).map (fun T => Insert.insert r T) := by
          simp [List.map_map, Function.comp_def]
        rw [hm]
        refine List.Nodup.map_on ?_ n2.1
        intro T hT T' hT' e
        have h1 := (IsCover.insert ((m2 T).1 hT) hr (List.ne_nil_of_mem hc) hd).1
        have h2 := (IsCover.insert ((m2 T').1 hT') hr (List.ne_nil_of_mem hc) hd).1
        rw [← Finset.erase_insert h1, ← Finset.erase_insert h2, e]
      · intro T h1 h2
        simp only [List.map_map, List.mem_map, Function.comp] at h1
        obtain ⟨ext, hext, rfl⟩ := h1
        obtain ⟨hcov, r', hr', hr'T⟩ := (m4 _).1 h2
        have hrT : r ∈ (r :: ext).toFinset := by simp
        have : r = r' := hcov.uniq r hrT r' hr'T c hc (hall r' (by simp [hr'])).2.1
        subst this
        exact (List.nodup_cons.1 hnd).1 hr'
    · intro e he
      rcases List.mem_append.1 he with he | he
      · obtain ⟨ext, hext, rfl⟩ := List.mem_map.1 he
        refine List.nodup_cons.2 ⟨fun hx => ?_, n2.2 ext hext⟩
        exact (IsCover.insert ((m2 _).1 (List.mem_map_of_mem hext)) hr (List.ne_nil_of_mem hc) hd).1 (List.mem_toFinset.2 hx)
      · exact n4.2 e he
    · intro T
      rw [List.map_append, List.mem_append, m4]
      constructor
      · rintro (h1 | ⟨h1, r', hr', hT⟩)
        · simp only [List.map_map, List.mem_map, Function.comp] at h1
          obtain ⟨ext, hext, rfl⟩ := h1
          have := (m2 ext.toFinset).1 (List.mem_map_of_mem hext)
          refine ⟨?_, r, by simp, by simp⟩
          rw [List.toFinset_cons]
          exact (this.insert hr (List.ne_nil_of_mem hc) hd).2
        · exact ⟨h1, r', by simp [hr'], hT⟩
      · rintro ⟨h1, r', hr', hT⟩
        rcases List.mem_cons.1 hr' with rfl | hr'
        · left
          have := (m2 _).2 (h1.erase hT)
          simp only [List.mem_map] at this
          obtain ⟨ext, hext, e⟩ := this
          simp only [List.map_map, List.mem_map, Function.comp]
          refine ⟨ext, hext, ?_⟩
          rw [List.toFinset_cons, e, Finset.insert_erase hT]
        · exact Or.inr ⟨h1, r', hr', hT⟩
    · rintro T h1 ⟨r', hr', hT⟩
      rcases List.mem_cons.1 hr' with rfl | hr'
      · have := b2 _ (h1.erase hT)
        rw [Finset.card_erase_of_mem hT] at this
        omega
      · exact b4 T h1 ⟨r', hr', hT⟩

theorem card_rest (hG : Good K L f) {D : Finset κ} {r : ρ} (hr : r ∈ L) (hd : ∀ k ∈ f r, k ∉ D) :
    (K.toFinset \ (D ∪ (f r).toFinset)).card + (f r).length = (K.toFinset \ D).card := by
  rw [← List.toFinset_card_of_nodup (hG.nodup r hr), ← Finset.card_union_of_disjoint]
  · congr 1
    ext x
    simp only [Finset.mem_union, Finset.mem_sdiff, List.mem_toFinset, not_or]
    constructor
    · rintro (⟨h1, h2, h3⟩ | h)
      · exact ⟨h1, h2⟩
      · exact ⟨hG.sub r hr x h, hd x h⟩
    · rintro ⟨h1, h2⟩
      by_cases h : x ∈ f r
      · exact Or.inr h
      · exact Or.inl ⟨h1, h2, h⟩
  · rw [Finset.disjoint_left]
    intro x hx hx'
    simp only [Finset.mem_sdiff, Finset.mem_union, not_or] at hx
    exact hx.2.2 hx'

theorem search_spec {π : OrdersOf κ ρ} (hπ : π.Ok) {m : Nat} (hm : ∀ i ∈ L, f i ≠ [] → m ≤ (f i).length) (fuel : Nat) : ∀ (D : Finset κ) (X : Dict κ (List ρ)) (sol : List ρ),
    Rep K L f X D →
    (Delivers K L f D sol (search π (table L f) fuel X sol) ∧ ∀ T, IsCover K L f D T → T.card < fuel) ∨
    (search π (table L f) fuel X sol = .error .RecursionError ∧ m * fuel ≤ ((K).toFinset \ D).card) := by
  induction fuel with
  | zero => intro D X sol h; exact Or.inr ⟨rfl, by omega⟩
  | succ fuel ih =>
    intro D X sol h
    unfold search
    cases hmin : minKey X (π.keys sol (X.map Prod.fst)) with
    | none =>
      rw [minKey_none] at hmin
      have hkeys : X.map Prod.fst = [] := List.perm_nil.1 ((hπ.1 sol _).symm.trans (by rw [hmin]))
      have hall : ∀ j ∈ K, j ∈ D := by
        intro j hj
        by_contra hD
        obtain ⟨l, hl⟩ := h.key hj hD
        have := (lookup_isSome_iff j X).1 ⟨l, hl⟩
        rw [hkeys] at this; cases this
      have hT : ∀ T, IsCover K L f D T → T = ∅ := by
        intro T hT
        rw [Finset.eq_empty_iff_forall_notMem]
        intro i hi
        obtain ⟨j, hj⟩ := List.exists_mem_of_ne_nil _ (hT.ne i hi)
        exact hT.disj i hi j hj (hall j (h.good.sub i (hT.legal i hi) j hj))
      left
      refine ⟨⟨[[]], X, by simp, h, by simp, fun T => ?_⟩, fun T h => by rw [hT T h]; simp⟩
      simp only [List.map_cons, List.toFinset_nil, List.map_nil, List.mem_singleton]
      refine ⟨?_, hT T⟩
      rintro rfl
      exact ⟨by simp, by simp, by simp, fun j hj hD => absurd (hall j hj) hD, by simp⟩
    | some c =>
      have hc : c ∈ X.map Prod.fst := (hπ.1 sol _).mem_iff.1 (minKey_mem X _ c hmin)
      obtain ⟨rs, hrs⟩ := (lookup_isSome_iff c X).2 hc
      obtain ⟨hcc, hcD⟩ := h.of_key hrs
      simp only [get_ok hrs]
      have hmem := h.mem c rs hrs
      rcases searchLoop_spec (K := K) (L := L) (f := f) (rec := search π (table L f) fuel) (D := D) (c := c)
        (sol := sol) (d := fuel) (B := m * (fuel + 1) ≤ ((K).toFinset \ D).card) (by
          intro r X1 hr hcr hd hrep
          rcases ih _ X1 (sol ++ [r]) hrep with h1 | ⟨h1, h2⟩
          · exact Or.inl h1
          · refine Or.inr ⟨h1, ?_⟩
            have := card_rest h.good hr hd
            have := hm r hr (List.ne_nil_of_mem hcr)
            rw [Nat.mul_add]
            omega) (π.rows sol rs) X h ((hπ.2 sol rs).nodup_iff.2 (h.nodup c rs hrs)) (by
          intro r hr
          exact (hmem r).1 ((hπ.2 sol rs).mem_iff.1 hr)) with ⟨exts, X', e, r', n', m', b'⟩ | hB
      · left
        have hTT : ∀ T, IsCover K L f D T → ∃ r ∈ π.rows sol rs, r ∈ T := by
          intro T hT
          obtain ⟨i, hi, hci⟩ := hT.ex c hcc hcD
          exact ⟨i, (hπ.2 sol rs).mem_iff.2 ((hmem i).2 ⟨hT.legal i hi, hci, hT.disj i hi⟩), hi⟩
        refine ⟨⟨exts, X', e, r', n', fun T => ?_⟩, fun T hT => b' T hT (hTT T hT)⟩
        rw [m']
        exact ⟨fun h => h.1, fun hT => ⟨hT, hTT T hT⟩⟩
      · exact Or.inr hB


end Cover

end Dlx
