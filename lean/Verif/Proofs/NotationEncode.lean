import Verif.Proofs.Notation

set_option autoImplicit false

/-! # Lemmas for `notation.encode` -/

open Spec Spec.Text

namespace Notation

theorem mem_sortNats {l : List Nat} {a : Nat} : a ∈ sortNats l ↔ a ∈ l := List.mem_insertionSort _

theorem sortNats_sorted {l : List Nat} (h : l.Nodup) : (sortNats l).Pairwise (· < ·) := by
  have h1 : (sortNats l).Pairwise (· ≤ ·) := List.pairwise_insertionSort (· ≤ ·) l
  have h2 : (sortNats l).Nodup := (List.perm_insertionSort (· ≤ ·) l).nodup_iff.2 h
  exact (h1.and h2).imp fun h => lt_of_le_of_ne h.1 h.2

theorem sortSet_spec (S : Finset Nat) : (sortSet S).Pairwise (· < ·) ∧ ∀ a, a ∈ sortSet S ↔ a ∈ S := by
  obtain ⟨m, hm⟩ := S
  induction m using Quot.inductionOn with
  | h l =>
    exact ⟨sortNats_sorted hm, fun a => mem_sortNats⟩

theorem sortNats_eq {l : List Nat} (h : l.Pairwise (· < ·)) : sortNats l = l :=
  List.Pairwise.insertionSort_eq (h.imp fun h => le_of_lt h)

/-! ## The dictionaries -/

/-- The entries of a dictionary of sets, as a relation. -/
def Rel (d : Dict) (k x : Nat) : Prop := ∃ e ∈ d, e.1 = k ∧ x ∈ e.2

theorem add_rel (d : Dict) (k x k' x' : Nat) : Rel (add d k x) k' x' ↔ Rel d k' x' ∨ (k' = k ∧ x' = x) := by
  induction d with
  | nil => simp [add, Rel, eq_comm]
  | cons e d ih =>
    obtain ⟨k1, S⟩ := e
    rw [add]
    by_cases hk : k1 = k
    · rw [if_pos hk]
      subst hk
      simp only [Rel, List.mem_cons, exists_eq_or_imp, Finset.mem_insert]
      constructor
      · rintro (⟨h1, h2 | h2⟩ | h1)
        · exact .inr ⟨h1.symm, h2⟩
        · exact .inl (.inl ⟨h1, h2⟩)
        · exact .inl (.inr h1)
      · rintro ((⟨h1, h2⟩ | h1) | ⟨h1, h2⟩)
        · exact .inl ⟨h1, .inr h2⟩
        · exact .inr h1
        · exact .inl ⟨h1.symm, .inl h2⟩
    · rw [if_neg hk]
      have e1 : ∀ d' : Dict, Rel ((k1, S) :: d') k' x' ↔ (k1 = k' ∧ x' ∈ S) ∨ Rel d' k' x' := by
        intro d'; simp [Rel]
      rw [e1, e1, ih, or_assoc]

theorem add_keys (d : Dict) (k x k' : Nat) : k' ∈ (add d k x).map Prod.fst ↔ k' ∈ d.map Prod.fst ∨ k' = k := by
  induction d with
  | nil => simp [add]
  | cons e d ih =>
    obtain ⟨k1, S⟩ := e
    rw [add]
    by_cases hk : k1 = k
    · rw [if_pos hk]
      simp only [List.map_cons, List.mem_cons]
      constructor
      · exact .inl
      · rintro (h | h)
        · exact h
        · exact .inl (h.trans hk.symm)
    · rw [if_neg hk, List.map_cons, List.mem_cons, ih, List.map_cons, List.mem_cons, or_assoc]

/-- Keys occur once, no set is empty. -/
structure DictOk (d : Dict) : Prop where
  once : (d.map Prod.fst).Nodup
  nonempty : ∀ e ∈ d, e.2 ≠ ∅

theorem add_ok {d : Dict} (h : DictOk d) (k x : Nat) : DictOk (add d k x) := by
  constructor
  · have := h.once
    clear h
    induction d with
    | nil => simp [add]
    | cons e d ih =>
      obtain ⟨k1, S⟩ := e
      rw [List.map_cons, List.nodup_cons] at this
      rw [add]
      by_cases hk : k1 = k
      · rw [if_pos hk, List.map_cons, List.nodup_cons]
        exact this
      · rw [if_neg hk, List.map_cons, List.nodup_cons]
        refine ⟨fun hm => ?_, ih this.2⟩
        rcases (add_keys _ _ _ _).1 hm with hm | hm
        · exact this.1 hm
        · exact hk hm
  · have := h.nonempty
    clear h
    induction d with
    | nil => intro e he; simp [add] at he; rw [he]; simp
    | cons e d ih =>
      obtain ⟨k1, S⟩ := e
      intro e he
      rw [add] at he
      by_cases hk : k1 = k
      · rw [if_pos hk] at he
        rcases List.mem_cons.1 he with rfl | he
        · exact Finset.insert_ne_empty _ _
        · exact this e (List.mem_cons_of_mem _ he)
      · rw [if_neg hk] at he
        rcases List.mem_cons.1 he with rfl | he
        · exact this _ (by simp)
        · exact ih (fun e he => this e (List.mem_cons_of_mem _ he)) e he

theorem collect_error {w h : Nat} {cs : List (Int × Int)} {rows boxes : Dict} {e : PyErr}
    (he : collect w h cs rows boxes = .error e) : e = .ValueError ∧ ¬ Valid w h cs := by
  induction cs generalizing rows boxes with
  | nil => cases he
  | cons rc cs ih =>
    obtain ⟨r, c⟩ := rc
    rw [collect] at he
    split at he
    · rename_i hc
      cases he
      refine ⟨rfl, fun hv => ?_⟩
      have := hv (r, c) (by simp)
      rcases hc with hc | hc
      · exact hc this.1
      · exact hc this.2
    · obtain ⟨h1, h2⟩ := ih he
      exact ⟨h1, fun hv => h2 fun rc hrc => hv rc (List.mem_cons_of_mem _ hrc)⟩

theorem collect_valid {w h : Nat} {cs : List (Int × Int)} {rows boxes : Dict} {p : Dict × Dict}
    (he : collect w h cs rows boxes = .ok p) : Valid w h cs := by
  induction cs generalizing rows boxes with
  | nil => intro rc h; simp at h
  | cons rc cs ih =>
    obtain ⟨r, c⟩ := rc
    rw [collect] at he
    split at he
    · cases he
    · rename_i hc
      have := ih he
      intro rc hrc
      rcases List.mem_cons.1 hrc with rfl | hrc
      · push Not at hc
        exact hc
      · exact this rc hrc

theorem collect_spec {w h : Nat} {cs : List (Int × Int)} {rows boxes : Dict} {p : Dict × Dict}
    (he : collect w h cs rows boxes = .ok p) (hr : DictOk rows) (hb : DictOk boxes) :
    DictOk p.1 ∧ DictOk p.2 ∧
    (∀ k x, Rel p.1 k x ↔ Rel rows k x ∨ ∃ a : Cell, toPair a ∈ cs ∧ a.1 = k ∧ a.2 = x) ∧
    (∀ k x, Rel p.2 k x ↔ Rel boxes k x ∨ ∃ a : Cell, toPair a ∈ cs ∧ a.1 / h * h + a.2 / w = k ∧ a.1 % h * w + a.2 % w = x) := by
  induction cs generalizing rows boxes with
  | nil => cases he; exact ⟨hr, hb, by simp, by simp⟩
  | cons rc cs ih =>
    obtain ⟨r, c⟩ := rc
    have hv := collect_valid he (r, c) (by simp)
    rw [collect] at he
    split at he
    · cases he
    · obtain ⟨h1, h2, h3, h4⟩ := ih he (add_ok hr _ _) (add_ok hb _ _)
      obtain ⟨r', hr'⟩ := Int.eq_ofNat_of_zero_le hv.1.1
      obtain ⟨c', hc'⟩ := Int.eq_ofNat_of_zero_le hv.2.1
      simp only at hr' hc'
      subst hr' hc'
      simp only [Int.toNat_natCast] at h3 h4
      refine ⟨h1, h2, fun k x => ?_, fun k x => ?_⟩
      · rw [h3, add_rel, or_assoc]
        refine or_congr Iff.rfl ?_
        constructor
        · rintro (⟨h5, h6⟩ | ⟨a, h5, h6⟩)
          · exact ⟨(r', c'), by simp [toPair], h5.symm, h6.symm⟩
          · exact ⟨a, List.mem_cons_of_mem _ h5, h6⟩
        · rintro ⟨a, h5, h6, h7⟩
          rcases List.mem_cons.1 h5 with h5 | h5
          · left
            simp [toPair] at h5
            exact ⟨by omega, by omega⟩
          · exact .inr ⟨a, h5, h6, h7⟩
      · rw [h4, add_rel, or_assoc]
        refine or_congr Iff.rfl ?_
        have e1 : c' / w + r' - r' % h = r' / h * h + c' / w := Coordinates.boxAt_eq_div r' c' w h
        constructor
        · rintro (⟨h5, h6⟩ | ⟨a, h5, h6⟩)
          · exact ⟨(r', c'), by simp [toPair], by rw [h5]; exact e1.symm, by rw [h6]; exact Nat.add_comm _ _⟩
          · exact ⟨a, List.mem_cons_of_mem _ h5, h6⟩
        · rintro ⟨a, h5, h6, h7⟩
          rcases List.mem_cons.1 h5 with h5 | h5
          · left
            simp [toPair] at h5
            obtain ⟨rfl, rfl⟩ := h5
            exact ⟨by rw [e1]; exact h6.symm, by rw [Nat.add_comm]; exact h7.symm⟩
          · exact .inr ⟨a, h5, h6, h7⟩

theorem collect_ok {w h : Nat} {cs : List (Int × Int)} (hv : Valid w h cs) (rows boxes : Dict) :
    ∃ p, collect w h cs rows boxes = .ok p := by
  cases hc : collect w h cs rows boxes with
  | ok p => exact ⟨p, rfl⟩
  | error e => exact absurd hv (collect_error hc).2

/-! ## `_join_keys` -/

/-- The entries joined so far describe the entries `d`. -/
structure Joined (d : Dict) (new : List (List Nat × Finset Nat)) : Prop where
  sorted : ∀ f ∈ new, f.1.Pairwise (· < ·)
  nonempty : ∀ f ∈ new, f.1 ≠ []
  different : new.Pairwise fun f g => f.2 ≠ g.2
  exact : ∀ k S, (∃ f ∈ new, k ∈ f.1 ∧ f.2 = S) ↔ (k, S) ∈ d

theorem key_unique {d : Dict} (h : (d.map Prod.fst).Nodup) {k : Nat} {S T : Finset Nat} (h1 : (k, S) ∈ d) (h2 : (k, T) ∈ d) :
    S = T := by
  have := List.inj_on_of_nodup_map h h1 h2 rfl
  exact (Prod.mk.inj this).2

theorem joinStep_ok {d : Dict} {e : Nat × Finset Nat} {new : List (List Nat × Finset Nat)} (hd : ((d ++ [e]).map Prod.fst).Nodup)
    (h : Joined d new) : Joined (d ++ [e]) (joinStep new e) := by
  obtain ⟨k, S⟩ := e
  have hd' : (d.map Prod.fst).Nodup := by
    rw [List.map_append] at hd; exact (List.nodup_append.1 hd).1
  have hk : k ∉ d.map Prod.fst := by
    rw [List.map_append, List.nodup_append] at hd
    intro hm
    exact hd.2.2 k hm k (by simp) rfl
  unfold joinStep
  cases hf : new.find? fun f => f.2 = S with
  | none =>
    have hnone : ∀ f ∈ new, f.2 ≠ S := by
      intro f hfm; simpa using List.find?_eq_none.1 hf f hfm
    refine ⟨?_, ?_, ?_, ?_⟩
    · intro f hfm
      rcases List.mem_append.1 hfm with hfm | hfm
      · exact h.sorted f hfm
      · simp at hfm; rw [hfm]; simp
    · intro f hfm
      rcases List.mem_append.1 hfm with hfm | hfm
      · exact h.nonempty f hfm
      · simp at hfm; rw [hfm]; simp
    · rw [List.pairwise_append]
      refine ⟨h.different, by simp, ?_⟩
      intro f hfm g hg
      simp at hg
      rw [hg]
      exact hnone f hfm
    · intro k' S'
      constructor
      · rintro ⟨f, hfm, h1, h2⟩
        rcases List.mem_append.1 hfm with hfm | hfm
        · exact List.mem_append_left _ ((h.exact k' S').1 ⟨f, hfm, h1, h2⟩)
        · simp at hfm
          subst hfm
          simp at h1 h2
          rw [h1, h2]; simp
      · intro hm
        rcases List.mem_append.1 hm with hm | hm
        · obtain ⟨f, h1, h2⟩ := (h.exact k' S').2 hm
          exact ⟨f, List.mem_append_left _ h1, h2⟩
        · simp at hm
          exact ⟨([k], S), by simp, by simp [hm.1], hm.2.symm⟩
  | some f =>
    have hfm : f ∈ new := List.mem_of_find?_eq_some hf
    have hfS : f.2 = S := by simpa using List.find?_some hf
    obtain ⟨a, l₁, l₂, _, hpa, hnew, her⟩ := List.exists_of_eraseP (p := fun g : List Nat × Finset Nat => decide (g.1 = f.1)) hfm (by simp)
    have haf : a = f := by
      have h1 : a.1 = f.1 := by simpa using hpa
      have ham : a ∈ new := by rw [hnew]; simp
      obtain ⟨x, hx⟩ := List.exists_mem_of_ne_nil _ (h.nonempty f hfm)
      have h2 := (h.exact x a.2).1 ⟨a, ham, by rw [h1]; exact hx, rfl⟩
      have h3 := (h.exact x f.2).1 ⟨f, hfm, hx, rfl⟩
      exact Prod.ext h1 (key_unique hd' h2 h3)
    subst haf
    have hp : new.Perm (a :: (l₁ ++ l₂)) := by rw [hnew]; exact List.perm_middle
    have hmem : ∀ g, g ∈ new ↔ g = a ∨ g ∈ l₁ ++ l₂ := by
      intro g; rw [hp.mem_iff, List.mem_cons]
    have hdif : (a :: (l₁ ++ l₂)).Pairwise fun f g => f.2 ≠ g.2 :=
      (hp.pairwise_iff (fun h => h.symm)).1 h.different
    rw [List.pairwise_cons] at hdif
    simp only [her]
    have hka : k ∉ a.1 := by
      intro hm
      exact hk (List.mem_map.2 ⟨(k, a.2), (h.exact k a.2).1 ⟨a, hfm, hm, rfl⟩, rfl⟩)
    have hnd : (k :: a.1).Nodup := List.nodup_cons.2 ⟨hka, (h.sorted a hfm).imp fun h => ne_of_lt h⟩
    refine ⟨?_, ?_, ?_, ?_⟩
    · intro g hg
      rcases List.mem_append.1 hg with hg | hg
      · exact h.sorted g ((hmem g).2 (.inr hg))
      · simp at hg; rw [hg]; exact sortNats_sorted hnd
    · intro g hg
      rcases List.mem_append.1 hg with hg | hg
      · exact h.nonempty g ((hmem g).2 (.inr hg))
      · simp at hg; rw [hg]
        exact List.ne_nil_of_mem (mem_sortNats.2 (List.mem_cons_self (a := k) (l := a.1)))
    · rw [List.pairwise_append]
      refine ⟨hdif.2, by simp, ?_⟩
      intro g hg g' hg'
      simp at hg'
      rw [hg', ← hfS]
      exact (hdif.1 g hg).symm
    · intro k' S'
      constructor
      · rintro ⟨g, hg, h1, h2⟩
        rcases List.mem_append.1 hg with hg | hg
        · exact List.mem_append_left _ ((h.exact k' S').1 ⟨g, (hmem g).2 (.inr hg), h1, h2⟩)
        · simp at hg
          subst hg
          simp only at h1 h2
          rcases List.mem_cons.1 (mem_sortNats.1 h1) with h1 | h1
          · rw [h1, ← h2]; simp
          · exact List.mem_append_left _ ((h.exact k' S').1 ⟨a, hfm, h1, hfS.trans h2⟩)
      · intro hm
        rcases List.mem_append.1 hm with hm | hm
        · obtain ⟨g, h1, h2, h3⟩ := (h.exact k' S').2 hm
          rcases (hmem g).1 h1 with rfl | h1
          · exact ⟨_, List.mem_append_right _ (List.mem_singleton.2 rfl), mem_sortNats.2 (List.mem_cons_of_mem _ h2), hfS.symm.trans h3⟩
          · exact ⟨g, List.mem_append_left _ h1, h2, h3⟩
        · simp at hm
          exact ⟨_, List.mem_append_right _ (List.mem_singleton.2 rfl), mem_sortNats.2 (by rw [hm.1]; simp), hm.2.symm⟩

theorem joinKeys_ok {d : Dict} (hd : (d.map Prod.fst).Nodup) : Joined d (joinKeys d) := by
  have key : ∀ (d1 d2 : Dict) (new : List (List Nat × Finset Nat)), ((d1 ++ d2).map Prod.fst).Nodup → Joined d1 new →
      Joined (d1 ++ d2) (d2.foldl joinStep new) := by
    intro d1 d2
    induction d2 generalizing d1 with
    | nil => intro new _ h; simpa using h
    | cons e d2 ih =>
      intro new hn h
      rw [List.foldl_cons, show d1 ++ e :: d2 = (d1 ++ [e]) ++ d2 by simp]
      rw [show d1 ++ e :: d2 = (d1 ++ [e]) ++ d2 by simp] at hn
      refine ih (d1 ++ [e]) _ hn (joinStep_ok ?_ h)
      rw [List.map_append] at hn
      exact (List.nodup_append.1 hn).1
  have := key [] d [] (by simpa using hd) ⟨by simp, by simp, by simp, by simp⟩
  simpa [joinKeys] using this

/-! ## The string -/

/-- The block written for an entry. -/
def blockOf (e : List Nat × Finset Nat) : Block := ⟨e.1.map (· + 1), (sortSet e.2).map (· + 1)⟩

theorem tupleLe_total (l m : List Nat) : tupleLe l m = true ∨ tupleLe m l = true := by
  induction l generalizing m with
  | nil => simp [tupleLe]
  | cons a l ih =>
    cases m with
    | nil => simp [tupleLe]
    | cons b m =>
      simp only [tupleLe, Bool.or_eq_true, Bool.and_eq_true, decide_eq_true_eq]
      rcases lt_trichotomy a b with h | h | h
      · exact .inl (.inl h)
      · subst h
        rcases ih m with h | h
        · exact .inl (.inr ⟨rfl, h⟩)
        · exact .inr (.inr ⟨rfl, h⟩)
      · exact .inr (.inl h)

theorem tupleLe_trans (l m n : List Nat) (h1 : tupleLe l m = true) (h2 : tupleLe m n = true) : tupleLe l n = true := by
  induction l generalizing m n with
  | nil => simp [tupleLe]
  | cons a l ih =>
    cases m with
    | nil => simp [tupleLe] at h1
    | cons b m =>
      cases n with
      | nil => simp [tupleLe] at h2
      | cons c n =>
        simp only [tupleLe, Bool.or_eq_true, Bool.and_eq_true, decide_eq_true_eq] at h1 h2 ⊢
        rcases h1 with h1 | ⟨rfl, h1⟩
        · rcases h2 with h2 | ⟨rfl, h2⟩
          · exact .inl (lt_trans h1 h2)
          · exact .inl h1
        · rcases h2 with h2 | ⟨rfl, h2⟩
          · exact .inl h2
          · exact .inr ⟨rfl, ih _ _ h1 h2⟩

/-- The entries in the order in which they are written. -/
def ordered (d : Dict) : List (List Nat × Finset Nat) := (joinKeys d).insertionSort fun a b => tupleLe a.1 b.1

theorem mem_ordered {d : Dict} {e : List Nat × Finset Nat} : e ∈ ordered d ↔ e ∈ joinKeys d := List.mem_insertionSort _

theorem dictToStr_eq {d : Dict} (hd : DictOk d) (k v : Letter) (sep nsep : List Char) :
    dictToStr k.char v.char (joinKeys d) sep nsep = text sep nsep (((ordered d).map blockOf).map (Block.group k v)) := by
  have hj := joinKeys_ok hd.once
  unfold dictToStr text
  rw [List.map_map, List.map_map]
  congr 1
  apply List.map_congr_left
  intro e he
  have he' : e ∈ joinKeys d := mem_ordered.1 he
  simp only [Function.comp, Block.group, groupText, blockOf, List.map_cons, List.map_nil, List.flatten_cons, List.flatten_nil,
    List.append_nil, List.map_map, numbersStr]
  rw [sortNats_eq (hj.sorted e he')]
  rfl

theorem canonical {d : Dict} (hd : DictOk d) {w h : Nat} {k v : Letter} {X : Cell → Prop}
    (hX : ∀ x y, Rel d x y ↔ ∃ a, X a ∧ k.number w h a = x + 1 ∧ v.number w h a = y + 1)
    (hpos : ∀ a, 0 < k.number w h a ∧ 0 < v.number w h a) :
    Canonical w h k v X ((ordered d).map blockOf) := by
  have hj := joinKeys_ok hd.once
  have hperm : (ordered d).Perm (joinKeys d) := List.perm_insertionSort _ _
  have hmem : ∀ B ∈ (ordered d).map blockOf, ∃ e ∈ joinKeys d, B = blockOf e := by
    intro B hB
    obtain ⟨e, he, rfl⟩ := List.mem_map.1 hB
    exact ⟨e, mem_ordered.1 he, rfl⟩
  have hval : ∀ e ∈ joinKeys d, e.2 ≠ ∅ := by
    intro e he
    obtain ⟨x, hx⟩ := List.exists_mem_of_ne_nil _ (hj.nonempty e he)
    exact hd.nonempty _ ((hj.exact x e.2).1 ⟨e, he, hx, rfl⟩)
  have hdif : (ordered d).Pairwise fun f g => f.2 ≠ g.2 := (hperm.pairwise_iff (fun h => h.symm)).2 hj.different
  have hdis : (ordered d).Pairwise fun f g => ∀ x ∈ f.1, x ∉ g.1 := by
    refine hdif.imp_of_mem ?_
    intro f g hf hg hne x hx hx'
    apply hne
    exact key_unique hd.once ((hj.exact x f.2).1 ⟨f, mem_ordered.1 hf, hx, rfl⟩) ((hj.exact x g.2).1 ⟨g, mem_ordered.1 hg, hx', rfl⟩)
  refine ⟨?_, ?_, ?_, ?_, ?_, ?_, ?_, ?_⟩
  · intro B hB
    obtain ⟨e, he, rfl⟩ := hmem B hB
    exact List.Pairwise.map _ (fun a b h => Nat.add_lt_add_right h 1) (hj.sorted e he)
  · intro B hB
    obtain ⟨e, he, rfl⟩ := hmem B hB
    exact List.Pairwise.map _ (fun a b h => Nat.add_lt_add_right h 1) (sortSet_spec e.2).1
  · intro B hB
    obtain ⟨e, he, rfl⟩ := hmem B hB
    simpa [blockOf] using hj.nonempty e he
  · intro B hB
    obtain ⟨e, he, rfl⟩ := hmem B hB
    obtain ⟨x, hx⟩ := Finset.nonempty_iff_ne_empty.2 (hval e he)
    simp only [blockOf, ne_eq, List.map_eq_nil_iff]
    exact List.ne_nil_of_mem (((sortSet_spec e.2).2 x).2 hx)
  · rw [List.pairwise_map]
    refine hdis.imp ?_
    intro f g hfg x hx hx'
    obtain ⟨y, hy, rfl⟩ := List.mem_map.1 hx
    obtain ⟨z, hz, e⟩ := List.mem_map.1 hx'
    have : z = y := by simpa using e
    exact hfg y hy (this ▸ hz)
  · rw [List.pairwise_map]
    refine hdif.imp ?_
    intro f g hfg he
    apply hfg
    have : sortSet f.2 = sortSet g.2 := List.map_injective_iff.2 (fun a b h => by simpa using h) he
    ext x
    rw [← (sortSet_spec f.2).2, ← (sortSet_spec g.2).2, this]
  · rw [List.pairwise_map]
    have hle : (ordered d).Pairwise fun f g => tupleLe f.1 g.1 = true := by
      have : Std.Total fun a b : List Nat × Finset Nat => tupleLe a.1 b.1 = true := ⟨fun a b => tupleLe_total a.1 b.1⟩
      have : IsTrans (List Nat × Finset Nat) fun a b => tupleLe a.1 b.1 = true := ⟨fun a b c => tupleLe_trans a.1 b.1 c.1⟩
      exact List.pairwise_insertionSort _ _
    refine (hle.and hdis).imp ?_
    rintro f g ⟨h1, h2⟩ x y hx hy
    obtain ⟨f1, f2⟩ := f
    obtain ⟨g1, g2⟩ := g
    cases f1 with
    | nil => simp [blockOf] at hx
    | cons a f1 =>
      cases g1 with
      | nil => simp [blockOf] at hy
      | cons b g1 =>
        simp [blockOf] at hx hy
        simp only at h1 h2
        simp only [tupleLe, Bool.or_eq_true, Bool.and_eq_true, decide_eq_true_eq] at h1
        have : a ≠ b := fun e => h2 a (by simp) (by simp [e])
        omega
  · intro x y
    constructor
    · rintro ⟨B, hB, hx, hy⟩
      obtain ⟨e, he, rfl⟩ := hmem B hB
      obtain ⟨x', hx', rfl⟩ := List.mem_map.1 hx
      obtain ⟨y', hy', rfl⟩ := List.mem_map.1 hy
      exact (hX x' y').1 ⟨(x', e.2), (hj.exact x' e.2).1 ⟨e, he, hx', rfl⟩, rfl, ((sortSet_spec e.2).2 y').1 hy'⟩
    · rintro ⟨a, ha, rfl, rfl⟩
      obtain ⟨h1, h2⟩ := hpos a
      obtain ⟨x', hx'⟩ : ∃ x', k.number w h a = x' + 1 := ⟨k.number w h a - 1, by omega⟩
      obtain ⟨y', hy'⟩ : ∃ y', v.number w h a = y' + 1 := ⟨v.number w h a - 1, by omega⟩
      obtain ⟨e, he, rfl, h4⟩ := (hX x' y').2 ⟨a, ha, hx', hy'⟩
      obtain ⟨f, hf, h5, h6⟩ := (hj.exact e.1 e.2).2 he
      refine ⟨blockOf f, List.mem_map.2 ⟨f, mem_ordered.2 hf, rfl⟩, ?_, ?_⟩
      · rw [hx']; exact List.mem_map.2 ⟨_, h5, rfl⟩
      · rw [hy']; exact List.mem_map.2 ⟨y', ((sortSet_spec f.2).2 y').2 (by rw [h6]; exact h4), rfl⟩

theorem number_pos (w h : Nat) (l : Letter) (a : Cell) : 0 < l.number w h a := by cases l <;> simp [Letter.number]

/-- The two forms. -/
theorem encode_forms {w h : Nat} (hw : 0 < w) (hh : 0 < h) {cs : List (Int × Int)} (hv : Valid w h cs) (sep nsep : List Char) :
    ∃ rs bs, Canonical w h .r .c (Among cs) rs ∧ Canonical w h .b .p (Among cs) bs ∧
      ∀ ub, encode cs w h ub sep nsep = .ok (match ub with
        | some true => text sep (between w h nsep) (bs.map (Block.group .b .p))
        | some false => text sep (between w h nsep) (rs.map (Block.group .r .c))
        | none =>
          if (text sep (between w h nsep) (bs.map (Block.group .b .p))).length <
            (text sep (between w h nsep) (rs.map (Block.group .r .c))).length
          then text sep (between w h nsep) (bs.map (Block.group .b .p))
          else text sep (between w h nsep) (rs.map (Block.group .r .c))) := by
  obtain ⟨⟨rows, boxes⟩, hc⟩ := collect_ok hv [] []
  obtain ⟨h1, h2, h3, h4⟩ := collect_spec hc ⟨by simp, by simp⟩ ⟨by simp, by simp⟩
  refine ⟨(ordered rows).map blockOf, (ordered boxes).map blockOf, canonical h1 ?_ ?_, canonical h2 ?_ ?_, ?_⟩
  · intro x y
    rw [h3]
    simp [Rel, Letter.number, Among, toPair]
  · exact fun a => ⟨number_pos _ _ _ _, number_pos _ _ _ _⟩
  · intro x y
    rw [h4]
    simp [Rel, Letter.number, Among, toPair]
  · exact fun a => ⟨number_pos _ _ _ _, number_pos _ _ _ _⟩
  · intro ub
    have e1 : ∀ nsep', dictToStr 'b' 'p' (joinKeys boxes) sep nsep' =
      text sep nsep' (((ordered boxes).map blockOf).map (Block.group .b .p)) := fun nsep' => dictToStr_eq h2 .b .p sep nsep'
    have e2 : ∀ nsep', dictToStr 'r' 'c' (joinKeys rows) sep nsep' =
      text sep nsep' (((ordered rows).map blockOf).map (Block.group .r .c)) := fun nsep' => dictToStr_eq h1 .r .c sep nsep'
    unfold encode
    rw [checkSize_ok hw hh]
    simp only
    rw [hc]
    simp only [e1, e2, numberSep_eq]
    cases ub with
    | none => simp only; split <;> rfl
    | some b => cases b <;> rfl

/-! ## Canonical descriptions -/

theorem sorted_ext {l l' : List Nat} (h : l.Pairwise (· < ·)) (h' : l'.Pairwise (· < ·)) (he : ∀ x, x ∈ l ↔ x ∈ l') : l = l' :=
  Solvers.sorted_unique (fun a => lt_irrefl a) (fun _ _ _ => lt_trans) l l' h h' (by ext x; simp [he])

theorem pairwise_ne {α : Type} {R : α → α → Prop} (hs : ∀ a b, R a b → R b a) {l : List α} (hl : l.Pairwise R) {a b : α}
    (ha : a ∈ l) (hb : b ∈ l) (hab : a ≠ b) : R a b := by
  have : Std.Symm R := ⟨hs⟩
  exact hl.forall ha hb hab

theorem Canonical.sub {w h : Nat} {k v : Letter} {X : Cell → Prop} {bs bs' : List Block} (c : Canonical w h k v X bs)
    (c' : Canonical w h k v X bs') : ∀ B ∈ bs, B ∈ bs' := by
  -- the second numbers going with a first number
  have vals : ∀ {cs : List Block}, Canonical w h k v X cs → ∀ B ∈ cs, ∀ x ∈ B.keys, ∀ y,
      y ∈ B.vals ↔ ∃ a, X a ∧ k.number w h a = x ∧ v.number w h a = y := by
    intro cs cc B hB x hx y
    constructor
    · intro hy; exact (cc.exact x y).1 ⟨B, hB, hx, hy⟩
    · intro ha
      obtain ⟨C, hC, hxC, hyC⟩ := (cc.exact x y).2 ha
      by_cases hBC : B = C
      · rw [hBC]; exact hyC
      · have hd := cc.disjoint.imp (S := fun B C : Block => ∀ x, ¬ (x ∈ B.keys ∧ x ∈ C.keys)) (fun h x hx => h x hx.1 hx.2)
        exact absurd ⟨hx, hxC⟩ (pairwise_ne (fun B C h x hx => h x hx.symm) hd hB hC hBC x)
  have same : ∀ {cs : List Block}, Canonical w h k v X cs → ∀ B ∈ cs, ∀ C ∈ cs, B.vals = C.vals → B = C := by
    intro cs cc B hB C hC hv
    by_contra hBC
    exact pairwise_ne (fun _ _ h => h.symm) cc.different hB hC hBC hv
  have keys : ∀ {cs cs' : List Block}, Canonical w h k v X cs → Canonical w h k v X cs' → ∀ B ∈ cs, ∀ C ∈ cs', B.vals = C.vals →
      ∀ x ∈ B.keys, x ∈ C.keys := by
    intro cs cs' cc cc' B hB C hC hv x hx
    obtain ⟨y, hy⟩ := List.exists_mem_of_ne_nil _ (cc.valsNonempty B hB)
    obtain ⟨D, hD, hxD, _⟩ := (cc'.exact x y).2 ((cc.exact x y).1 ⟨B, hB, hx, hy⟩)
    have : D.vals = C.vals := by
      rw [← hv]
      exact sorted_ext (cc'.valsSorted D hD) (cc.valsSorted B hB) fun z => by rw [vals cc' D hD x hxD, vals cc B hB x hx]
    rw [← same cc' D hD C hC this]
    exact hxD
  intro B hB
  obtain ⟨x, hx⟩ := List.exists_mem_of_ne_nil _ (c.keysNonempty B hB)
  obtain ⟨y, hy⟩ := List.exists_mem_of_ne_nil _ (c.valsNonempty B hB)
  obtain ⟨C, hC, hxC, _⟩ := (c'.exact x y).2 ((c.exact x y).1 ⟨B, hB, hx, hy⟩)
  have h1 : B.vals = C.vals :=
    sorted_ext (c.valsSorted B hB) (c'.valsSorted C hC) fun z => by rw [vals c B hB x hx, vals c' C hC x hxC]
  have h2 : B.keys = C.keys := sorted_ext (c.keysSorted B hB) (c'.keysSorted C hC) fun z =>
    ⟨keys c c' B hB C hC h1 z, keys c' c C hC B hB h1.symm z⟩
  have : B = C := by
    obtain ⟨_, _⟩ := B
    obtain ⟨_, _⟩ := C
    simp only at h1 h2
    rw [h1, h2]
  rw [this]
  exact hC

/-- There is only one canonical description. -/
theorem Canonical.unique {w h : Nat} {k v : Letter} {X : Cell → Prop} {bs bs' : List Block} (c : Canonical w h k v X bs)
    (c' : Canonical w h k v X bs') : bs = bs' := by
  have nd : ∀ {cs : List Block}, Canonical w h k v X cs → cs.Nodup := fun cc => cc.different.imp fun h e => h (by rw [e])
  have hp : bs.Perm bs' := (List.perm_ext_iff_of_nodup (nd c) (nd c')).2 fun B => ⟨Canonical.sub c c' B, Canonical.sub c' c B⟩
  refine hp.eq_of_pairwise ?_ c.ordered c'.ordered
  intro B C hB hC h1 h2
  exfalso
  have h3 := c.keysNonempty B hB
  have h4 := c'.keysNonempty C hC
  obtain ⟨x, hx⟩ : ∃ x, B.keys.head? = some x := by
    cases hk : B.keys with
    | nil => exact absurd hk h3
    | cons x l => exact ⟨x, rfl⟩
  obtain ⟨y, hy⟩ : ∃ y, C.keys.head? = some y := by
    cases hk : C.keys with
    | nil => exact absurd hk h4
    | cons x l => exact ⟨x, rfl⟩
  have := h1 x y hx hy
  have := h2 y x hy hx
  omega

theorem Canonical.congr {w h : Nat} {k v : Letter} {X Y : Cell → Prop} {bs : List Block} (c : Canonical w h k v X bs)
    (hXY : ∀ a, X a ↔ Y a) : Canonical w h k v Y bs := by
  rwa [show Y = X from funext fun a => propext (hXY a).symm]

/-- A field is known by its box and its place in it. -/
theorem box_part_inj {w h : Nat} {a b : Cell} (ha : InGrid w h a) (hb : InGrid w h b)
    (h1 : Letter.b.number w h a = Letter.b.number w h b) (h2 : Letter.p.number w h a = Letter.p.number w h b) : a = b := by
  obtain ⟨hw, hh⟩ := Geometry.inGrid_pos ha
  simp only [Letter.number, Nat.add_right_cancel_iff] at h1 h2
  have ha2 : a.2 / w < h := (Nat.div_lt_iff_lt_mul hw).2 (by rw [Nat.mul_comm]; exact ha.2)
  have hb2 : b.2 / w < h := (Nat.div_lt_iff_lt_mul hw).2 (by rw [Nat.mul_comm]; exact hb.2)
  have hma := Nat.mod_lt a.2 hw
  have hmb := Nat.mod_lt b.2 hw
  have e1 : a.1 / h = b.1 / h := by
    have := congrArg (· / h) h1
    rw [Nat.mul_comm, Nat.mul_add_div hh, Nat.div_eq_of_lt ha2, Nat.mul_comm, Nat.mul_add_div hh, Nat.div_eq_of_lt hb2] at this
    omega
  have e2 : a.2 / w = b.2 / w := by rw [e1] at h1; omega
  have e3 : a.1 % h = b.1 % h := by
    have := congrArg (· / w) h2
    rw [Nat.mul_comm, Nat.mul_add_div hw, Nat.div_eq_of_lt hma, Nat.mul_comm, Nat.mul_add_div hw, Nat.div_eq_of_lt hmb] at this
    omega
  have e4 : a.2 % w = b.2 % w := by rw [e3] at h2; omega
  have f1 := Nat.div_add_mod a.1 h
  have f2 := Nat.div_add_mod b.1 h
  have f3 := Nat.div_add_mod a.2 w
  have f4 := Nat.div_add_mod b.2 w
  rw [e1, e3] at f1
  rw [e2, e4] at f3
  exact Prod.ext (by omega) (by omega)

/-- The letters of the two forms. -/
def Form (k v : Letter) : Prop := (k = .r ∧ v = .c) ∨ (k = .b ∧ v = .p)

theorem form_inj {k v : Letter} (hf : Form k v) {w h : Nat} {a b : Cell} (ha : InGrid w h a) (hb : InGrid w h b)
    (h1 : k.number w h a = k.number w h b) (h2 : v.number w h a = v.number w h b) : a = b := by
  rcases hf with ⟨rfl, rfl⟩ | ⟨rfl, rfl⟩
  · simp only [Letter.number] at h1 h2
    exact Prod.ext (by omega) (by omega)
  · exact box_part_inj ha hb h1 h2

theorem number_le {w h : Nat} (l : Letter) {a : Cell} (ha : InGrid w h a) : l.number w h a ≤ w * h := by
  obtain ⟨hw, hh⟩ := Geometry.inGrid_pos ha
  cases l
  · exact ha.1
  · exact ha.2
  · have := Coordinates.boxAt_lt (w := w) (h := h) (row := a.1) (col := a.2) ha
    rw [Coordinates.boxAt_eq_div] at this
    exact this
  · have h1 := Nat.mod_lt a.1 hh
    have h2 := Nat.mod_lt a.2 hw
    simp only [Letter.number]
    have : (a.1 % h + 1) * w ≤ h * w := Nat.mul_le_mul_right w h1
    rw [Nat.add_mul, Nat.one_mul] at this
    rw [Nat.mul_comm w h]
    omega

theorem proper_block {w h : Nat} {k v : Letter} (hf : Form k v) {X : Cell → Prop} (hX : ∀ a, X a → InGrid w h a)
    {bs : List Block} (c : Canonical w h k v X bs) : ∀ g ∈ bs.map (Block.group k v), Proper w h g := by
  intro g hg
  obtain ⟨B, hB, rfl⟩ := List.mem_map.1 hg
  refine ⟨by simp [Block.group], ?_, ?_, ?_⟩
  · rcases hf with ⟨rfl, rfl⟩ | ⟨rfl, rfl⟩ <;> simp [Block.group]
  · intro q hq
    simp only [Block.group, List.mem_cons, List.not_mem_nil, or_false] at hq
    rcases hq with rfl | rfl
    · exact c.keysNonempty B hB
    · exact c.valsNonempty B hB
  · intro q hq n hn
    simp only [Block.group, List.mem_cons, List.not_mem_nil, or_false] at hq
    rcases hq with rfl | rfl
    · obtain ⟨y, hy⟩ := List.exists_mem_of_ne_nil _ (c.valsNonempty B hB)
      obtain ⟨a, h1, h2, h3⟩ := (c.exact n y).1 ⟨B, hB, hn, hy⟩
      rw [← h2]
      exact ⟨number_pos _ _ _ _, number_le k (hX a h1)⟩
    · obtain ⟨x, hx⟩ := List.exists_mem_of_ne_nil _ (c.keysNonempty B hB)
      obtain ⟨a, h1, h2, h3⟩ := (c.exact x n).1 ⟨B, hB, hx, hn⟩
      rw [← h3]
      exact ⟨number_pos _ _ _ _, number_le v (hX a h1)⟩

theorem named_block {w h : Nat} {k v : Letter} (hf : Form k v) {X : Cell → Prop} (hX : ∀ a, X a → InGrid w h a)
    {bs : List Block} (c : Canonical w h k v X bs) (a : Cell) : (∃ g ∈ bs.map (Block.group k v), Named w h g a) ↔ X a := by
  constructor
  · rintro ⟨g, hg, ha, hn⟩
    obtain ⟨B, hB, rfl⟩ := List.mem_map.1 hg
    have h1 := hn (k, B.keys) (by simp [Block.group])
    have h2 := hn (v, B.vals) (by simp [Block.group])
    obtain ⟨b, h3, h4, h5⟩ := (c.exact _ _).1 ⟨B, hB, h1, h2⟩
    rw [← form_inj hf (hX b h3) ha h4 h5]
    exact h3
  · intro ha
    obtain ⟨B, hB, h1, h2⟩ := (c.exact _ _).2 ⟨a, ha, rfl, rfl⟩
    refine ⟨_, List.mem_map.2 ⟨B, hB, rfl⟩, hX a ha, ?_⟩
    intro q hq
    simp only [Block.group, List.mem_cons, List.not_mem_nil, or_false] at hq
    rcases hq with rfl | rfl
    · exact h1
    · exact h2

theorem canonical_ne_nil {w h : Nat} {k v : Letter} {X : Cell → Prop} {bs : List Block} (c : Canonical w h k v X bs) {a : Cell} (ha : X a) :
    bs ≠ [] := by
  obtain ⟨B, hB, _⟩ := (c.exact _ _).2 ⟨a, ha, rfl, rfl⟩
  exact List.ne_nil_of_mem hB

end Notation
