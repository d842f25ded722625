import Verif.Model.Game
import Verif.StepSpec
import Verif.Proofs.Store
import Verif.Proofs.Geometry
import Verif.Proofs.NotationEncode
import Mathlib.Algebra.Order.BigOperators.Group.Finset

set_option autoImplicit false

/-! # Lemmas about the game shell: autofill -/

open Spec

namespace Game

/-- What `autofill` may do to a sudoku. -/
structure Shrinks (s t : Sudoku) : Prop where
  bw : t.bw = s.bw
  bh : t.bh = s.bh
  cand : ∀ a, t.cand a ⊆ s.cand a
  num : ∀ a, t.num a = s.num a ∨ (s.num a = 0 ∧ t.num a ∈ s.cand a)

theorem Shrinks.refl (s : Sudoku) : Shrinks s s := ⟨rfl, rfl, fun _ => Finset.Subset.refl _, fun _ => .inl rfl⟩

theorem Shrinks.trans {s t u : Sudoku} (h : Shrinks s t) (k : Shrinks t u) : Shrinks s u := by
  refine ⟨k.bw.trans h.bw, k.bh.trans h.bh, fun a => (k.cand a).trans (h.cand a), fun a => ?_⟩
  rcases k.num a with k1 | ⟨k1, k2⟩
  · rw [k1]; exact h.num a
  · rcases h.num a with h1 | ⟨h1, _⟩
    · exact .inr ⟨h1 ▸ k1, h.cand a k2⟩
    · exact .inr ⟨h1, h.cand a k2⟩

/-- What becomes smaller in each round of `autofill`: the number of candidates and the number of empty fields. -/
def weight (s : Sudoku) (a : Cell) : Nat := (s.cand a).card + if s.num a = 0 then 1 else 0

def size (s : Sudoku) : Nat := (s.cells.map (weight s)).sum

theorem sum_le {α : Type} (l : List α) (f g : α → Nat) (h : ∀ a ∈ l, f a ≤ g a) : (l.map f).sum ≤ (l.map g).sum := by
  induction l with
  | nil => simp
  | cons a l ih =>
    simp only [List.map_cons, List.sum_cons]
    exact Nat.add_le_add (h a (by simp)) (ih fun b hb => h b (List.mem_cons_of_mem _ hb))

theorem sum_lt {α : Type} (l : List α) (f g : α → Nat) (h : ∀ a ∈ l, f a ≤ g a) {b : α} (hb : b ∈ l) (hlt : f b < g b) :
    (l.map f).sum < (l.map g).sum := by
  induction l with
  | nil => cases hb
  | cons a l ih =>
    simp only [List.map_cons, List.sum_cons]
    rcases List.mem_cons.1 hb with rfl | hb
    · exact Nat.add_lt_add_of_lt_of_le hlt (sum_le l f g fun c hc => h c (List.mem_cons_of_mem _ hc))
    · exact Nat.add_lt_add_of_le_of_lt (h a (by simp)) (ih (fun c hc => h c (List.mem_cons_of_mem _ hc)) hb)

theorem size_remove {s : Sudoku} {b : Cell} (hb : InGrid s.bw s.bh b) {v : Int} (hv : v ∈ s.cand b) :
    size (s.removeCandidates b {v}) < size s := by
  have hw : ∀ a, weight (s.removeCandidates b {v}) a = if a = b then weight s b - 1 else weight s a := by
    intro a
    by_cases h : a = b
    · subst h
      rw [if_pos rfl]
      have : ((s.removeCandidates a {v}).cand a) = (s.cand a).erase v := by
        simp [Sudoku.removeCandidates, Finset.sdiff_singleton_eq_erase]
      have hp : 0 < (s.cand a).card := Finset.card_pos.2 ⟨v, hv⟩
      unfold weight
      rw [this, Finset.card_erase_of_mem hv]
      show _ + (if s.num a = 0 then 1 else 0) = _
      omega
    · rw [if_neg h]
      unfold weight
      have : (s.removeCandidates b {v}).cand a = s.cand a := by simp [Sudoku.removeCandidates, h]
      rw [this]
      rfl
  have h0 : 0 < weight s b := Nat.lt_of_lt_of_le (Finset.card_pos.2 ⟨v, hv⟩) (Nat.le_add_right _ _)
  refine sum_lt s.cells _ _ (fun a _ => ?_) ((Sudoku.mem_cells s).2 hb) ?_
  · rw [hw]
    split
    · rename_i h; subst h; omega
    · exact Nat.le_refl _
  · rw [hw, if_pos rfl]; omega

theorem size_set {s : Sudoku} {a : Cell} (ha : InGrid s.bw s.bh a) (h0 : s.num a = 0) {v : Int} (hv : v ≠ 0) :
    size (s.setNumber a v) < size s := by
  have hw : ∀ b, weight (s.setNumber a v) b = if b = a then (s.cand a).card else weight s b := by
    intro b
    by_cases h : b = a
    · subst h
      rw [if_pos rfl]
      unfold weight
      rw [if_neg (by simpa [Sudoku.setNumber] using hv)]
      rfl
    · rw [if_neg h]
      unfold weight
      have : (s.setNumber a v).num b = s.num b := by simp [Sudoku.setNumber, h]
      rw [this]
      rfl
  have hwa : weight s a = (s.cand a).card + 1 := by unfold weight; rw [if_pos h0]
  refine sum_lt s.cells _ _ (fun b _ => ?_) ((Sudoku.mem_cells s).2 ha) ?_
  · rw [hw]
    split
    · rename_i h; subst h; omega
    · exact Nat.le_refl _
  · rw [hw, if_pos rfl]; omega

theorem each_inv {f : Cell → Fill → Fill × Option PyErr} {P Q : Fill → Prop} (l : List Cell)
    (h : ∀ a ∈ l, ∀ s, P s → ((f a s).2 = none → P (f a s).1) ∧ Q (f a s).1) (hq : ∀ s, P s → Q s) {s : Fill} (hs : P s) :
    ((each f l s).2 = none → P (each f l s).1) ∧ Q (each f l s).1 := by
  induction l generalizing s with
  | nil => exact ⟨fun _ => hs, hq s hs⟩
  | cons a l ih =>
    obtain ⟨h1, h2⟩ := h a (by simp) s hs
    rw [each]
    cases hf : f a s with
    | mk t o =>
      rw [hf] at h1 h2
      cases o with
      | some e => exact ⟨by simp, h2⟩
      | none => exact ih (fun b hb => h b (List.mem_cons_of_mem _ hb)) (h1 rfl)

theorem removeFrom_inv {P : Fill → Prop} (v : Int) (l : List Cell)
    (h : ∀ b ∈ l, ∀ s : Fill, P s → v ∈ s.sudoku.cand b → P { s with sudoku := s.sudoku.removeCandidates b {v}, changed := true })
    {s : Fill} (cs : List Cell) (hs : P s) : P (removeFrom v l s cs).1 := by
  induction l generalizing s cs with
  | nil => exact hs
  | cons b l ih =>
    rw [removeFrom]
    split
    · rename_i hv
      exact ih (fun c hc => h c (List.mem_cons_of_mem _ hc)) _ (h b (by simp) s hs hv)
    · exact ih (fun c hc => h c (List.mem_cons_of_mem _ hc)) _ hs

theorem removeFrom_changed (v : Int) (l : List Cell) (s : Fill) (cs : List Cell) (hs : s.changed = true) :
    (removeFrom v l s cs).1.changed = true :=
  removeFrom_inv (P := fun s => s.changed = true) v l (fun _ _ _ _ _ => rfl) cs hs

theorem removeFrom_same (v : Int) (l : List Cell) (s : Fill) (cs : List Cell) (h : (removeFrom v l s cs).1.changed = false) :
    removeFrom v l s cs = (s, cs) ∧ ∀ b ∈ l, v ∉ s.sudoku.cand b := by
  induction l generalizing s cs with
  | nil => exact ⟨rfl, by simp⟩
  | cons b l ih =>
    rw [removeFrom] at h ⊢
    by_cases hv : v ∈ s.sudoku.getCandidates b
    · rw [if_pos hv, removeFrom_changed _ _ _ _ rfl] at h
      cases h
    · rw [if_neg hv] at h ⊢
      obtain ⟨h1, h2⟩ := ih s cs h
      refine ⟨h1, fun c hc => ?_⟩
      rcases List.mem_cons.1 hc with rfl | hc
      · exact hv
      · exact h2 c hc

theorem removeFrom_coords (v : Int) (l : List Cell) (s : Fill) (cs : List Cell) : ∀ b ∈ (removeFrom v l s cs).2, b ∈ cs ∨ b ∈ l := by
  induction l generalizing s cs with
  | nil => intro b hb; exact .inl hb
  | cons c l ih =>
    rw [removeFrom]
    intro b hb
    split at hb
    · rcases ih _ _ b hb with h | h
      · rcases List.mem_append.1 h with h | h
        · exact .inl h
        · exact .inr (by simp at h; simp [h])
      · exact .inr (List.mem_cons_of_mem _ h)
    · rcases ih _ _ b hb with h | h
      · exact .inl h
      · exact .inr (List.mem_cons_of_mem _ h)

theorem sortSet_singleton (v : Int) : Solvers.sortSet {v} = [v] := rfl

/-- `setStep`, unfolded. -/
theorem setStep_eq (verbose : Bool) (a : Cell) (s : Fill) : setStep verbose a s = (s, none) ∧ ¬ (s.sudoku.num a = 0 ∧ (s.sudoku.cand a).card = 1) ∨
    ∃ v, s.sudoku.num a = 0 ∧ s.sudoku.cand a = {v} ∧
      ((∃ o, setStep verbose a s = (⟨s.sudoku.setNumber a v, true, o⟩, none)) ∨
       (∃ e, verbose = true ∧ Notation.encode [Notation.toPair a] 3 3 none [','] [] = .error e ∧
        setStep verbose a s = (⟨s.sudoku.setNumber a v, s.changed, s.out⟩, some e))) := by
  unfold setStep
  by_cases h : s.sudoku.get a = 0 ∧ (s.sudoku.getCandidates a).card = 1
  · right
    rw [if_pos h]
    obtain ⟨v, hv⟩ := Finset.card_eq_one.1 h.2
    refine ⟨v, h.1, hv, ?_⟩
    rw [hv, sortSet_singleton]
    simp only [List.foldl_cons, List.foldl_nil]
    cases verbose with
    | false => exact .inl ⟨s.out, rfl⟩
    | true =>
      cases he : Notation.encode [Notation.toPair a] 3 3 none [','] [] with
      | error e => exact .inr ⟨e, rfl, rfl, rfl⟩
      | ok t => exact .inl ⟨_, rfl⟩
  · left
    rw [if_neg h]
    exact ⟨rfl, h⟩

/-- `removeStep`, unfolded. -/
theorem removeStep_eq (verbose : Bool) (a : Cell) (s : Fill) : removeStep verbose a s = (s, none) ∧ s.sudoku.num a = 0 ∨
    s.sudoku.num a ≠ 0 ∧ ∃ o e, removeStep verbose a s =
      ({ (removeFrom (s.sudoku.num a) (s.sudoku.surroundingOf a false) s []).1 with out := o }, e) ∧
      (∀ x, e = some x → verbose = true ∧ Notation.encode
        ((removeFrom (s.sudoku.num a) (s.sudoku.surroundingOf a false) s []).2.map Notation.toPair) 3 3 none [','] [] = .error x) := by
  unfold removeStep
  by_cases h : s.sudoku.get a ≠ 0
  · right
    refine ⟨h, ?_⟩
    rw [if_pos h]
    have hg : s.sudoku.get a = s.sudoku.num a := rfl
    simp only [hg]
    generalize removeFrom (s.sudoku.num a) (s.sudoku.surroundingOf a false) s [] = r
    obtain ⟨t, cs⟩ := r
    simp only
    split
    · rename_i hv
      cases he : Notation.encode (cs.map Notation.toPair) 3 3 none [','] [] with
      | error e =>
        refine ⟨t.out, some e, rfl, fun x hx => ?_⟩
        cases hx
        simp only [Bool.and_eq_true] at hv
        exact ⟨hv.1, rfl⟩
      | ok u => exact ⟨_, none, rfl, by simp⟩
    · exact ⟨t.out, none, rfl, by simp⟩
  · left
    rw [if_neg h]
    exact ⟨rfl, by simpa [Sudoku.get] using h⟩

/-- What is kept by the single changes made by `autofill`. -/
structure Keeps (set : Settings) (w h : Nat) (P : Sudoku → Bool → Prop) : Prop where
  size : ∀ x c, P x c → x.bw = w ∧ x.bh = h
  rem : ∀ x c a b, P x c → InGrid w h a → InGrid w h b → Peer w h a b → x.num a ≠ 0 → x.num a ∈ x.cand b →
    P (x.removeCandidates b {x.num a}) true
  set : set.autoset = true → ∀ x c a v, P x c → InGrid w h a → x.num a = 0 → x.cand a = {v} → P (x.setNumber a v) true

section
variable {set : Settings} {w h : Nat} {P : Sudoku → Bool → Prop}

theorem Keeps.removeStep (k : Keeps set w h P) (verbose : Bool) {a : Cell} (ha : InGrid w h a) {s : Fill} (hs : P s.sudoku s.changed) :
    P (removeStep verbose a s).1.sudoku (removeStep verbose a s).1.changed := by
  rcases removeStep_eq verbose a s with ⟨h1, _⟩ | ⟨h0, o, e, h1, _⟩
  · rw [h1]; exact hs
  · rw [h1]
    obtain ⟨e1, e2⟩ := k.size _ _ hs
    have := removeFrom_inv (P := fun t => P t.sudoku t.changed ∧ t.sudoku.num = s.sudoku.num) (s.sudoku.num a)
      (s.sudoku.surroundingOf a false) (fun b hb t ht hv => by
        rw [Sudoku.mem_surroundingOf_false s.sudoku (by rw [e1, e2]; exact ha)] at hb
        rw [e1, e2] at hb
        have hn : t.sudoku.num a = s.sudoku.num a := congrFun ht.2 a
        refine ⟨?_, ht.2⟩
        rw [← hn] at hv ⊢
        exact k.rem _ _ a b ht.1 ha hb.1 hb.2 (by rw [hn]; exact h0) hv) (s := s) [] ⟨hs, rfl⟩
    exact this.1

theorem Keeps.setStep (k : Keeps set w h P) (hset : set.autoset = true) (verbose : Bool) {a : Cell} (ha : InGrid w h a) {s : Fill}
    (hs : P s.sudoku s.changed) :
    ((setStep verbose a s).2 = none → P (setStep verbose a s).1.sudoku (setStep verbose a s).1.changed) ∧
    ∃ c, P (setStep verbose a s).1.sudoku c := by
  rcases setStep_eq verbose a s with ⟨h1, _⟩ | ⟨v, h0, h1, ⟨o, h2⟩ | ⟨e, _, _, h2⟩⟩
  · rw [h1]; exact ⟨fun _ => hs, _, hs⟩
  · rw [h2]; exact ⟨fun _ => k.set hset _ _ a v hs ha h0 h1, _, k.set hset _ _ a v hs ha h0 h1⟩
  · rw [h2]; exact ⟨by simp, _, k.set hset _ _ a v hs ha h0 h1⟩

theorem Keeps.round (k : Keeps set w h P) (verbose : Bool) {s : Fill} (hs : P s.sudoku false) :
    ((round set verbose s).2 = none → P (round set verbose s).1.sudoku (round set verbose s).1.changed) ∧
    ∃ c, P (round set verbose s).1.sudoku c := by
  obtain ⟨e1, e2⟩ := k.size _ _ hs
  have h1 : ((if set.autoremove then each (Game.removeStep verbose) s.sudoku.cells { s with changed := false } else ({ s with changed := false }, none)).2 = none →
      P (if set.autoremove then each (Game.removeStep verbose) s.sudoku.cells { s with changed := false } else ({ s with changed := false }, none)).1.sudoku
        (if set.autoremove then each (Game.removeStep verbose) s.sudoku.cells { s with changed := false } else ({ s with changed := false }, none)).1.changed) ∧
      ∃ c, P (if set.autoremove then each (Game.removeStep verbose) s.sudoku.cells { s with changed := false } else ({ s with changed := false }, none)).1.sudoku c := by
    split
    · refine each_inv (P := fun t => P t.sudoku t.changed) (Q := fun t => ∃ c, P t.sudoku c) _ (fun a ha t ht => ?_) (fun t ht => ⟨_, ht⟩) hs
      have ha' : InGrid w h a := by
        have := (Sudoku.mem_cells s.sudoku).1 ha
        rw [e1, e2] at this
        exact this
      have := k.removeStep verbose ha' ht
      exact ⟨fun _ => this, _, this⟩
    · exact ⟨fun _ => hs, _, hs⟩
  unfold Game.round
  simp only
  generalize (if set.autoremove = true then each (Game.removeStep verbose) s.sudoku.cells { s with changed := false }
    else ({ s with changed := false }, none)) = r at h1 ⊢
  obtain ⟨t, o⟩ := r
  cases o with
  | some e => exact ⟨by simp, h1.2⟩
  | none =>
    have ht := h1.1 rfl
    simp only at ht ⊢
    obtain ⟨f1, f2⟩ := k.size _ _ ht
    split
    · rename_i hset
      refine each_inv (P := fun t => P t.sudoku t.changed) (Q := fun t => ∃ c, P t.sudoku c) _ (fun a ha u hu => ?_) (fun t ht => ⟨_, ht⟩) ht
      have ha' : InGrid w h a := by
        have := (Sudoku.mem_cells t.sudoku).1 ha
        rw [f1, f2] at this
        exact this
      exact k.setStep hset verbose ha' hu
    · exact ⟨fun _ => ht, _, ht⟩

end

/-! ## What holds when nothing changes any more -/

theorem each_false {f : Cell → Fill → Fill × Option PyErr} {C : Cell → Sudoku → Prop} (l : List Cell)
    (hmono : ∀ a s, s.changed = true → (f a s).2 = none → (f a s).1.changed = true)
    (h : ∀ a ∈ l, ∀ s, (f a s).2 = none → (f a s).1.changed = false → (f a s).1.sudoku = s.sudoku ∧ C a s.sudoku)
    (s : Fill) (hn : (each f l s).2 = none) (hc : (each f l s).1.changed = false) :
    s.changed = false ∧ (each f l s).1.sudoku = s.sudoku ∧ ∀ a ∈ l, C a s.sudoku := by
  induction l generalizing s with
  | nil => exact ⟨hc, rfl, by simp⟩
  | cons a l ih =>
    rw [each] at hn hc ⊢
    cases hf : f a s with
    | mk t o =>
      rw [hf] at hn hc
      cases o with
      | some e => cases hn
      | none =>
        simp only at hn hc ⊢
        obtain ⟨h1, h2, h3⟩ := ih (fun b hb => h b (List.mem_cons_of_mem _ hb)) t hn hc
        have h4 := h a (by simp) s (by rw [hf]) (by rw [hf]; exact h1)
        rw [hf] at h4
        refine ⟨?_, h2.trans h4.1, fun b hb => ?_⟩
        · by_contra hcon
          have := hmono a s (by simpa using hcon) (by rw [hf])
          rw [hf] at this
          rw [show t.changed = true from this] at h1
          cases h1
        · rcases List.mem_cons.1 hb with rfl | hb
          · exact h4.2
          · have := h3 b hb
            rw [h4.1] at this
            exact this

theorem removeStep_mono (verbose : Bool) (a : Cell) (s : Fill) (hs : s.changed = true) : (removeStep verbose a s).1.changed = true := by
  rcases removeStep_eq verbose a s with ⟨h1, _⟩ | ⟨_, o, e, h1, _⟩
  · rw [h1]; exact hs
  · rw [h1]; exact removeFrom_changed _ _ _ _ hs

theorem setStep_mono (verbose : Bool) (a : Cell) (s : Fill) (hs : s.changed = true) : (setStep verbose a s).1.changed = true := by
  rcases setStep_eq verbose a s with ⟨h1, _⟩ | ⟨v, _, _, ⟨o, h2⟩ | ⟨e, _, _, h2⟩⟩
  · rw [h1]; exact hs
  · rw [h2]
  · rw [h2]; exact hs

/-- A round that changes nothing. -/
theorem round_false (set : Settings) (verbose : Bool) (s : Fill) (hn : (round set verbose s).2 = none)
    (hc : (round set verbose s).1.changed = false) :
    (round set verbose s).1.sudoku = s.sudoku ∧
    (set.autoremove = true → ∀ a ∈ s.sudoku.cells, s.sudoku.num a ≠ 0 → ∀ b ∈ s.sudoku.surroundingOf a false, s.sudoku.num a ∉ s.sudoku.cand b) ∧
    (set.autoset = true → ∀ a ∈ s.sudoku.cells, ¬ (s.sudoku.num a = 0 ∧ (s.sudoku.cand a).card = 1)) := by
  have h1 : ∀ r, r = (if set.autoremove = true then each (removeStep verbose) s.sudoku.cells { s with changed := false }
      else ({ s with changed := false }, none)) → r.2 = none → r.1.changed = false → r.1.sudoku = s.sudoku ∧
      (set.autoremove = true → ∀ a ∈ s.sudoku.cells, s.sudoku.num a ≠ 0 → ∀ b ∈ s.sudoku.surroundingOf a false, s.sudoku.num a ∉ s.sudoku.cand b) := by
    rintro r rfl hn hc
    by_cases hset : set.autoremove = true
    · rw [if_pos hset] at hn hc ⊢
      obtain ⟨_, h2, h3⟩ := each_false (C := fun a x => x.num a ≠ 0 → ∀ b ∈ x.surroundingOf a false, x.num a ∉ x.cand b) _
        (fun a s hs _ => removeStep_mono verbose a s hs) (fun a _ t hn hc => by
          rcases removeStep_eq verbose a t with ⟨h1, h0⟩ | ⟨_, o, e, h1, _⟩
          · rw [h1]; exact ⟨rfl, fun h => absurd h0 h⟩
          · rw [h1] at hc ⊢
            obtain ⟨h2, h3⟩ := removeFrom_same _ _ _ _ hc
            rw [h2]
            exact ⟨rfl, fun _ => h3⟩) _ hn hc
      exact ⟨h2, fun _ => h3⟩
    · rw [if_neg hset]
      exact ⟨rfl, fun h => absurd h hset⟩
  unfold round at hn hc ⊢
  simp only at hn hc ⊢
  generalize hr : (if set.autoremove = true then each (removeStep verbose) s.sudoku.cells { s with changed := false }
    else ({ s with changed := false }, none)) = r at hn hc ⊢
  have h1 := h1 r hr.symm
  obtain ⟨t, o⟩ := r
  cases o with
  | some e => cases hn
  | none =>
    simp only at hn hc h1 ⊢
    by_cases hset : set.autoset = true
    · rw [if_pos hset] at hn hc ⊢
      obtain ⟨h2, h3, h4⟩ := each_false (C := fun a x => ¬ (x.num a = 0 ∧ (x.cand a).card = 1)) _
        (fun a s hs _ => setStep_mono verbose a s hs) (fun a _ u hn hc => by
          rcases setStep_eq verbose a u with ⟨h1, h0⟩ | ⟨v, _, _, ⟨o, h2⟩ | ⟨e, _, _, h2⟩⟩
          · rw [h1]; exact ⟨rfl, h0⟩
          · rw [h2] at hc; cases hc
          · rw [h2] at hn; cases hn) _ hn hc
      obtain ⟨h5, h6⟩ := h1 trivial h2
      rw [h5] at h4
      exact ⟨h3.trans h5, h6, fun _ => h4⟩
    · rw [if_neg hset] at hc ⊢
      obtain ⟨h5, h6⟩ := h1 trivial hc
      exact ⟨h5, h6, fun h => absurd h hset⟩

/-! ## The loop -/

theorem loop_inv {set : Settings} {w h : Nat} {P : Sudoku → Prop} (k : Keeps set w h (fun x _ => P x)) (verbose : Bool) (n : Nat) {s : Fill}
    (hs : P s.sudoku) {r : Fill × Option PyErr} (hr : autofillLoop set verbose n s = some r) : P r.1.sudoku := by
  induction n generalizing s with
  | zero => cases hr
  | succ n ih =>
    rw [autofillLoop] at hr
    have h1 := k.round verbose (s := s) hs
    cases hx : round set verbose s with
    | mk t o =>
      rw [hx] at hr h1
      obtain ⟨_, _, h2⟩ := h1
      cases o with
      | some e => cases hr; exact h2
      | none =>
        simp only at hr
        split at hr
        · exact ih h2 hr
        · cases hr; exact h2

/-- No exception: nothing changed in the last round. -/
theorem loop_closed (set : Settings) (verbose : Bool) (n : Nat) (s r : Fill) (hr : autofillLoop set verbose n s = some (r, none)) :
    (set.autoremove = true → ∀ a ∈ r.sudoku.cells, r.sudoku.num a ≠ 0 → ∀ b ∈ r.sudoku.surroundingOf a false, r.sudoku.num a ∉ r.sudoku.cand b) ∧
    (set.autoset = true → ∀ a ∈ r.sudoku.cells, ¬ (r.sudoku.num a = 0 ∧ (r.sudoku.cand a).card = 1)) := by
  induction n generalizing s with
  | zero => cases hr
  | succ n ih =>
    rw [autofillLoop] at hr
    have h1 := round_false set verbose s
    cases hx : round set verbose s with
    | mk t o =>
      rw [hx] at hr h1
      cases o with
      | some e => cases hr
      | none =>
        simp only at hr h1
        split at hr
        · exact ih t hr
        · rename_i hc
          cases hr
          obtain ⟨h2, h3⟩ := h1 trivial (by simpa using hc)
          rw [h2]
          exact h3

/-- What `autofill` needs to come to an end: no empty field of the grid has the candidate 0, if numbers are set. -/
def NoZero (set : Settings) (s : Sudoku) : Prop := set.autoset = true → ∀ a, InGrid s.bw s.bh a → s.num a = 0 → (0 : Int) ∉ s.cand a

theorem keeps_size (set : Settings) (s : Sudoku) : Keeps set s.bw s.bh fun x c =>
    (x.bw = s.bw ∧ x.bh = s.bh) ∧ NoZero set x ∧ size x ≤ size s ∧ (c = true → size x < size s) where
  size := fun x c hx => hx.1
  rem := by
    rintro x c a b ⟨⟨e1, e2⟩, h0, h1, _⟩ ha hb _ hn hv
    have := size_remove (s := x) (b := b) (by rw [e1, e2]; exact hb) hv
    refine ⟨⟨e1, e2⟩, fun hset d hd hz hd' => h0 hset d hd hz ?_, by omega, fun _ => by omega⟩
    by_cases hdb : d = b
    · subst hdb
      simp [Sudoku.removeCandidates] at hd'
      exact hd'.1
    · simpa [Sudoku.removeCandidates, hdb] using hd'
  set := by
    rintro hset x c a v ⟨⟨e1, e2⟩, h0, h1, _⟩ ha hn hv
    have hv0 : v ≠ 0 := by
      rintro rfl
      exact h0 hset a (by rw [e1, e2]; exact ha) hn (by rw [hv]; simp)
    have := size_set (s := x) (a := a) (by rw [e1, e2]; exact ha) hn hv0
    refine ⟨⟨e1, e2⟩, fun hset d hd hz => ?_, by omega, fun _ => by omega⟩
    by_cases hda : d = a
    · subst hda
      exact absurd (by simpa [Sudoku.setNumber] using hz) hv0
    · exact h0 hset d hd (by simpa [Sudoku.setNumber, hda] using hz)

theorem loop_ends (set : Settings) (verbose : Bool) (n : Nat) (s : Fill) (h0 : NoZero set s.sudoku) (hn : size s.sudoku < n) :
    ∃ r, autofillLoop set verbose n s = some r := by
  induction n generalizing s with
  | zero => omega
  | succ n ih =>
    rw [autofillLoop]
    have h1 := (keeps_size set s.sudoku).round verbose (s := s) ⟨⟨rfl, rfl⟩, h0, Nat.le_refl _, by simp⟩
    cases hx : round set verbose s with
    | mk t o =>
      rw [hx] at h1
      cases o with
      | some e => exact ⟨_, rfl⟩
      | none =>
        simp only
        split
        · rename_i hc
          obtain ⟨_, h2, _, h3⟩ := h1.1 rfl
          exact ih t h2 (by have := h3 hc; simp only at this; omega)
        · exact ⟨_, rfl⟩

theorem keeps_shrinks (set : Settings) (s : Sudoku) : Keeps set s.bw s.bh fun x _ => Shrinks s x where
  size := fun x c hx => ⟨hx.bw, hx.bh⟩
  rem := by
    intro x c a b hx ha hb _ hn hv
    refine hx.trans ⟨rfl, rfl, fun d => ?_, fun d => .inl rfl⟩
    by_cases hdb : d = b
    · subst hdb; simp [Sudoku.removeCandidates]
    · simp [Sudoku.removeCandidates, hdb]
  set := by
    intro hset x c a v hx ha hn hv
    refine hx.trans ⟨rfl, rfl, fun d => Finset.Subset.refl _, fun d => ?_⟩
    by_cases hda : d = a
    · subst hda
      exact .inr ⟨hn, by rw [hv]; simp [Sudoku.setNumber]⟩
    · exact .inl (by simp [Sudoku.setNumber, hda])

theorem keeps_contains (set : Settings) (w h : Nat) (g : Grid) : Keeps set w h fun x _ => (x.bw = w ∧ x.bh = h) ∧ Contains x g where
  size := fun x c hx => hx.1
  rem := by
    rintro x c a b ⟨⟨e1, e2⟩, h1, h2⟩ ha hb hp hn hv
    refine ⟨⟨e1, e2⟩, h1, fun d hd => ?_⟩
    by_cases hdb : d = b
    · subst hdb
      have hg : g a = x.num a := by
        exact h1.keeps a (by rw [e1, e2]; exact ha) hn
      have hne : g a ≠ g d := h1.valid a d (by rw [e1, e2]; exact ha) (by rw [e1, e2]; exact hb) (by rw [e1, e2]; exact hp) (by rw [hg]; exact hn)
      simp only [Sudoku.removeCandidates, if_true, Finset.mem_sdiff, Finset.mem_singleton]
      exact ⟨h2 d hd, fun h => hne (hg.trans h.symm)⟩
    · simpa [Sudoku.removeCandidates, hdb] using h2 d hd
  set := by
    rintro hset x c a v ⟨⟨e1, e2⟩, h1, h2⟩ ha hn hv
    refine ⟨⟨e1, e2⟩, ?_, h2⟩
    have hga : g a = v := by
      have := h2 a (by rw [e1, e2]; exact ha)
      rw [hv] at this
      simpa using this
    refine ⟨fun d hd hd0 => ?_, h1.full, h1.valid⟩
    by_cases hda : d = a
    · subst hda
      simp [Sudoku.setNumber, hga]
    · have e : (x.setNumber a v).num d = x.num d := by simp [Sudoku.setNumber, hda]
      rw [e] at hd0 ⊢
      exact h1.keeps d hd hd0

/-- Only numbers of filled fields have been removed from the candidates. -/
theorem keeps_exact (set : Settings) (hset : set.autoset = false) (s : Sudoku) : Keeps set s.bw s.bh fun x _ =>
    (x.bw = s.bw ∧ x.bh = s.bh) ∧ x.num = s.num ∧ ∀ b, x.cand b ⊆ s.cand b ∧
      ∀ v ∈ s.cand b, v ∉ x.cand b → ∃ a, InGrid s.bw s.bh a ∧ Peer s.bw s.bh a b ∧ s.num a ≠ 0 ∧ s.num a = v where
  size := fun x c hx => hx.1
  rem := by
    rintro x c a b ⟨e, hn, hc⟩ ha hb hp h0 hv
    refine ⟨e, hn, fun d => ?_⟩
    by_cases hdb : d = b
    · subst hdb
      simp only [Sudoku.removeCandidates, if_true]
      refine ⟨Finset.sdiff_subset.trans (hc d).1, fun v hv1 hv2 => ?_⟩
      by_cases hvx : v ∈ x.cand d
      · refine ⟨a, ha, hp, by rw [← hn]; exact h0, ?_⟩
        by_contra hcon
        refine hv2 (Finset.mem_sdiff.2 ⟨hvx, fun h => hcon ?_⟩)
        rw [← hn]
        exact (Finset.mem_singleton.1 h).symm
      · exact (hc d).2 v hv1 hvx
    · have : (x.removeCandidates b {x.num a}).cand d = x.cand d := by simp [Sudoku.removeCandidates, hdb]
      rw [this]
      exact hc d
  set := by
    intro h
    rw [hset] at h
    cases h

/-! ## Exceptions -/

theorem encode_ok {w h : Nat} (h9 : w * h ≤ 9) {cs : List Cell} (hc : ∀ b ∈ cs, InGrid w h b) :
    ∃ t, Notation.encode (cs.map Notation.toPair) 3 3 none [','] [] = .ok t := by
  have hv : Text.Valid 3 3 (cs.map Notation.toPair) := by
    intro rc hrc
    obtain ⟨b, hb, rfl⟩ := List.mem_map.1 hrc
    obtain ⟨h1, h2⟩ := hc b hb
    show ((0 : Int) ≤ (b.1 : Int) ∧ (b.1 : Int) < _) ∧ (0 : Int) ≤ (b.2 : Int) ∧ (b.2 : Int) < _
    omega
  obtain ⟨_, _, _, _, h⟩ := Notation.encode_forms (by decide) (by decide) hv [','] []
  exact ⟨_, h none⟩

theorem each_none {f : Cell → Fill → Fill × Option PyErr} {P : Fill → Prop} (l : List Cell)
    (h : ∀ a ∈ l, ∀ s, P s → (f a s).2 = none ∧ P (f a s).1) {s : Fill} (hs : P s) : (each f l s).2 = none ∧ P (each f l s).1 := by
  induction l generalizing s with
  | nil => exact ⟨rfl, hs⟩
  | cons a l ih =>
    rw [each]
    obtain ⟨h1, h2⟩ := h a (by simp) s hs
    cases hf : f a s with
    | mk t o =>
      rw [hf] at h1 h2
      cases h1
      exact ih (fun b hb => h b (List.mem_cons_of_mem _ hb)) h2

theorem round_none (set : Settings) (verbose : Bool) (s : Fill) (h9 : verbose = true → s.sudoku.bw * s.sudoku.bh ≤ 9) :
    (round set verbose s).2 = none := by
  have k := keeps_shrinks set s.sudoku
  have hrem : ∀ a ∈ s.sudoku.cells, ∀ t : Fill, Shrinks s.sudoku t.sudoku → (removeStep verbose a t).2 = none ∧ Shrinks s.sudoku (removeStep verbose a t).1.sudoku := by
    intro a ha t ht
    have ha' := (Sudoku.mem_cells s.sudoku).1 ha
    refine ⟨?_, k.removeStep verbose ha' ht⟩
    rcases removeStep_eq verbose a t with ⟨h1, _⟩ | ⟨_, o, e, h1, h2⟩
    · rw [h1]
    · rw [h1]
      cases e with
      | none => rfl
      | some x =>
        obtain ⟨hv, he⟩ := h2 x rfl
        obtain ⟨u, hu⟩ := encode_ok (h9 hv) (cs := (removeFrom (t.sudoku.num a) (t.sudoku.surroundingOf a false) t []).2) (fun b hb => by
          rcases removeFrom_coords _ _ _ _ b hb with h | h
          · cases h
          · rw [Sudoku.mem_surroundingOf_false t.sudoku (by rw [ht.bw, ht.bh]; exact ha'), ht.bw, ht.bh] at h
            exact h.1)
        rw [hu] at he
        cases he
  have hsetS : set.autoset = true → ∀ a ∈ s.sudoku.cells, ∀ t : Fill, Shrinks s.sudoku t.sudoku →
      (setStep verbose a t).2 = none ∧ Shrinks s.sudoku (setStep verbose a t).1.sudoku := by
    intro hset a ha t ht
    have ha' := (Sudoku.mem_cells s.sudoku).1 ha
    refine ⟨?_, (k.setStep hset verbose ha' ht).2.elim fun _ h => h⟩
    rcases setStep_eq verbose a t with ⟨h1, _⟩ | ⟨v, _, _, ⟨o, h2⟩ | ⟨e, hv, he, h2⟩⟩
    · rw [h1]
    · rw [h2]
    · obtain ⟨u, hu⟩ := encode_ok (h9 hv) (cs := [a]) (by simpa using ha')
      rw [show [a].map Notation.toPair = [Notation.toPair a] from rfl, he] at hu
      cases hu
  have h1 : ∀ r, r = (if set.autoremove = true then each (removeStep verbose) s.sudoku.cells { s with changed := false }
      else ({ s with changed := false }, none)) → r.2 = none ∧ Shrinks s.sudoku r.1.sudoku := by
    rintro r rfl
    split
    · exact each_none (P := fun t => Shrinks s.sudoku t.sudoku) _ hrem (Shrinks.refl _)
    · exact ⟨rfl, Shrinks.refl _⟩
  unfold round
  simp only
  generalize hr : (if set.autoremove = true then each (removeStep verbose) s.sudoku.cells { s with changed := false }
    else ({ s with changed := false }, none)) = r
  obtain ⟨h2, h3⟩ := h1 r hr.symm
  obtain ⟨t, o⟩ := r
  cases h2
  simp only
  split
  · rename_i hset
    refine (each_none (P := fun t => Shrinks s.sudoku t.sudoku) _ (fun a ha => hsetS hset a ?_) h3).1
    rw [Sudoku.mem_cells] at ha ⊢
    rw [← h3.bw, ← h3.bh]
    exact ha
  · rfl

/-- A field that is empty and has the only candidate 0 keeps the loop going. -/
theorem loop_forever (set : Settings) (hset : set.autoset = true) (verbose : Bool) (n : Nat) (s : Fill)
    (h9 : verbose = true → s.sudoku.bw * s.sudoku.bh ≤ 9) {a : Cell} (ha : InGrid s.sudoku.bw s.sudoku.bh a) (h0 : s.sudoku.num a = 0)
    (hc : s.sudoku.cand a = {0}) : autofillLoop set verbose n s = none := by
  induction n generalizing s with
  | zero => rfl
  | succ n ih =>
    have k : Keeps set s.sudoku.bw s.sudoku.bh fun x _ => (x.bw = s.sudoku.bw ∧ x.bh = s.sudoku.bh) ∧ x.num a = 0 ∧ x.cand a = {0} := by
      refine ⟨fun x c hx => hx.1, ?_, ?_⟩
      · rintro x c d b ⟨e, h1, h2⟩ _ _ _ hd hv
        refine ⟨e, h1, ?_⟩
        by_cases hab : a = b
        · subst hab
          rw [h2] at hv
          exact absurd (by simpa using hv) hd
        · simpa [Sudoku.removeCandidates, hab] using h2
      · rintro _ x c d v ⟨e, h1, h2⟩ _ hd hv
        refine ⟨e, ?_, h2⟩
        by_cases had : a = d
        · subst had
          rw [h2] at hv
          have : v = 0 := by simpa using hv.symm
          simp [Sudoku.setNumber, this]
        · simpa [Sudoku.setNumber, had] using h1
    have h1 := k.round verbose (s := s) ⟨⟨rfl, rfl⟩, h0, hc⟩
    have h2 := round_none set verbose s h9
    have h3 := round_false set verbose s h2
    rw [autofillLoop]
    cases hx : round set verbose s with
    | mk t o =>
      rw [hx] at h1 h2 h3
      cases h2
      simp only at h3 ⊢
      obtain ⟨⟨e1, e2⟩, h4, h5⟩ := h1.1 rfl
      simp only at e1 e2 h4 h5
      by_cases hch : t.changed = true
      · rw [if_pos hch]
        exact ih t (by rw [e1, e2]; exact h9) (by rw [e1, e2]; exact ha) h4 h5
      · exact absurd ⟨h0, by rw [hc]; rfl⟩ ((h3 (by simpa using hch)).2.2 hset a ((Sudoku.mem_cells _).2 ha))

theorem loop_none (set : Settings) (verbose : Bool) (n : Nat) (s : Fill) (h9 : verbose = true → s.sudoku.bw * s.sudoku.bh ≤ 9)
    {r : Fill × Option PyErr} (hr : autofillLoop set verbose n s = some r) : r.2 = none := by
  induction n generalizing s with
  | zero => cases hr
  | succ n ih =>
    rw [autofillLoop] at hr
    have h1 := (keeps_shrinks set s.sudoku).round verbose (s := s) (Shrinks.refl _)
    have h2 := round_none set verbose s h9
    cases hx : round set verbose s with
    | mk t o =>
      rw [hx] at h1 h2 hr
      cases h2
      simp only at hr
      split at hr
      · have h3 := h1.1 rfl
        exact ih t (by rw [h3.bw, h3.bh]; exact h9) hr
      · cases hr; rfl

theorem loop_mono (set : Settings) (verbose : Bool) (n m : Nat) (hm : n ≤ m) (s : Fill) {r : Fill × Option PyErr}
    (hr : autofillLoop set verbose n s = some r) : autofillLoop set verbose m s = some r := by
  induction n generalizing s m with
  | zero => cases hr
  | succ n ih =>
    cases m with
    | zero => omega
    | succ m =>
      rw [autofillLoop] at hr ⊢
      cases hx : round set verbose s with
      | mk t o =>
        rw [hx] at hr
        cases o with
        | some e => exact hr
        | none =>
          simp only at hr ⊢
          split
          · rename_i hc
            rw [if_pos hc] at hr
            exact ih m (by omega) t hr
          · rename_i hc
            rw [if_neg hc] at hr
            exact hr

end Game
