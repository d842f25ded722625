import Verif.Props.Notation

set_option autoImplicit false

/-! # Lemmas for `actions.py` and `notation.decode_action` -/

open Spec Spec.Text

namespace Py

theorem cut_absent {c : Char} {sep s : List Char} (h : c ∉ s) : cut (c :: sep) s = none := by
  induction s with
  | nil => simp [cut]
  | cons d s ih =>
    rw [cut, if_neg, ih fun hm => h (List.mem_cons_of_mem _ hm)]
    intro hp
    obtain ⟨t, ht⟩ := List.isPrefixOf_iff_prefix.1 hp
    exact h (by rw [← (List.cons.inj ht).1]; exact List.mem_cons_self)

theorem cut_first {c : Char} {sep s : List Char} (h : c ∉ s) (t : List Char) :
    cut (c :: sep) (s ++ (c :: sep) ++ t) = some (s, t) := by
  induction s with
  | nil =>
    rw [List.nil_append, List.cons_append, cut, if_pos (List.isPrefixOf_iff_prefix.2 ⟨t, by simp⟩)]
    simp
  | cons d s ih =>
    rw [List.cons_append, List.cons_append, cut, if_neg, ih fun hm => h (List.mem_cons_of_mem _ hm)]
    intro hp
    obtain ⟨t, ht⟩ := List.isPrefixOf_iff_prefix.1 hp
    exact h (by rw [← (List.cons.inj ht).1]; exact List.mem_cons_self)

end Py

namespace Actions

/-- The Python index `i` means the position `k` in a list of length `n`. -/
def Means (n : Nat) (i : Int) (k : Nat) : Prop := k < n ∧ (i = k ∨ i = (k : Int) - n)

theorem pyIdx_iff (n : Nat) (i : Int) (k : Nat) : Store.pyIdx n i = some k ↔ Means n i k := by
  unfold Store.pyIdx Means
  split
  · simp only [Option.some.injEq]; omega
  · split
    · simp only [Option.some.injEq]; omega
    · constructor
      · intro h; cases h
      · omega

theorem locate_ok (s : Sudoku) (rc : Int × Int) (a : Cell) : locate s rc = .ok a ↔ Means s.n rc.1 a.1 ∧ Means s.n rc.2 a.2 := by
  unfold locate
  rw [← pyIdx_iff, ← pyIdx_iff]
  cases h1 : Store.pyIdx s.n rc.1 with
  | none => simp
  | some i =>
    cases h2 : Store.pyIdx s.n rc.2 with
    | none => simp
    | some j =>
      simp only [Except.ok.injEq, Option.some.injEq]
      constructor
      · rintro rfl; exact ⟨rfl, rfl⟩
      · rintro ⟨rfl, rfl⟩; rfl

theorem locate_error (s : Sudoku) (rc : Int × Int) (e : PyErr) (h : locate s rc = .error e) : e = .IndexError := by
  unfold locate at h
  split at h
  · cases h
  · cases h; rfl

theorem locate_congr {s t : Sudoku} (h : s.n = t.n) (rc : Int × Int) : locate s rc = locate t rc := by unfold locate; rw [h]

/-- The field is named by one of the coordinates. -/
def Hit (n : Nat) (cs : List (Int × Int)) (a : Cell) : Prop := ∃ rc ∈ cs, Means n rc.1 a.1 ∧ Means n rc.2 a.2

theorem setLoop_ok (v : Int) (cs : List (Int × Int)) (s : Sudoku) (h : ∀ rc ∈ cs, ∃ a, locate s rc = .ok a) :
    (setLoop v cs s).2 = .ok () ∧ (setLoop v cs s).1.bw = s.bw ∧ (setLoop v cs s).1.bh = s.bh ∧
    (∀ a, Hit s.n cs a → (setLoop v cs s).1.num a = v ∧ (setLoop v cs s).1.cand a = {v}) ∧
    (∀ a, ¬ Hit s.n cs a → (setLoop v cs s).1.num a = s.num a ∧ (setLoop v cs s).1.cand a = s.cand a) := by
  induction cs generalizing s with
  | nil => exact ⟨rfl, rfl, rfl, fun a ⟨rc, hrc, _⟩ => by simp at hrc, fun a _ => ⟨rfl, rfl⟩⟩
  | cons rc cs ih =>
    obtain ⟨b, hb⟩ := h rc (by simp)
    have hb' := (locate_ok s rc b).1 hb
    have ih' := ih ((s.setNumber b v).setCandidates b {v}) fun rc' hrc' => h rc' (List.mem_cons_of_mem _ hrc')
    rw [setLoop, hb]
    simp only
    obtain ⟨h1, h2, h3, h4, h5⟩ := ih'
    refine ⟨h1, h2, h3, fun a ha => ?_, fun a ha => ?_⟩
    · by_cases hc : Hit s.n cs a
      · exact h4 a hc
      · have hab : a = b := by
          obtain ⟨rc', hrc', hm⟩ := ha
          rcases List.mem_cons.1 hrc' with rfl | hrc'
          · have := (locate_ok s rc' a).2 hm
            rw [hb] at this
            exact (Except.ok.inj this).symm
          · exact absurd ⟨rc', hrc', hm⟩ hc
        have := h5 a hc
        rw [this.1, this.2, hab]
        simp [Sudoku.setCandidates, Sudoku.setNumber]
    · have hc : ¬ Hit s.n cs a := fun ⟨rc', hrc', hm⟩ => ha ⟨rc', List.mem_cons_of_mem _ hrc', hm⟩
      have hab : a ≠ b := by
        rintro rfl
        exact ha ⟨rc, by simp, hb'⟩
      have := h5 a hc
      rw [this.1, this.2]
      simp [Sudoku.setCandidates, Sudoku.setNumber, hab]

theorem removeLoop_ok (vs : Finset Int) (cs : List (Int × Int)) (s : Sudoku) (h : ∀ rc ∈ cs, ∃ a, locate s rc = .ok a) :
    (removeLoop vs cs s).2 = .ok () ∧ (removeLoop vs cs s).1.bw = s.bw ∧ (removeLoop vs cs s).1.bh = s.bh ∧
    (removeLoop vs cs s).1.num = s.num ∧
    (∀ a, Hit s.n cs a → (removeLoop vs cs s).1.cand a = s.cand a \ vs) ∧
    (∀ a, ¬ Hit s.n cs a → (removeLoop vs cs s).1.cand a = s.cand a) := by
  induction cs generalizing s with
  | nil => exact ⟨rfl, rfl, rfl, rfl, fun a ⟨rc, hrc, _⟩ => by simp at hrc, fun a _ => rfl⟩
  | cons rc cs ih =>
    obtain ⟨b, hb⟩ := h rc (by simp)
    have hb' := (locate_ok s rc b).1 hb
    have ih' := ih (s.removeCandidates b vs) fun rc' hrc' => h rc' (List.mem_cons_of_mem _ hrc')
    rw [removeLoop, hb]
    simp only
    obtain ⟨h1, h2, h3, h6, h4, h5⟩ := ih'
    refine ⟨h1, h2, h3, h6, fun a ha => ?_, fun a ha => ?_⟩
    · by_cases hc : Hit s.n cs a
      · have := h4 a hc
        rw [this]
        by_cases hab : a = b
        · simp [Sudoku.removeCandidates, hab]
        · simp [Sudoku.removeCandidates, hab]
      · have hab : a = b := by
          obtain ⟨rc', hrc', hm⟩ := ha
          rcases List.mem_cons.1 hrc' with rfl | hrc'
          · have := (locate_ok s rc' a).2 hm
            rw [hb] at this
            exact (Except.ok.inj this).symm
          · exact absurd ⟨rc', hrc', hm⟩ hc
        rw [h5 a hc, hab]
        simp [Sudoku.removeCandidates]
    · have hc : ¬ Hit s.n cs a := fun ⟨rc', hrc', hm⟩ => ha ⟨rc', List.mem_cons_of_mem _ hrc', hm⟩
      have hab : a ≠ b := by
        rintro rfl
        exact ha ⟨rc, by simp, hb'⟩
      rw [h5 a hc]
      simp [Sudoku.removeCandidates, hab]

theorem setLoop_append (v : Int) (cs ds : List (Int × Int)) (s : Sudoku) (h : ∀ rc ∈ cs, ∃ a, locate s rc = .ok a) :
    setLoop v (cs ++ ds) s = setLoop v ds (setLoop v cs s).1 := by
  induction cs generalizing s with
  | nil => rfl
  | cons rc cs ih =>
    obtain ⟨b, hb⟩ := h rc (by simp)
    rw [List.cons_append, setLoop, setLoop, hb]
    exact ih _ fun rc' hrc' => h rc' (List.mem_cons_of_mem _ hrc')

theorem removeLoop_append (vs : Finset Int) (cs ds : List (Int × Int)) (s : Sudoku) (h : ∀ rc ∈ cs, ∃ a, locate s rc = .ok a) :
    removeLoop vs (cs ++ ds) s = removeLoop vs ds (removeLoop vs cs s).1 := by
  induction cs generalizing s with
  | nil => rfl
  | cons rc cs ih =>
    obtain ⟨b, hb⟩ := h rc (by simp)
    rw [List.cons_append, removeLoop, removeLoop, hb]
    exact ih _ fun rc' hrc' => h rc' (List.mem_cons_of_mem _ hrc')

end Actions

namespace Notation

theorem ints_digits (ds : List Nat) (h : ∀ d ∈ ds, d < 10) :
    Py.ints ((ds.map Py.digitChar).map fun c => [c]) = .ok (ds.map fun d : Nat => (d : Int)) := by
  rw [List.map_map]
  have : ds.map ((fun c => [c]) ∘ Py.digitChar) = ds.map Py.natStr :=
    List.map_congr_left fun d hd => (Py.natStr_small (h d hd)).symm
  rw [this, ints_natStr]

theorem ints_bad {l : List (List Char)} {x : List Char} (hx : x ∈ l) {e : PyErr} (he : Py.int x = .error e) :
    ∃ e', Py.ints l = .error e' := by
  induction l with
  | nil => simp at hx
  | cons y l ih =>
    rw [Py.ints]
    split
    · exact ⟨_, rfl⟩
    · rename_i h1
      rcases List.mem_cons.1 hx with rfl | hx
      · rw [he] at h1; cases h1
      · obtain ⟨e', h2⟩ := ih hx
        rw [h2]
        exact ⟨_, rfl⟩

/-- What the text of coordinates looks like. -/
theorem encode_chars {w h : Nat} (hw : 0 < w) (hh : 0 < h) {cs : List (Int × Int)} (hv : Valid w h cs) (h0 : cs ≠ []) {ub : Option Bool}
    {s : List Char} (he : encode cs w h ub [','] [] = .ok s) :
    (∃ l : Letter, s.head? = some l.char) ∧ (∀ ch ∈ s, Special ch ∨ ch = ',') ∧ s ≠ [] := by
  obtain ⟨rs, bs, h1, h2, h3⟩ := encode_forms hw hh hv [','] []
  obtain ⟨a, ha⟩ := Props.among_of_valid hv h0
  have key : ∀ {k v : Letter} {ds : List Block} (_ : Canonical w h k v (Among cs) ds),
      (∃ l : Letter, (text [','] (between w h []) (ds.map (Block.group k v))).head? = some l.char) ∧
      (∀ ch ∈ text [','] (between w h []) (ds.map (Block.group k v)), Special ch ∨ ch = ',') := by
    intro k v ds c
    constructor
    · cases ds with
      | nil => exact absurd rfl (canonical_ne_nil c ha)
      | cons B ds =>
        refine ⟨k, ?_⟩
        unfold text
        rw [List.map_cons, List.map_cons, Py.head_join]
        · rw [Block.group, groupText_cons]; rfl
        · rw [Block.group, groupText_cons]; simp
    · intro ch hch
      rcases text_mem hch with h | h | h
      · exact .inl h
      · exact .inr (by simpa using h)
      · unfold between at h
        split at h
        · simp at h
        · split at h
          · simp at h
          · exact .inr (by simpa using h)
  have he' := h3 ub
  rw [he] at he'
  have hs := Except.ok.inj he'
  have : (∃ l : Letter, s.head? = some l.char) ∧ (∀ ch ∈ s, Special ch ∨ ch = ',') := by
    rw [hs]
    cases ub with
    | none => simp only; split <;> [exact key h2; exact key h1]
    | some b => cases b <;> [exact key h1; exact key h2]
  refine ⟨this.1, this.2, ?_⟩
  rintro rfl
  obtain ⟨l, h⟩ := this.1
  simp at h

end Notation
