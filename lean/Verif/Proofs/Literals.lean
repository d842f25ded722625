import Verif.Proofs.ShellLib

set_option autoImplicit false

/-!
# Which texts are read as literals
-/

open Spec

namespace Shell

theorem join_splitGo (d : Char) (t acc : List Char) : Py.join [d] (Py.splitGo [d] t 0 acc) = acc.reverse ++ t := by
  induction t generalizing acc with
  | nil => simp [Py.splitGo, Py.join]
  | cons c t ih =>
    rw [Py.splitGo]
    split
    · rename_i h
      have hc : d = c := by simpa using h
      subst hc
      have hne : ∃ y l, Py.splitGo [d] t 0 [] = y :: l := by
        cases h' : Py.splitGo [d] t 0 [] with
        | nil =>
          have : ∀ (t acc : List Char), Py.splitGo [d] t 0 acc ≠ [] := by
            intro t
            induction t with
            | nil => intro acc; simp [Py.splitGo]
            | cons c t ih =>
              intro acc
              rw [Py.splitGo]
              split
              · simp
              · exact ih _
          exact absurd h' (this t [])
        | cons y l => exact ⟨y, l, rfl⟩
      obtain ⟨y, l, hy⟩ := hne
      have := ih []
      show Py.join [d] (acc.reverse :: Py.splitGo [d] t 0 []) = _
      rw [hy] at this ⊢
      rw [Py.join, this]
      simp
    · rw [ih]
      simp

theorem litInt_eq {t : List Char} {k : Int} (h : litInt t = some k) : t = Py.intStr k := by
  unfold litInt at h
  split at h
  · split at h
    · rename_i h'
      cases h
      exact h'.symm
    · cases h
  · cases h

theorem litAll_eq {l : List (List Char)} {ks : List Int} (h : litAll l = some ks) : l = ks.map Py.intStr := by
  induction l generalizing ks with
  | nil => cases h; rfl
  | cons t l ih =>
    rw [litAll] at h
    split at h
    · rename_i k ks' h1 h2
      cases h
      rw [List.map_cons, ← litInt_eq h1, ← ih h2]
    · cases h

theorem litInts_eq {t : List Char} {ks : List Int} (h : litInts t = some ks) : t = commaText ks := by
  unfold litInts at h
  split at h
  · rename_i h'
    cases h
    rw [h']
    rfl
  · have := join_splitGo ',' t []
    rw [litAll_eq h] at this
    exact this.symm

theorem inside_eq {a b : Char} {t s : List Char} (h : inside a b t = some s) : t = a :: (s ++ [b]) := by
  cases t with
  | nil => cases h
  | cons c r =>
    have h' : (if c = a ∧ r.getLast? = some b then some r.dropLast else none) = some s := h
    split at h'
    · rename_i hc
      cases h'
      rw [hc.1, List.dropLast_append_getLast? b hc.2]
    · cases h'

theorem litStr_eq {q : Char} {t s : List Char} (h : litStr q t = some s) : Quotable q s ∧ t = q :: (s ++ [q]) := by
  unfold litStr at h
  split at h
  · rename_i s' hs
    split at h
    · rename_i ha
      cases h
      refine ⟨fun c hc => ?_, inside_eq hs⟩
      have := List.all_eq_true.1 ha c hc
      simp only [Bool.and_eq_true, bne_iff_ne] at this
      exact ⟨this.1.1.1.1, this.1.1.1.2, this.1.1.2, this.1.2, this.2⟩
    · cases h
  · cases h

theorem litColl_eq {a b : Char} {kind : Kind} {n : Nat} {t : List Char} {v : Val} (h : litColl a b kind n t = some v) :
    ∃ ks, n ≤ ks.length ∧ v = .ints kind ks ∧ t = a :: (commaText ks ++ [b]) := by
  unfold litColl at h
  split at h
  · cases h
  · rename_i s hs
    split at h
    · cases h
    · rename_i l hl
      split at h
      · rename_i hn
        cases h
        exact ⟨l, hn, rfl, by rw [inside_eq hs, litInts_eq hl]⟩
      · cases h

end Shell
