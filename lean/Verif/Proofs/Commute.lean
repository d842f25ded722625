import Verif.Proofs.Apply
import Verif.Proofs.Watch

set_option autoImplicit false

/-! # True steps only filter candidates and copy numbers of the solution, so their order does not matter -/

open Spec

namespace Solvers

/-- The sudoku with the numbers of `g` in the fields `S`, and only the candidates `K`. -/
def narrow (g : Grid) (S : Cell → Prop) (K : Cell → Int → Prop) [DecidablePred S] [∀ a, DecidablePred (K a)] (s : Sudoku) : Sudoku :=
  { s with num := fun a => if S a then g a else s.num a, cand := fun a => (s.cand a).filter (K a) }

/-- What a true step does, whatever the sudoku looks like. -/
theorem apply_narrow {w h : Nat} {g : Grid} {st : Step} (hs : Shape w h st) (ht : TrueOf g st) (hk : st.kind ≠ .calculateCandidates) :
    ∃ (S : Cell → Bool) (K : Cell → Int → Bool), ∀ s : Sudoku, s.bw = w → s.bh = h → Contains s g →
      Step.apply s st = narrow g (fun a => S a = true) (fun a v => K a v = true) s := by
  classical
  obtain ⟨hin, hs⟩ := hs
  have hfill : ∀ a v, st.kind.Fills → st.affected = [a] → st.values = [v] →
      ∃ (S : Cell → Bool) (K : Cell → Int → Bool), ∀ s : Sudoku, s.bw = w → s.bh = h → Contains s g →
        Step.apply s st = narrow g (fun a => S a = true) (fun a v => K a v = true) s := by
    intro a v hk h1 h2
    have ha := hin a (by rw [h1]; simp)
    have hv : g a = v := by
      unfold TrueOf at ht
      rcases hk with hk | hk | hk <;> rw [hk] at ht <;> exact ht a (by rw [h1]; simp) v (by rw [h2]; simp)
    refine ⟨fun b => decide (b = a), fun b u => decide (if b = a then u = v else InGrid w h b ∧ Peer w h a b → u ≠ v), ?_⟩
    rintro s rfl rfl hg
    rw [apply_single s hk ha h1 h2]
    unfold narrow
    congr 1
    · funext b
      by_cases hb : b = a
      · subst hb; simp [hv]
      · simp [hb]
    · funext b
      ext u
      by_cases hb : b = a
      · subst hb
        have := hg.2 b ha
        rw [hv] at this
        simp only [if_true, Finset.mem_singleton, Finset.mem_filter, decide_eq_true_eq]
        exact ⟨fun e => ⟨e ▸ this, e⟩, fun e => e.2⟩
      · simp only [hb, if_false, Finset.mem_filter, decide_eq_true_eq, Sudoku.mem_surroundingOf_false s ha]
        split
        · rename_i hp
          simp [hp]
        · rename_i hp
          simp [hp]
  rcases hkd : st.kind with _ | _ | _ | _ | n | n | n | n <;> rw [hkd] at hs <;> simp only at hs
  · exact absurd hkd hk
  · obtain ⟨a, v, h1, h2⟩ := hs; exact hfill a v (Or.inl hkd) h1 h2
  · obtain ⟨a, v, h1, h2⟩ := hs; exact hfill a v (Or.inr (Or.inl hkd)) h1 h2
  · obtain ⟨a, v, h1, h2⟩ := hs; exact hfill a v (Or.inr (Or.inr hkd)) h1 h2
  · refine ⟨fun _ => false, fun b u => decide (b ∈ st.affected → u ∉ st.values), fun s _ _ _ => ?_⟩
    rw [apply_naked s hkd]
    unfold narrow
    simp only [Bool.false_eq_true, if_false]
    congr 1
    funext b
    ext u
    split <;> simp [*]
  · refine ⟨fun _ => false, fun b u => decide (b ∈ st.affected → u ∈ st.values), fun s _ _ _ => ?_⟩
    rw [apply_hidden s hkd]
    unfold narrow
    simp only [Bool.false_eq_true, if_false]
    congr 1
    funext b
    ext u
    split <;> simp [*]
  all_goals
    obtain ⟨v, hv⟩ := hs
    refine ⟨fun _ => false, fun b u => decide (b ∈ st.affected → u ≠ v), fun s _ _ _ => ?_⟩
    first
    | rw [apply_line s (Or.inl hkd) hv]
    | rw [apply_line s (Or.inr hkd) hv]
    unfold narrow
    simp only [Bool.false_eq_true, if_false]
    congr 1
    funext b
    ext u
    split <;> simp [*]

/-- Steps that are true of `g`, applied one after the other, change what the list of them says as a set. -/
theorem foldl_narrow {w h : Nat} {g : Grid} (S : Step → Cell → Bool) (K : Step → Cell → Int → Bool) (l : List Step)
    (hl : ∀ st ∈ l, Shape w h st ∧ TrueOf g st)
    (ha : ∀ st ∈ l, ∀ s : Sudoku, s.bw = w → s.bh = h → Contains s g → Step.apply s st = narrow g (fun a => S st a = true) (fun a v => K st a v = true) s) :
    ∀ s : Sudoku, s.bw = w → s.bh = h → Contains s g →
      l.foldl Step.apply s = narrow g (fun a => ∃ st ∈ l, S st a = true) (fun a v => ∀ st ∈ l, K st a v = true) s := by
  induction l with
  | nil =>
    intro s _ _ _
    simp [narrow]
  | cons st l ih =>
    intro s h1 h2 hg
    have hst := hl st (by simp)
    have hdim := apply_dims s st
    have hc : Contains (Step.apply s st) g := contains_apply (by rw [h1, h2]; exact hst.1) hst.2 hg
    rw [List.foldl_cons, ih (fun x hx => hl x (by simp [hx])) (fun x hx => ha x (by simp [hx])) _ (hdim.1.trans h1) (hdim.2.trans h2) hc,
      ha st (by simp) s h1 h2 hg]
    unfold narrow
    simp only [List.exists_mem_cons_iff, List.forall_mem_cons]
    congr 1
    · funext a
      by_cases e1 : S st a = true <;> by_cases e2 : ∃ x ∈ l, S x a = true <;> simp [e1, e2]
    · funext a
      rw [Finset.filter_filter]

/-- The order and the repetitions do not matter. -/
theorem steps_same {s : Sudoku} {g : Grid} (hg : Contains s g) {l l' : List Step}
    (hl : ∀ st ∈ l, Shape s.bw s.bh st ∧ TrueOf g st ∧ st.kind ≠ .calculateCandidates) (hm : ∀ st, st ∈ l ↔ st ∈ l') :
    l.foldl Step.apply s = l'.foldl Step.apply s := by
  classical
  choose S K hSK using fun (st : Step) (h : st ∈ l) => apply_narrow (hl st h).1 (hl st h).2.1 (hl st h).2.2
  let S' : Step → Cell → Bool := fun st => if h : st ∈ l then S st h else fun _ => false
  let K' : Step → Cell → Int → Bool := fun st => if h : st ∈ l then K st h else fun _ _ => false
  have ha : ∀ st ∈ l, ∀ t : Sudoku, t.bw = s.bw → t.bh = s.bh → Contains t g →
      Step.apply t st = narrow g (fun a => S' st a = true) (fun a v => K' st a v = true) t := by
    intro st h t h1 h2 h3
    simp only [S', K', dif_pos h]
    exact hSK st h t h1 h2 h3
  rw [foldl_narrow S' K' l (fun st h => ⟨(hl st h).1, (hl st h).2.1⟩) ha s rfl rfl hg,
    foldl_narrow S' K' l' (fun st h => ⟨(hl st ((hm st).2 h)).1, (hl st ((hm st).2 h)).2.1⟩) (fun st h => ha st ((hm st).2 h)) s rfl rfl hg]
  unfold narrow
  simp only [hm]

end Solvers
