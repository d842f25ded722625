import Verif.Proofs.Watch
import Verif.Proofs.SolveRun

set_option autoImplicit false

/-! # Sums and maxima of ratings -/

namespace Solvers

/-- The rating of a step of one of the classes in `SOLVERS`. -/
abbrev points (st : Step) : Nat := (rating st.kind).getD 0

theorem points_kind : ∀ k ∈ solvers, (k.Fills → (rating k).getD 0 = 1 ∨ (rating k).getD 0 = 10) ∧
    (¬ k.Fills → (rating k).getD 0 = 0 ∨ 2 ≤ (rating k).getD 0 ∧ (rating k).getD 0 ≤ 7) := by decide

/-- All fills get at least one point, and one of the steps gets its points. -/
theorem sum_ge_mem (l : List Step) (hl : ∀ st ∈ l, st.kind ∈ solvers) (st : Step) (hst : st ∈ l) :
    (l.filter fun st => decide st.kind.Fills).length + points st ≤ (l.map points).sum + if st.kind.Fills then 1 else 0 := by
  induction l with
  | nil => simp at hst
  | cons x l ih =>
    have hx := points_kind x.kind (hl x (by simp))
    have hrest := sum_ge l fun y hy => hl y (by simp [hy])
    have hrest : (l.filter fun st => decide st.kind.Fills).length ≤ (l.map points).sum := hrest
    rw [List.map_cons, List.sum_cons, List.filter_cons]
    rcases List.mem_cons.1 hst with rfl | hm
    · by_cases hf : st.kind.Fills
      · simp only [hf, decide_true, if_true, List.length_cons]; omega
      · simp only [hf, decide_false, Bool.false_eq_true, if_false]; omega
    · have h := ih (fun y hy => hl y (by simp [hy])) hm
      by_cases hf : x.kind.Fills
      · have h1 := hx.1 hf
        simp only [hf, decide_true, if_true, List.length_cons]
        change points x = 1 ∨ points x = 10 at h1
        omega
      · simp only [hf, decide_false, Bool.false_eq_true, if_false]; omega

/-- If nothing gets more than one point, the points are the fills. -/
theorem sum_eq (l : List Step) (hl : ∀ st ∈ l, st.kind ∈ solvers) (h1 : ∀ st ∈ l, points st ≤ 1) :
    (l.map points).sum = (l.filter fun st => decide st.kind.Fills).length := by
  induction l with
  | nil => rfl
  | cons x l ih =>
    have hx := points_kind x.kind (hl x (by simp))
    have hp : points x ≤ 1 := h1 x (by simp)
    have h := ih (fun y hy => hl y (by simp [hy])) (fun y hy => h1 y (by simp [hy]))
    rw [List.map_cons, List.sum_cons, List.filter_cons, h]
    by_cases hf : x.kind.Fills
    · have h1 := hx.1 hf
      change points x = 1 ∨ points x = 10 at h1
      simp only [hf, decide_true, if_true, List.length_cons]; omega
    · have h1 := hx.2 hf
      change points x = 0 ∨ 2 ≤ points x ∧ points x ≤ 7 at h1
      simp only [hf, decide_false, Bool.false_eq_true, if_false]; omega

theorem sum_le_max (l : List Step) (m : Nat) (hm : ∀ st ∈ l, points st ≤ m) : (l.map points).sum ≤ m * l.length := by
  induction l with
  | nil => simp
  | cons x l ih =>
    have h := ih fun y hy => hm y (by simp [hy])
    have := hm x (by simp)
    rw [List.map_cons, List.sum_cons, List.length_cons, Nat.mul_succ]
    omega

/-- What is returned by `rate` and `score` for one run of `solve`. -/
theorem max_sum (l : List Step) (hl : ∀ st ∈ l, st.kind ∈ solvers) :
    let m := if l.map points = [] then 0 else maxList (l.map points)
    let n := (l.filter fun st => decide st.kind.Fills).length
    let q := (l.map points).sum
    n + m ≤ q + 1 ∧ (q = n ↔ m ≤ 1) ∧ (2 ≤ m → m ≤ 7 → n + m ≤ q) ∧ q ≤ m * l.length := by
  intro m n q
  by_cases hn : l = []
  · subst hn
    simp [m, n, q]
  have hne : l.map points ≠ [] := by simpa using hn
  have hm : m = maxList (l.map points) := if_neg hne
  obtain ⟨st, hst, he⟩ := List.mem_map.1 (maxList_mem hne)
  have hle : ∀ x ∈ l, points x ≤ m := fun x hx => hm ▸ le_maxList (List.mem_map.2 ⟨x, hx, rfl⟩)
  have hge := sum_ge_mem l hl st hst
  have hk := points_kind st.kind (hl st hst)
  rw [he, ← hm] at hge
  have hk1 : st.kind.Fills → m = 1 ∨ m = 10 := fun hf => by
    have := hk.1 hf
    rw [hm, ← he]; exact this
  have key : n + m ≤ q + 1 := by
    refine hge.trans ?_
    split <;> simp [q]
  have key2 : 2 ≤ m → m ≤ 7 → n + m ≤ q := by
    intro h2 h7
    by_cases hf : st.kind.Fills
    · have := hk1 hf; omega
    · rw [if_neg hf] at hge; exact hge
  refine ⟨key, ⟨fun hq => ?_, fun h1 => sum_eq l hl fun x hx => (hle x hx).trans h1⟩, key2, sum_le_max l m hle⟩
  by_contra hlt
  omega

end Solvers
