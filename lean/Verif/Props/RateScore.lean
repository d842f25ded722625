import Verif.Proofs.RateScore
import Verif.Props.Rate

set_option autoImplicit false

/-! # How `rate` and `score` are related (C114) -/

open Spec Solvers

namespace Props

/-- **C114** `rate(s) = r` and `score(s) = q` for a sudoku with `E` empty fields that has a solution: `E + r <= q + 1`; the score is the number
of empty fields exactly if nothing but single candidates is needed; if tuples or fishes are needed, but no trying, `E + r <= q`; and
`q <= r * E * (N + 1)`. The two calls may visit sets and dictionaries in different orders. -/
theorem C114_rate_score (π π' : Orders Run) (hπ : π.Ok) (hπ' : π'.Ok) (s : Sudoku) (hs : Solvable s.bw s.bh s.get)
    (fuel fuel' rounds rounds' : Nat) (hf : s.empty.length < fuel) (hf' : s.empty.length < fuel') (r q : Nat)
    (hr : rate π fuel rounds s = .ok (some r)) (hq : score π' fuel' rounds' s = .ok (some q)) :
    s.empty.length + r ≤ q + 1 ∧ (q = s.empty.length ↔ r ≤ 1) ∧ (2 ≤ r → r ≤ 7 → s.empty.length + r ≤ q) ∧
      q ≤ r * (s.empty.length * (s.bw * s.bh + 1)) := by
  have hm : ∀ {R : Nat}, s.empty.length * (s.bw * s.bh + 1) < R → ∃ w, solve π' fuel' R s = .ok (some w) ∧ (∀ st ∈ w.2, st.kind ∈ solvers) ∧
      (w.2.filter fun st => decide st.kind.Fills).length = s.empty.length ∧ w.2.length ≤ s.empty.length * (s.bw * s.bh + 1) := by
    intro R hR
    obtain ⟨w, h1, -, -, -, -, h2, h3, h4⟩ := solve_spec hπ' s hs fuel' R hf' hR
    exact ⟨w, h1, h2, h3, h4⟩
  obtain ⟨w, h1, h2, h3, h4⟩ := hm (R := rounds' + (s.empty.length * (s.bw * s.bh + 1) + 1)) (by omega)
  have hw : solve π' fuel' rounds' s = .ok (some w) := by
    cases e : solve π' fuel' rounds' s with
    | error x => unfold score at hq; rw [e] at hq; simp at hq
    | ok o =>
      cases o with
      | none => unfold score at hq; rw [e] at hq; simp at hq
      | some w' =>
        have h5 := loop_mono e (rounds' + (s.empty.length * (s.bw * s.bh + 1) + 1)) (by omega)
        unfold solve at h1
        rw [h5] at h1
        exact h1
  have hrat := ratings_ok w.2 h2
  have hr' : rate π' fuel' rounds' s = .ok (some (if w.2.map points = [] then 0 else maxList (w.2.map points))) := by
    unfold rate; rw [hw]; simp only; rw [hrat]
  have hq' : score π' fuel' rounds' s = .ok (some (w.2.map points).sum) := by
    unfold score; rw [hw]; simp only; rw [hrat]
  obtain ⟨k1, k2, k3, k4⟩ := max_sum w.2 h2
  rw [hq'] at hq
  have hq := Option.some.inj (Except.ok.inj hq)
  have e := C88_orders π π' hπ hπ' s hs fuel fuel' rounds rounds' hf hf' r _ hr hr'
  rw [← e, hq, h3] at k1
  rw [← e, hq, h3] at k2
  rw [← e, hq, h3] at k3
  rw [← e, hq] at k4
  exact ⟨k1, k2, k3, k4.trans (Nat.mul_le_mul_left r h4)⟩

/-! ## Samples -/

/-- Only singles are needed: rate 1, and the score is the number of empty fields. -/
def singlesOnly : Sudoku := (Sudoku.new 2 1).setNumber (0, 1) 1
example : Solvable singlesOnly.bw singlesOnly.bh singlesOnly.get := ⟨((singlesOnly.setNumber (0, 0) 2).setNumber (1, 0) 1 |>.setNumber (1, 1) 2).get, by decide +kernel⟩
example : (rate (plainWatch Run) 5 30 singlesOnly).toOption = some (some 1) ∧ (score (plainWatch Run) 5 30 singlesOnly).toOption = some (some 3) ∧
    singlesOnly.empty.length = 3 := by decide +kernel

/-- Trying is needed: rate 10; two fields are tried, so the first bound is strict. -/
example : (rate (plainWatch Run) 9 30 (Sudoku.new 2 1)).toOption = some (some 10) ∧ (score (plainWatch Run) 9 30 (Sudoku.new 2 1)).toOption = some (some 40) := by
  decide +kernel

end Props
