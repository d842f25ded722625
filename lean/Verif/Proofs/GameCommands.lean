import Verif.Proofs.GameRun
import Verif.Props.Solve
import Verif.Proofs.Complete

set_option autoImplicit false

/-! # Lemmas about the commands of the game shell -/

open Spec

namespace Game

/-- A field by itself can be named, and the name means this field. -/
theorem fieldText_ok (x : Sudoku) (hw : 0 < x.bw) (hh : 0 < x.bh) (a : Cell) (ha : InGrid x.bw x.bh a) :
    ∃ t, fieldText x a = .ok t ∧ Notation.decode t x.bw x.bh [','] [] = .ok [a] := by
  have hv : Text.Valid x.bw x.bh [Notation.toPair a] := by
    intro rc hrc
    rw [List.mem_singleton] at hrc
    subst hrc
    obtain ⟨h1, h2⟩ := ha
    show ((0 : Int) ≤ (a.1 : Int) ∧ (a.1 : Int) < _) ∧ (0 : Int) ≤ (a.2 : Int) ∧ (a.2 : Int) < _
    omega
  obtain ⟨s, l, h1, h2, h3, h4⟩ := Props.C41_default x.bw x.bh hw hh _ hv (by simp)
  refine ⟨s, h1, ?_⟩
  rw [h2]
  have hmem : ∀ b, b ∈ l ↔ b = a := fun b => by
    rw [h4]
    simp only [Text.Among, List.mem_singleton, Notation.toPair, Prod.mk.injEq, Int.natCast_inj]
    exact Prod.ext_iff.symm
  have hnd : l.Nodup := h3.imp fun {b c} h e => by
    subst e
    rcases h with h | ⟨_, h⟩ <;> exact Nat.lt_irrefl _ h
  rw [List.perm_singleton.1 ((List.perm_ext_iff_of_nodup hnd (List.nodup_singleton a)).2 fun b => by rw [hmem, List.mem_singleton])]

theorem texts_ok {α : Type} (f : α → Except PyErr (List Char)) (g : α → List Char) (l : List α) (h : ∀ x ∈ l, f x = .ok (g x)) :
    texts f l = .ok (l.map g) := by
  induction l with
  | nil => rfl
  | cons x l ih =>
    rw [texts, h x (by simp), ih fun y hy => h y (List.mem_cons_of_mem _ hy)]
    rfl

/-- `{a, b}, v` is the same. -/
def Alike (q p : Cell × Cell × Int) : Prop := q.2.2 = p.2.2 ∧ ((q.1 = p.1 ∧ q.2.1 = p.2.1) ∨ (q.1 = p.2.1 ∧ q.2.1 = p.1))

instance (q p : Cell × Cell × Int) : Decidable (Alike q p) := inferInstanceAs (Decidable (_ ∧ _))

theorem alike_refl (p : Cell × Cell × Int) : Alike p p := ⟨rfl, .inl ⟨rfl, rfl⟩⟩

def listStep (listed : List (Cell × Cell × Int)) (p : Cell × Cell × Int) : List (Cell × Cell × Int) :=
  if listed.any fun q => q.2.2 = p.2.2 ∧ ((q.1 = p.1 ∧ q.2.1 = p.2.1) ∨ (q.1 = p.2.1 ∧ q.2.1 = p.1)) then listed else listed ++ [p]

theorem listStep_spec (L acc : List (Cell × Cell × Int)) (h0 : acc.Pairwise fun p q => ¬ Alike p q) :
    (∀ p ∈ L.foldl listStep acc, p ∈ acc ∨ p ∈ L) ∧ (∀ p, p ∈ acc ∨ p ∈ L → ∃ q ∈ L.foldl listStep acc, Alike q p) ∧
    (L.foldl listStep acc).Pairwise fun p q => ¬ Alike p q := by
  induction L generalizing acc with
  | nil => exact ⟨fun p hp => .inl hp, fun p hp => ⟨p, by simpa using hp, alike_refl p⟩, h0⟩
  | cons x L ih =>
    rw [List.foldl_cons]
    by_cases hx : (acc.any fun q => q.2.2 = x.2.2 ∧ ((q.1 = x.1 ∧ q.2.1 = x.2.1) ∨ (q.1 = x.2.1 ∧ q.2.1 = x.1))) = true
    · have e : listStep acc x = acc := if_pos hx
      rw [e]
      obtain ⟨h1, h2, h3⟩ := ih acc h0
      refine ⟨fun p hp => (h1 p hp).imp_right (List.mem_cons_of_mem _), fun p hp => ?_, h3⟩
      rcases hp with hp | hp
      · exact h2 p (.inl hp)
      · rcases List.mem_cons.1 hp with rfl | hp
        · obtain ⟨q, hq, hqp⟩ := List.any_eq_true.1 hx
          obtain ⟨r, hr, hrq⟩ := h2 q (.inl hq)
          refine ⟨r, hr, ?_⟩
          obtain ⟨a1, a2⟩ := of_decide_eq_true hqp
          obtain ⟨b1, b2⟩ := hrq
          refine ⟨b1.trans a1, ?_⟩
          rcases b2 with ⟨b2, b3⟩ | ⟨b2, b3⟩ <;> rcases a2 with ⟨a2, a3⟩ | ⟨a2, a3⟩
          · exact .inl ⟨b2.trans a2, b3.trans a3⟩
          · exact .inr ⟨b2.trans a2, b3.trans a3⟩
          · exact .inr ⟨b2.trans a3, b3.trans a2⟩
          · exact .inl ⟨b2.trans a3, b3.trans a2⟩
        · exact h2 p (.inr hp)
    · have e : listStep acc x = acc ++ [x] := if_neg hx
      rw [e]
      have hp : (acc ++ [x]).Pairwise fun p q => ¬ Alike p q := by
        rw [List.pairwise_append]
        refine ⟨h0, List.pairwise_singleton _ _, fun p hp q hq hpq => hx ?_⟩
        rw [List.mem_singleton] at hq
        subst hq
        exact List.any_eq_true.2 ⟨p, hp, decide_eq_true hpq⟩
      obtain ⟨h1, h2, h3⟩ := ih _ hp
      refine ⟨fun p hp => ?_, fun p hp => h2 p ?_, h3⟩
      · rcases h1 p hp with h | h
        · rcases List.mem_append.1 h with h | h
          · exact .inl h
          · rw [List.mem_singleton] at h; exact .inr (by simp [h])
        · exact .inr (List.mem_cons_of_mem _ h)
      · rcases hp with hp | hp
        · exact .inl (List.mem_append_left _ hp)
        · rcases List.mem_cons.1 hp with rfl | hp
          · exact .inl (by simp)
          · exact .inr hp

theorem listConflicts_spec (x : Sudoku) :
    (∀ a b v, (a, b, v) ∈ listConflicts x → InGrid x.bw x.bh a ∧ Props.Conflict x a b v) ∧
    (∀ a b v, InGrid x.bw x.bh a → Props.Conflict x a b v → (a, b, v) ∈ listConflicts x ∨ (b, a, v) ∈ listConflicts x) ∧
    (listConflicts x).Pairwise fun p q => ¬ Alike p q := by
  obtain ⟨h1, h2, h3⟩ := listStep_spec (Solve.findConflicts x) [] List.Pairwise.nil
  have e : listConflicts x = (Solve.findConflicts x).foldl listStep [] := rfl
  obtain ⟨-, c, -⟩ := Props.C15_all x
  refine ⟨fun a b v h => ?_, fun a b v ha hc => ?_, by rw [e]; exact h3⟩
  · rw [e] at h
    rcases h1 _ h with h | h
    · cases h
    · exact (c a b v).1 h
  · rw [e]
    obtain ⟨⟨a', b', v'⟩, hq, hq1, hq2⟩ := h2 (a, b, v) (.inr ((c a b v).2 ⟨ha, hc⟩))
    simp only at hq1 hq2
    subst hq1
    rcases hq2 with ⟨rfl, rfl⟩ | ⟨rfl, rfl⟩
    · exact .inl hq
    · exact .inr hq

/-- The shown sudoku is not empty, so it can be shown. -/
theorem view_ok (x : Sudoku) (hw : 0 < x.bw) (hh : 0 < x.bh) : ∃ t, Codec.view x true ['*'] true = .ok t := by
  unfold Codec.view
  rw [if_neg (by unfold Sudoku.n; exact (Nat.mul_pos hw hh).ne')]
  exact ⟨_, rfl⟩


/-- The current position, in a copy. -/
theorem copy_size (x : Sudoku) : (x.copy true).bw = x.bw ∧ (x.copy true).bh = x.bh := by rw [Sudoku.copy_eq]; exact ⟨rfl, rfl⟩

theorem copy_num (x : Sudoku) (a : Cell) (ha : InGrid x.bw x.bh a) : (x.copy true).num a = x.num a := by
  rw [Sudoku.copy_eq]; exact if_pos ha

theorem copy_cand (x : Sudoku) (a : Cell) (ha : InGrid x.bw x.bh a) : (x.copy true).cand a = x.cand a := by
  rw [Sudoku.copy_eq]; simp [ha]

theorem copy_copy (x : Sudoku) : (x.copy true).copy true = x.copy true := by
  rw [Sudoku.copy_eq (x.copy true), Sudoku.copy_eq x]
  simp only [Sudoku.mk.injEq, true_and]
  refine ⟨funext fun a => ?_, funext fun a => ?_⟩
  · by_cases h : InGrid x.bw x.bh a <;> simp [h]
  · by_cases h : InGrid x.bw x.bh a <;> simp [h]

theorem copy_same (x : Sudoku) : SamePosition (x.copy true) x := fun a ha => by
  rw [(copy_size x).1, (copy_size x).2] at ha
  exact ⟨copy_num x a ha, copy_cand x a ha⟩

section
variable (set : Settings) (π : HintOrders) (rounds : Nat) (line : List Char) {w h : Nat} (hw : 0 < w) (hh : 0 < h) {s : State} (hs : Fine w h s)
include hs

theorem now_size : s.now.bw = w ∧ s.now.bh = h := (hs.addr _ (cur_mem hs)).2

include hw hh

/-- The step, once the sudoku is shown. -/
theorem step_begun : ∃ v, Codec.view (s.now.copy true) true ['*'] true = .ok v ∧
    (firstWord line = none → step set π rounds line s = (begun s v, some (.crash .IndexError))) ∧
    (∀ word, firstWord line = some word → step set π rounds line s = match dispatch set π rounds line word s.heap.length (begun s v) with
      | (t, some e) => (t, some e)
      | (u, none) => (if word = "undo".toList ∨ word = "redo".toList then u else record s.heap.length u, none)) := by
  obtain ⟨e1, e2⟩ := now_size hs
  obtain ⟨f1, f2⟩ := copy_size s.now
  obtain ⟨v, hv⟩ := view_ok (s.now.copy true) (by rw [f1, e1]; exact hw) (by rw [f2, e2]; exact hh)
  refine ⟨v, hv, fun hl => ?_, fun word hl => ?_⟩
  · rw [step_eq, show Codec.view ((s.at s.cur).copy true) true ['*'] true = .ok v from hv, hl]
  · rw [step_eq, show Codec.view ((s.at s.cur).copy true) true ['*'] true = .ok v from hv, hl]
    rfl

end

/-- A command that leaves the shown sudoku as it is: nothing is recorded. -/
theorem record_same {w h : Nat} {s : State} (hs : Fine w h s) (v : List Char) (u : State) (l : Later s.heap.length (begun s v) u)
    (hu : u.at s.heap.length = s.now.copy true) : record s.heap.length u = u := by
  unfold record
  refine if_pos ?_
  rw [samePosition_iff, hu]
  have : u.at u.cur = s.now := by
    have e : u.cur = s.cur := by unfold State.cur; rw [l.sudokus, l.index]; rfl
    have hlt : s.cur < s.heap.length := (hs.addr _ (cur_mem hs)).1
    rw [e, l.old _ hlt]
    exact at_append s _ _ hlt
  rw [this]
  exact copy_same s.now

theorem record_print {w h : Nat} {s : State} (hs : Fine w h s) (v : List Char) (o : List Event) :
    record s.heap.length { begun s v with out := o } = { begun s v with out := o } :=
  record_same hs v _ ⟨Nat.le_refl _, fun _ _ => rfl, rfl, rfl, rfl⟩ (at_append_self s _)

theorem alike_symm : Std.Symm fun p q : Cell × Cell × Int => ¬ Alike p q := ⟨by
  rintro p q h ⟨h1, h2⟩
  refine h ⟨h1.symm, ?_⟩
  rcases h2 with ⟨h2, h3⟩ | ⟨h2, h3⟩
  · exact .inl ⟨h2.symm, h3.symm⟩
  · exact .inr ⟨h3.symm, h2.symm⟩⟩

/-! ## The exceptions of `autofill` -/

theorem each_error {f : Cell → Fill → Fill × Option PyErr} {x : PyErr} (hf : ∀ a s, (f a s).2 = none ∨ (f a s).2 = some x) (l : List Cell) (s : Fill) :
    (each f l s).2 = none ∨ (each f l s).2 = some x := by
  induction l generalizing s with
  | nil => exact .inl rfl
  | cons a l ih =>
    rw [each]
    have := hf a s
    cases h : f a s with
    | mk t o =>
      rw [h] at this
      cases o with
      | none => exact ih t
      | some e => exact this

theorem encode_error (cs : List (Int × Int)) (e : PyErr) (h : Notation.encode cs 3 3 none [','] [] = .error e) : e = .ValueError :=
  ((Props.C45_errors 3 3 [','] [] cs none e).1 h).1

theorem removeStep_error (verbose : Bool) (a : Cell) (s : Fill) :
    (removeStep verbose a s).2 = none ∨ (removeStep verbose a s).2 = some .ValueError := by
  rcases removeStep_eq verbose a s with ⟨h1, _⟩ | ⟨_, o, e, h1, h2⟩
  · rw [h1]; exact .inl rfl
  · rw [h1]
    cases e with
    | none => exact .inl rfl
    | some x => rw [encode_error _ x (h2 x rfl).2]; exact .inr rfl

theorem setStep_error (verbose : Bool) (a : Cell) (s : Fill) :
    (setStep verbose a s).2 = none ∨ (setStep verbose a s).2 = some .ValueError := by
  rcases setStep_eq verbose a s with ⟨h1, _⟩ | ⟨v, _, _, ⟨o, h2⟩ | ⟨e, _, he, h2⟩⟩
  · rw [h1]; exact .inl rfl
  · rw [h2]; exact .inl rfl
  · rw [h2, encode_error _ e he]; exact .inr rfl

theorem round_error (set : Settings) (verbose : Bool) (s : Fill) :
    (round set verbose s).2 = none ∨ (round set verbose s).2 = some .ValueError := by
  have h1 : ∀ r, r = (if set.autoremove = true then each (removeStep verbose) s.sudoku.cells { s with changed := false }
      else ({ s with changed := false }, none)) → r.2 = none ∨ r.2 = some .ValueError := by
    rintro r rfl
    split
    · exact each_error (removeStep_error verbose) _ _
    · exact .inl rfl
  unfold round
  simp only
  generalize hr : (if set.autoremove = true then each (removeStep verbose) s.sudoku.cells { s with changed := false }
    else ({ s with changed := false }, none)) = r
  have h1 := h1 r hr.symm
  obtain ⟨t, o⟩ := r
  cases o with
  | some e => exact h1
  | none =>
    simp only
    split
    · exact each_error (setStep_error verbose) _ _
    · exact .inl rfl

theorem loop_errors (set : Settings) (verbose : Bool) (n : Nat) (s : Fill) {r : Fill × Option PyErr} (hr : autofillLoop set verbose n s = some r) :
    r.2 = none ∨ r.2 = some .ValueError := by
  induction n generalizing s with
  | zero => cases hr
  | succ n ih =>
    rw [autofillLoop] at hr
    have h1 := round_error set verbose s
    cases hx : round set verbose s with
    | mk t o =>
      rw [hx] at hr h1
      cases o with
      | some e => cases hr; exact h1
      | none =>
        simp only at hr
        split at hr
        · exact ih t hr
        · cases hr; exact .inl rfl

theorem firstWord_none (line : List Char) : firstWord line = none ↔ ∀ c ∈ line, Py.isSpace c = true := by
  unfold firstWord
  induction line with
  | nil => simp
  | cons c l ih =>
    rw [List.dropWhile_cons]
    by_cases hc : Py.isSpace c = true
    · rw [if_pos hc, ih]
      simp [hc]
    · rw [if_neg hc]
      simp [hc]

/-! ## Hints -/

theorem getElem?_min {α : Type} (l : List α) (i : Nat) : l[min i l.length]? = l[i]? := by
  by_cases h : i ≤ l.length
  · rw [Nat.min_eq_left h]
  · rw [Nat.min_eq_right (by omega), List.getElem?_eq_none (Nat.le_refl _), List.getElem?_eq_none (by omega)]

/-- The next answer. -/
theorem nextHint_eq (π : HintOrders) (s : State) (x : Sudoku) (k i : Nat) (h1 : s.hints = some (k, min i (hintList (π k) x).length))
    (h2 : s.at k = x) : nextHint π s = { s with
      hints := some (k, min (i + 1) (hintList (π k) x).length)
      out := s.out ++ [answer (hintList (π k) x) i] } := by
  unfold nextHint answer
  rw [h1]
  simp only
  rw [h2, getElem?_min]
  by_cases hi : i < (hintList (π k) x).length
  · rw [List.getElem?_eq_getElem hi]
    simp only
    rw [Nat.min_eq_left (Nat.le_of_lt hi), Nat.min_eq_left hi]
  · rw [List.getElem?_eq_none (by omega)]
    simp only
    have e : min (i + 1) (hintList (π k) x).length = min i (hintList (π k) x).length := by omega
    rw [e, ← h1]

section
variable (set : Settings) (π : HintOrders) (rounds : Nat) (line : List Char) {w h : Nat} (hw : 0 < w) (hh : 0 < h) {s : State} (hs : Fine w h s)
  (hl : firstWord line = some "hint".toList)
include hw hh hs hl

/-- The command "hint" when the numbers are the same as last time. -/
theorem hint_next {x : Sudoku} {k i : Nat} (hx : Shows π s x k i) (hsz : x.bw = w ∧ x.bh = h) (hnum : SameGrid w h x.num s.now.num) :
    ∃ v t, step set π rounds line s = (t, none) ∧ Codec.view (s.now.copy true) true ['*'] true = .ok v ∧
      t = { begun s v with
        hints := some (k, min (i + 1) (hintList (π k) x).length)
        out := s.out ++ [.view v, answer (hintList (π k) x) i] } := by
  obtain ⟨v, hv, k1, k2⟩ := step_begun set π rounds line hw hh hs
  have hst := k2 _ hl
  rw [show dispatch set π rounds line "hint".toList s.heap.length (begun s v) = (hint π s.heap.length (begun s v), none) from rfl] at hst
  simp only at hst
  rw [if_neg (by decide)] at hst
  have hat : (begun s v).at s.heap.length = s.now.copy true := at_append_self s _
  obtain ⟨a, ha1, ha2, ha3⟩ := hx.hinted
  have hf : fresh s.heap.length (begun s v) = false := by
    unfold fresh
    rw [show (begun s v).hints = s.hints from rfl, show (begun s v).hinted = s.hinted from rfl, hx.hints, ha1]
    simp only
    rw [show (begun s v).at a = s.at a from at_append s a _ ha2, ha3, hat, Bool.not_eq_false', Props.C07_eq_iff _ _ (by
      rw [(copy_size s.now).1, (copy_size s.now).2, (now_size hs).1, (now_size hs).2, hsz.1, hsz.2])]
    intro c hc
    rw [hsz.1, hsz.2] at hc
    rw [show (s.now.copy true).get c = s.now.num c from copy_num s.now c (by rw [(now_size hs).1, (now_size hs).2]; exact hc)]
    exact hnum c hc
  have hh' : hint π s.heap.length (begun s v) = { begun s v with
      hints := some (k, min (i + 1) (hintList (π k) x).length)
      out := s.out ++ [.view v, answer (hintList (π k) x) i] } := by
    unfold hint
    rw [hf]
    simp only [Bool.false_eq_true, if_false]
    rw [nextHint_eq π (begun s v) x k i hx.hints (by rw [show (begun s v).at k = s.at k from at_append s k _ hx.addr]; exact hx.content)]
    simp [begun]
  rw [record_same hs v _ ?_ ?_] at hst
  · exact ⟨v, _, hst, hv, hh'⟩
  · rw [hh']
    exact ⟨Nat.le_refl _, fun _ _ => rfl, rfl, rfl, rfl⟩
  · rw [hh']
    exact at_append_self s _

/-- The command "hint" the first time, or when the numbers have changed. -/
theorem hint_first (hf : s.hints = none ∨ ∃ x k i, Shows π s x k i ∧ (x.bw = w ∧ x.bh = h) ∧ ¬ SameGrid w h x.num s.now.num) :
    ∃ v t, step set π rounds line s = (t, none) ∧ Codec.view (s.now.copy true) true ['*'] true = .ok v ∧
      t = { begun s v with
        heap := s.heap ++ [s.now.copy true, s.now.copy true],
        hints := some (s.heap.length, min 1 (hintList (π s.heap.length) (s.now.copy true)).length),
        hinted := some (s.heap.length + 1),
        out := s.out ++ [.view v, answer (hintList (π s.heap.length) (s.now.copy true)) 0] } := by
  obtain ⟨v, hv, k1, k2⟩ := step_begun set π rounds line hw hh hs
  have hst := k2 _ hl
  rw [show dispatch set π rounds line "hint".toList s.heap.length (begun s v) = (hint π s.heap.length (begun s v), none) from rfl] at hst
  simp only at hst
  rw [if_neg (by decide)] at hst
  have hat : (begun s v).at s.heap.length = s.now.copy true := at_append_self s _
  have hf' : fresh s.heap.length (begun s v) = true := by
    unfold fresh
    rw [show (begun s v).hints = s.hints from rfl, show (begun s v).hinted = s.hinted from rfl]
    rcases hf with hf | ⟨x, k, i, hx, hsz, hne⟩
    · rw [hf]
    · obtain ⟨a, ha1, ha2, ha3⟩ := hx.hinted
      rw [hx.hints, ha1]
      simp only
      rw [show (begun s v).at a = s.at a from at_append s a _ ha2, ha3, hat, Bool.not_eq_true', Bool.eq_false_iff]
      intro he
      rw [Props.C07_eq_iff _ _ (by
        rw [(copy_size s.now).1, (copy_size s.now).2, (now_size hs).1, (now_size hs).2, hsz.1, hsz.2])] at he
      refine hne fun c hc => ?_
      have := he c (by rw [hsz.1, hsz.2]; exact hc)
      rw [show (s.now.copy true).get c = s.now.num c from copy_num s.now c (by rw [(now_size hs).1, (now_size hs).2]; exact hc)] at this
      exact this
  have hlen : (begun s v).heap.length = s.heap.length + 1 := by simp [begun]
  have hh' : hint π s.heap.length (begun s v) = { begun s v with
        heap := s.heap ++ [s.now.copy true, s.now.copy true],
        hints := some (s.heap.length, min 1 (hintList (π s.heap.length) (s.now.copy true)).length),
        hinted := some (s.heap.length + 1),
        out := s.out ++ [.view v, answer (hintList (π s.heap.length) (s.now.copy true)) 0] } := by
    unfold hint
    rw [hf', if_pos rfl]
    rw [nextHint_eq π { begun s v with
        heap := (begun s v).heap ++ [((begun s v).at s.heap.length).copy true]
        hinted := some (begun s v).heap.length
        hints := some (s.heap.length, 0) } (s.now.copy true) s.heap.length 0 (by simp) (by
      have : ({ begun s v with heap := (begun s v).heap ++ [((begun s v).at s.heap.length).copy true] } : State).at s.heap.length = s.now.copy true := by
        rw [at_append (begun s v) s.heap.length _ (by rw [hlen]; omega), hat]
      exact this), hat, copy_copy]
    simp [begun, State.now]
  rw [record_same hs v _ ?_ ?_] at hst
  · exact ⟨v, _, hst, hv, hh'⟩
  · have := later_hint π s.heap.length (begun s v)
    exact ⟨this.len, fun a ha => this.old a (by rw [hlen]; omega), this.sudokus, this.index, this.solution⟩
  · have := later_hint π s.heap.length (begun s v)
    rw [this.old _ (by rw [hlen]; omega)]
    exact hat

end

/-- Commands other than "hint" leave the hints alone. -/
theorem dispatch_hints (set : Settings) (π : HintOrders) (rounds : Nat) (line word : List Char) (k : Nat) (s : State) (hw : word ≠ "hint".toList) :
    (dispatch set π rounds line word k s).1.hints = s.hints ∧ (dispatch set π rounds line word k s).1.hinted = s.hinted := by
  have hprint : ∀ r, (printAll r s).1.hints = s.hints ∧ (printAll r s).1.hinted = s.hinted := by
    intro r; cases r <;> exact ⟨rfl, rfl⟩
  unfold dispatch
  rw [if_neg hw]
  split
  · exact ⟨rfl, rfl⟩
  split
  · exact hprint _
  split
  · exact ⟨rfl, rfl⟩
  split
  · exact hprint _
  split
  · split <;> exact ⟨rfl, rfl⟩
  split
  · split <;> exact ⟨rfl, rfl⟩
  unfold act
  cases Notation.decodeAction line (s.at k).bw (s.at k).bh with
  | error e => cases e <;> exact ⟨rfl, rfl⟩
  | ok action =>
    simp only
    cases Actions.call action (s.at k) with
    | mk x r =>
      cases r with
      | error e => cases e <;> exact ⟨rfl, rfl⟩
      | ok u =>
        simp only
        cases autofill set true rounds x s.out with
        | none => exact ⟨rfl, rfl⟩
        | some r =>
          obtain ⟨r, e⟩ := r
          cases e with
          | none => exact ⟨rfl, rfl⟩
          | some e => cases e <;> exact ⟨rfl, rfl⟩

end Game
