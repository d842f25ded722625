import Verif.Proofs.Store
import Mathlib.Data.Finset.Basic
import Mathlib.Data.List.Sort

set_option autoImplicit false

/-! # C05-C08: what a `Sudoku` stores -/

open Spec Store

namespace Props

/-- Index `i` means row (or column) `a` of `n`: `a` itself or, as in all Python lists, `a - n`. -/
def Hits (n : Nat) (i : Int) (a : Nat) : Prop := i = a ∨ i = (a : Int) - n

instance (n : Nat) (i : Int) (a : Nat) : Decidable (Hits n i a) := inferInstanceAs (Decidable (_ ∨ _))

/-- An index Python accepts for a list of length `n`. -/
def GoodIndex (n : Nat) (i : Int) : Prop := -(n : Int) ≤ i ∧ i < n

/-- The number last written to field `a` of object `k`; the latest call comes first. -/
def lastNumber (n k : Nat) (a : Cell) : List Cmd → Int
  | [] => 0
  | .setNumber l i j v :: t => if l = k ∧ Hits n i a.1 ∧ Hits n j a.2 then v else lastNumber n k a t
  | _ :: t => lastNumber n k a t

/-- The candidates the calls leave in field `a` of object `k`; the latest call comes first. -/
def lastCandidates (n k : Nat) (a : Cell) : List Cmd → Finset Int
  | [] => ∅
  | .setCandidates l i j v :: t => if l = k ∧ Hits n i a.1 ∧ Hits n j a.2 then v.toFinset else lastCandidates n k a t
  | .removeCandidates l i j v :: t =>
      if l = k ∧ Hits n i a.1 ∧ Hits n j a.2 then (lastCandidates n k a t).filter (· ∉ v) else lastCandidates n k a t
  | _ :: t => lastCandidates n k a t

/-- Writes to object `k`. -/
def Writes (k : Nat) : Cmd → Prop
  | .setNumber l _ _ _ | .setCandidates l _ _ _ | .removeCandidates l _ _ _ => l = k
  | .new _ _ | .copy _ _ => False

theorem hits_iff {n : Nat} {i : Int} {a : Nat} (ha : a < n) : pyIdx n i = some a ↔ Hits n i a := by
  unfold pyIdx Hits
  split
  · simp only [Option.some.injEq]; omega
  · split
    · simp only [Option.some.injEq]; omega
    · simp only [reduceCtorEq, false_iff]; omega

theorem good_iff {n : Nat} {i : Int} : GoodIndex n i ↔ pyIdx n i ≠ none := by
  rw [ne_eq, pyIdx_none, not_not]; rfl

/-- Agreement of a sudoku value with the calls so far. -/
def Agrees (n k : Nat) (D : List Cmd) (s : Sudoku) : Prop :=
  s.n = n ∧ ∀ a : Cell, a.1 < n → a.2 < n → s.num a = lastNumber n k a D ∧ s.cand a = lastCandidates n k a D

theorem agrees_vexec {n k : Nat} {D : List Cmd} {ss : List Sudoku} {s : Sudoku} (hs : ss[k]? = some s)
    (ha : Agrees n k D s) (c : Cmd) : ∃ s', (vexec ss c).1[k]? = some s' ∧ Agrees n k (c :: D) s' := by
  have hk : k < ss.length := (List.getElem?_eq_some_iff.1 hs).1
  have write : ∀ (l : Nat) (i j : Int) (f : Sudoku → Cell → Sudoku),
      (∀ s a, (f s a).n = s.n) →
      (∀ a : Cell, a.1 < n → a.2 < n → l = k → ∀ b : Cell,  b.1 < n → b.2 < n → pyIdx n i = some b.1 → pyIdx n j = some b.2 →
        (f s b).num a = lastNumber n k a (c :: D) ∧ (f s b).cand a = lastCandidates n k a (c :: D)) →
      (∀ a : Cell, a.1 < n → a.2 < n → (¬ (l = k ∧ Hits n i a.1 ∧ Hits n j a.2)) →
        lastNumber n k a (c :: D) = lastNumber n k a D ∧ lastCandidates n k a (c :: D) = lastCandidates n k a D) →
      ∃ s', (vwrite ss l i j f).1[k]? = some s' ∧ Agrees n k (c :: D) s' := by
    intro l i j f hfn hf hno
    unfold vwrite
    by_cases hl : l = k
    · subst hl
      rw [hs]
      dsimp only
      rw [ha.1]
      cases hi : pyIdx n i with
      | none =>
        refine ⟨s, hs, ha.1, fun a h1 h2 => ?_⟩
        obtain ⟨e1, e2⟩ := hno a h1 h2 (by rintro ⟨-, h, -⟩; rw [← hits_iff h1, hi] at h; cases h)
        rw [e1, e2]; exact ha.2 a h1 h2
      | some a' => cases hj : pyIdx n j with
        | none =>
          refine ⟨s, hs, ha.1, fun a h1 h2 => ?_⟩
          obtain ⟨e1, e2⟩ := hno a h1 h2 (by rintro ⟨-, -, h⟩; rw [← hits_iff h2, hj] at h; cases h)
          rw [e1, e2]; exact ha.2 a h1 h2
        | some b' =>
          refine ⟨f s (a', b'), by simp [hk], by rw [hfn, ha.1], fun a h1 h2 => ?_⟩
          exact hf a h1 h2 rfl (a', b') (pyIdx_lt hi) (pyIdx_lt hj) hi hj
    · have e : ∀ x, (ss.set l x)[k]? = some s := by
        intro x; rw [List.getElem?_set, if_neg hl]; exact hs
      refine ⟨s, ?_, ha.1, fun a h1 h2 => ?_⟩
      · cases hl' : ss[l]? with
        | none => exact hs
        | some t =>
          dsimp only
          cases pyIdx t.n i with
          | none => exact hs
          | some a => cases pyIdx t.n j with
            | none => exact hs
            | some b => exact e _
      · obtain ⟨e1, e2⟩ := hno a h1 h2 (by rintro ⟨h, -⟩; exact hl h)
        rw [e1, e2]; exact ha.2 a h1 h2
  have hitb : ∀ (a b : Cell) (i j : Int), a.1 < n → a.2 < n → pyIdx n i = some b.1 → pyIdx n j = some b.2 →
      ((Hits n i a.1 ∧ Hits n j a.2) ↔ a = b) := by
    intro a b i j h1 h2 hi hj
    rw [← hits_iff h1, ← hits_iff h2, hi, hj]
    simp only [Option.some.injEq]
    constructor
    · rintro ⟨e1, e2⟩; exact Prod.ext e1.symm e2.symm
    · rintro rfl; exact ⟨rfl, rfl⟩
  cases c with
  | new bw bh => exact ⟨s, by simp only [vexec]; rw [List.getElem?_append_left hk]; exact hs, ha⟩
  | copy l ic =>
    refine ⟨s, ?_, ha⟩
    simp only [vexec]
    cases ss[l]? with
    | none => exact hs
    | some t => dsimp only; rw [List.getElem?_append_left hk]; exact hs
  | setNumber l i j v =>
    refine write l i j _ (fun _ _ => rfl) (fun a h1 h2 hl b h3 h4 hi hj => ?_) (fun a h1 h2 hn => ?_)
    · obtain ⟨e1, e2⟩ := ha.2 a h1 h2
      simp only [lastNumber, lastCandidates, hl, true_and, hitb a b i j h1 h2 hi hj, Sudoku.setNumber, e1, e2, and_self]
    · simp only [lastNumber, lastCandidates, if_neg hn, and_self]
  | setCandidates l i j v =>
    refine write l i j _ (fun _ _ => rfl) (fun a h1 h2 hl b h3 h4 hi hj => ?_) (fun a h1 h2 hn => ?_)
    · obtain ⟨e1, e2⟩ := ha.2 a h1 h2
      simp only [lastNumber, lastCandidates, hl, true_and, hitb a b i j h1 h2 hi hj, Sudoku.setCandidates, e1, e2,
        and_self]
    · simp only [lastNumber, lastCandidates, if_neg hn, and_self]
  | removeCandidates l i j v =>
    refine write l i j _ (fun _ _ => rfl) (fun a h1 h2 hl b h3 h4 hi hj => ?_) (fun a h1 h2 hn => ?_)
    · obtain ⟨e1, e2⟩ := ha.2 a h1 h2
      simp only [lastNumber, lastCandidates, hl, true_and, hitb a b i j h1 h2 hi hj, Sudoku.removeCandidates, e1]
      split
      · rename_i e; subst e
        rw [e2]; ext x; simp
      · exact e2
    · simp only [lastNumber, lastCandidates, if_neg hn, and_self]

theorem agrees_vrun {n k : Nat} (Q : List Cmd) : ∀ {D : List Cmd} {ss : List Sudoku} {s : Sudoku},
    ss[k]? = some s → Agrees n k D s → ∃ s', (vrun ss Q).1[k]? = some s' ∧ Agrees n k (Q.reverse ++ D) s' := by
  induction Q with
  | nil => intro D ss s hs ha; exact ⟨s, hs, ha⟩
  | cons c Q ih =>
    intro D ss s hs ha
    obtain ⟨s1, h1, a1⟩ := agrees_vexec hs ha c
    obtain ⟨s2, h2, a2⟩ := ih h1 a1
    refine ⟨s2, h2, ?_⟩
    simpa using a2

/-- **C05** In any program (`P` before the object is created, `Q` after), the getters of an object return what the
calls to that object left in the field; indices `-n..n-1` are accepted, all others raise `IndexError`. -/
theorem C05_last_write (P Q : List Cmd) (w h : Nat) :
    let k := (run .start P).1.objs.length
    let σ := (run .start (P ++ .new w h :: Q)).1
    ∃ o, σ.objs[k]? = some o ∧
      (∀ (a : Cell) (i j : Int), InGrid w h a → Hits (w * h) i a.1 → Hits (w * h) j a.2 →
        getNumber σ.heap o i j = .ok (lastNumber (w * h) k a Q.reverse) ∧
        getCandidates σ.heap o i j = .ok (lastCandidates (w * h) k a Q.reverse)) ∧
      (∀ i j : Int, ¬ (GoodIndex (w * h) i ∧ GoodIndex (w * h) j) →
        getNumber σ.heap o i j = .error .IndexError ∧ getCandidates σ.heap o i j = .error .IndexError) := by
  intro k σ
  obtain ⟨ss, hsim⟩ := reach P
  have hsim' := (hsim.run (cs := .new w h :: Q)).1
  rw [← run_append] at hsim'
  have hk : ss.length = k := hsim.len.symm
  obtain ⟨s', hs', ag⟩ := agrees_vrun (n := w * h) (k := k) Q (D := []) (ss := ss ++ [Sudoku.new w h])
    (s := Sudoku.new w h) (by rw [← hk]; simp) ⟨rfl, fun a _ _ => ⟨rfl, rfl⟩⟩
  rw [List.append_nil] at ag
  have hs'' : (vrun ss (.new w h :: Q)).1[k]? = some s' := hs'
  have ho : k < σ.objs.length := by
    have := (List.getElem?_eq_some_iff.1 hs'').1
    rw [hsim'.len]; exact this
  refine ⟨σ.objs[k], List.getElem?_eq_getElem ho, ?_⟩
  have r := hsim'.rep k _ s' (List.getElem?_eq_getElem ho) hs''
  constructor
  · intro a i j hg hi hj
    rw [getNumber_eq r, getCandidates_eq r, ag.1, (hits_iff hg.1).2 hi, (hits_iff hg.2).2 hj]
    obtain ⟨e1, e2⟩ := ag.2 a hg.1 hg.2
    exact ⟨by rw [← e1], by rw [← e2]⟩
  · intro i j hbad
    rw [getNumber_eq r, getCandidates_eq r, ag.1]
    rw [good_iff, good_iff, not_and_or, not_not, not_not] at hbad
    rcases hbad with hb | hb
    · rw [hb]; exact ⟨rfl, rfl⟩
    · rw [hb]; cases pyIdx (w * h) i <;> exact ⟨rfl, rfl⟩

/-- **C05** Setters raise `IndexError` exactly for bad indices and then change nothing. -/
theorem C05_setter_errors (P : List Cmd) (k : Nat) (o : Obj) (i j v : Int) (vs : List Int) :
    let σ := (run .start P).1
    let n := o.bw * o.bh
    σ.objs[k]? = some o →
    (¬ (GoodIndex n i ∧ GoodIndex n j) →
      exec σ (.setNumber k i j v) = (σ, .error .IndexError) ∧
      exec σ (.setCandidates k i j vs) = (σ, .error .IndexError) ∧
      exec σ (.removeCandidates k i j vs) = (σ, .error .IndexError)) ∧
    (GoodIndex n i ∧ GoodIndex n j →
      (exec σ (.setNumber k i j v)).2 = .ok () ∧
      (exec σ (.setCandidates k i j vs)).2 = .ok () ∧
      (exec σ (.removeCandidates k i j vs)).2 = .ok ()) := by
  intro σ n ho
  obtain ⟨ss, hsim⟩ := reach P
  obtain ⟨s, hs, r⟩ := hsim.get ho
  have hn : n = s.n := by simp only [n, r.bw, r.bh]; rfl
  rw [hn]
  simp only [good_iff]
  simp only [exec, State.write]
  simp only [show σ.objs[k]? = some o from ho]
  constructor
  · intro hbad
    rw [not_and_or, not_not, not_not] at hbad
    rw [(setNumber_spec r i j v).2 hbad, (setCandidates_spec r i j _).2 hbad, (removeCandidates_spec r i j _).2 hbad]
    exact ⟨rfl, rfl, rfl⟩
  · rintro ⟨h1, h2⟩
    obtain ⟨a, ha⟩ := Option.ne_none_iff_exists'.1 h1
    obtain ⟨b, hb⟩ := Option.ne_none_iff_exists'.1 h2
    obtain ⟨H1, e1, _⟩ := (setNumber_spec r i j v).1 a b ha hb
    obtain ⟨H2, e2, _⟩ := (setCandidates_spec r i j vs.toFinset).1 a b ha hb
    obtain ⟨H3, e3, _⟩ := (removeCandidates_spec r i j vs.toFinset).1 a b ha hb
    rw [e1, e2, e3]
    exact ⟨rfl, rfl, rfl⟩

theorem vexec_keeps {ss : List Sudoku} {k : Nat} {s : Sudoku} (hs : ss[k]? = some s) (c : Cmd) (hc : ¬ Writes k c) :
    (vexec ss c).1[k]? = some s := by
  have hk : k < ss.length := (List.getElem?_eq_some_iff.1 hs).1
  have wr : ∀ (l : Nat) i j f, l ≠ k → (vwrite ss l i j f).1[k]? = some s := by
    intro l i j f hl
    unfold vwrite
    cases ss[l]? with
    | none => exact hs
    | some t =>
      dsimp only
      cases pyIdx t.n i with
      | none => exact hs
      | some a => cases pyIdx t.n j with
        | none => exact hs
        | some b => dsimp only; rw [List.getElem?_set, if_neg hl]; exact hs
  cases c with
  | new bw bh => simp only [vexec]; rw [List.getElem?_append_left hk]; exact hs
  | copy l ic =>
    simp only [vexec]
    cases ss[l]? with
    | none => exact hs
    | some t => dsimp only; rw [List.getElem?_append_left hk]; exact hs
  | setNumber l i j v => exact wr l i j _ hc
  | setCandidates l i j v => exact wr l i j _ hc
  | removeCandidates l i j v => exact wr l i j _ hc

theorem vrun_keeps {k : Nat} {s : Sudoku} (Q : List Cmd) : ∀ {ss : List Sudoku}, ss[k]? = some s →
    (∀ c ∈ Q, ¬ Writes k c) → (vrun ss Q).1[k]? = some s := by
  induction Q with
  | nil => intro ss hs _; exact hs
  | cons c Q ih =>
    intro ss hs hQ
    exact ih (vexec_keeps hs c (hQ c (by simp))) (fun d hd => hQ d (by simp [hd]))

theorem objs_keeps (Q : List Cmd) : ∀ {σ : State} {k : Nat} {o : Obj}, σ.objs[k]? = some o →
    (run σ Q).1.objs[k]? = some o := by
  induction Q with
  | nil => intro σ k o h; exact h
  | cons c Q ih =>
    intro σ k o h
    simp only [run]
    apply ih
    have hk : k < σ.objs.length := (List.getElem?_eq_some_iff.1 h).1
    have wr : ∀ l f, (σ.write l f).1.objs[k]? = some o := by
      intro l f; unfold State.write
      cases σ.objs[l]? with
      | none => exact h
      | some t => dsimp only; cases f t <;> exact h
    cases c with
    | new bw bh => simp only [exec]; rw [List.getElem?_append_left hk]; exact h
    | copy l ic =>
      simp only [exec]
      cases σ.objs[l]? with
      | none => exact h
      | some t =>
        dsimp only
        cases copy σ.heap t ic with
        | error e => exact h
        | ok p => dsimp only; rw [List.getElem?_append_left hk]; exact h
    | setNumber l i j v => exact wr _ _
    | setCandidates l i j v => exact wr _ _
    | removeCandidates l i j v => exact wr _ _

/-- **C06** (independence) Calls that do not write to object `k` never change what its getters return - whatever
copies of it were made before or are made now. -/
theorem C06_independent (P Q : List Cmd) (k : Nat) (o : Obj) (hQ : ∀ c ∈ Q, ¬ Writes k c) :
    let σ := (run .start P).1
    let τ := (run .start (P ++ Q)).1
    σ.objs[k]? = some o → τ.objs[k]? = some o ∧ ∀ i j,
      getNumber τ.heap o i j = getNumber σ.heap o i j ∧
      getCandidates τ.heap o i j = getCandidates σ.heap o i j := by
  intro σ τ ho
  obtain ⟨ss, hsim⟩ := reach P
  obtain ⟨s, hs, r⟩ := hsim.get ho
  have hsim' := (hsim.run (cs := Q)).1
  rw [← run_append] at hsim'
  have ho' : τ.objs[k]? = some o := by
    have := objs_keeps Q ho
    rw [← run_append] at this; exact this
  have r' := hsim'.rep k o s ho' (vrun_keeps Q hs hQ)
  refine ⟨ho', fun i j => ?_⟩
  rw [getNumber_eq r, getNumber_eq r', getCandidates_eq r, getCandidates_eq r']
  exact ⟨rfl, rfl⟩

/-- **C06** (equality) `copy` never raises and gives a new object of the same size with the same numbers, and the same
candidates with `include_candidates=True`, none otherwise. -/
theorem C06_copy (P : List Cmd) (k : Nat) (o : Obj) (ic : Bool) :
    let σ := (run .start P).1
    let τ := (exec σ (.copy k ic)).1
    σ.objs[k]? = some o →
    (exec σ (.copy k ic)).2 = .ok () ∧
    ∃ t, τ.objs = σ.objs ++ [t] ∧ t.bw = o.bw ∧ t.bh = o.bh ∧ ∀ i j,
      getNumber τ.heap t i j = getNumber σ.heap o i j ∧
      (ic = true → getCandidates τ.heap t i j = getCandidates σ.heap o i j) ∧
      (ic = false → ∀ c, getCandidates τ.heap t i j = .ok c → c = ∅) := by
  intro σ τ ho
  obtain ⟨ss, hsim⟩ := reach P
  obtain ⟨s, hs, r⟩ := hsim.get ho
  obtain ⟨H', t, e, rt, -⟩ := copy_spec r ic
  have hτ : exec σ (.copy k ic) = (⟨H', σ.objs ++ [t]⟩, .ok ()) := by
    simp only [exec, show σ.objs[k]? = some o from ho, show copy σ.heap o ic = _ from e]
  have hτ' : τ = ⟨H', σ.objs ++ [t]⟩ := by simp only [τ, hτ]
  refine ⟨by rw [hτ], t, by rw [hτ'], ?_, ?_, ?_⟩
  · rw [rt.bw, r.bw, Sudoku.copy_eq]
  · rw [rt.bh, r.bh, Sudoku.copy_eq]
  · intro i j
    rw [hτ', getNumber_eq r, getCandidates_eq r]
    dsimp only
    rw [getNumber_eq rt, getCandidates_eq rt, Sudoku.copy_eq]
    have hn : ({ bw := s.bw, bh := s.bh, num := fun a => if InGrid s.bw s.bh a then s.num a else 0,
                  cand := fun a => if ic = true ∧ InGrid s.bw s.bh a then s.cand a else ∅ } : Sudoku).n = s.n := rfl
    rw [hn]
    cases hi : pyIdx s.n i with
    | none => exact ⟨rfl, fun _ => rfl, fun _ c h => by cases h⟩
    | some a => cases hj : pyIdx s.n j with
      | none => exact ⟨rfl, fun _ => rfl, fun _ c h => by cases h⟩
      | some b =>
        have hg : InGrid s.bw s.bh (a, b) := ⟨pyIdx_lt hi, pyIdx_lt hj⟩
        simp only [hg, if_true, and_true, true_and]
        refine ⟨fun h => by rw [if_pos h], fun h c hc => ?_⟩
        rw [if_neg (by rw [h]; simp)] at hc
        simp only [Except.ok.injEq] at hc; exact hc.symm

/-! Non-vacuity of C05/C06: two 2x2 boxes, a copy, writes to both. -/
example :
    let σ := (run .start [.new 2 1, .setNumber 0 0 1 2, .copy 0 false, .setNumber 1 0 1 5, .setNumber 0 (-1) 0 1]).1
    (σ.objs.map fun o => (List.range 2).map fun i => (List.range 2).map fun j =>
      (getNumber σ.heap o i j).toOption) = [[[some 0, some 2], [some 1, some 0]], [[some 0, some 5], [some 0, some 0]]] := by
  decide
example : GoodIndex 4 (-4) ∧ ¬ GoodIndex 4 4 := by unfold GoodIndex; omega

/-! ## C07 -/

/-- **C07** With equally many rows, `==` says whether all numbers agree. -/
theorem C07_eq_iff (s t : Sudoku) (h : s.bw * s.bh = t.bw * t.bh) :
    s.eq t = true ↔ ∀ a, InGrid s.bw s.bh a → s.get a = t.get a := by
  unfold Sudoku.eq
  simp only [List.all_eq_true, Sudoku.mem_cells]
  refine forall_congr' fun a => forall_congr' fun ha => ?_
  have hg : t.get? a = some (t.num a) := by
    unfold Sudoku.get?; rw [if_pos]
    unfold InGrid at ha; rw [h] at ha; exact ha
  rw [hg]; simp [Sudoku.get]

/-- **C07** `==` is an equivalence on sudokus with equally many rows. -/
theorem C07_equivalence (s t u : Sudoku) (h : s.bw * s.bh = t.bw * t.bh) (h' : t.bw * t.bh = u.bw * u.bh) :
    s.eq s = true ∧ (s.eq t = t.eq s) ∧ (s.eq t = true → t.eq u = true → s.eq u = true) := by
  have ig : ∀ {s t : Sudoku} (h : s.bw * s.bh = t.bw * t.bh) (a : Cell), InGrid t.bw t.bh a → InGrid s.bw s.bh a := by
    intro s t h a ha; unfold InGrid at *; rw [h]; exact ha
  refine ⟨(C07_eq_iff s s rfl).2 fun _ _ => rfl, ?_, fun h1 h2 => ?_⟩
  · rw [Bool.eq_iff_iff, C07_eq_iff s t h, C07_eq_iff t s h.symm]
    exact ⟨fun H a ha => (H a (ig h a ha)).symm, fun H a ha => (H a (ig h.symm a ha)).symm⟩
  · rw [C07_eq_iff s t h] at h1
    rw [C07_eq_iff t u h'] at h2
    rw [C07_eq_iff s u (h.trans h')]
    exact fun a ha => (h1 a ha).trans (h2 a (ig h.symm a ha))

/-- **C07** In general `s == t` says: `t` has at least as many rows and agrees on the fields of `s`. -/
theorem C07_eq_general (s t : Sudoku) :
    s.eq t = true ↔ ∀ a, InGrid s.bw s.bh a → InGrid t.bw t.bh a ∧ s.get a = t.get a := by
  unfold Sudoku.eq
  simp only [List.all_eq_true, Sudoku.mem_cells]
  refine forall_congr' fun a => forall_congr' fun ha => ?_
  unfold Sudoku.get?
  by_cases hg : InGrid t.bw t.bh a
  · rw [if_pos (show a.1 < t.n ∧ a.2 < t.n from hg)]; simp [Sudoku.get, hg]
  · rw [if_neg (show ¬ (a.1 < t.n ∧ a.2 < t.n) from hg)]; simp [hg]

/-- **C07** `==` is not symmetric across sizes. -/
theorem C07_not_symmetric : ∃ s t : Sudoku, s.eq t = true ∧ t.eq s = false :=
  ⟨Sudoku.new 2 1, Sudoku.new 2 2, by decide, by decide⟩

/-- **C07** The box shape and the candidates do not matter. -/
theorem C07_ignores_shape_and_candidates : ∃ s t : Sudoku,
    s.eq t = true ∧ t.eq s = true ∧ s.bw ≠ t.bw ∧ s.cand (0, 0) ≠ t.cand (0, 0) :=
  ⟨(Sudoku.new 2 3).setNumber (1, 1) 4, ((Sudoku.new 3 2).setNumber (1, 1) 4).setCandidates (0, 0) {1},
    by decide, by decide, by decide, by decide⟩

/-- **C07** `equals(candidates=True)` additionally compares the candidates (sudokus with equally many rows). -/
theorem C07_equals (s t : Sudoku) (cands : Bool) :
    s.equals t cands = true ↔ ∀ a, InGrid s.bw s.bh a →
      s.get a = t.get a ∧ (cands = true → s.getCandidates a = t.getCandidates a) := by
  unfold Sudoku.equals
  simp only [List.all_eq_true, Sudoku.mem_cells, Bool.and_eq_true, beq_iff_eq]
  refine forall_congr' fun a => forall_congr' fun ha => and_congr_right fun _ => ?_
  cases cands <;> simp

/-! ## C08 -/

/-- Row-major order. -/
def RowMajor (a b : Cell) : Prop := a.1 < b.1 ∨ (a.1 = b.1 ∧ a.2 < b.2)

/-- **C08** Iteration visits each field of the grid once, in row-major order. -/
theorem C08_iter (s : Sudoku) :
    s.cells.Pairwise RowMajor ∧ (∀ a, a ∈ s.cells ↔ InGrid s.bw s.bh a) ∧ s.cells.length = s.len := by
  refine ⟨?_, fun a => Sudoku.mem_cells s, ?_⟩
  · unfold Sudoku.cells Coordinates.product
    rw [List.pairwise_flatMap]
    constructor
    · intro r _
      rw [List.pairwise_map]
      exact List.Pairwise.imp (fun h => Or.inr ⟨rfl, h⟩) List.pairwise_lt_range
    · refine List.Pairwise.imp (fun {r r'} h => ?_) (List.pairwise_lt_range (n := s.n))
      intro x hx y hy
      simp only [List.mem_map] at hx hy
      obtain ⟨_, _, rfl⟩ := hx
      obtain ⟨_, _, rfl⟩ := hy
      exact Or.inl h
  · unfold Sudoku.cells Coordinates.product Sudoku.len Sudoku.indices Sudoku.n
    simp [List.length_flatMap, List.map_const']
    rw [← Nat.mul_pow, Nat.pow_two]

/-- **C08** `empty` and `filled` list, in row-major order, the fields with and without zero. -/
theorem C08_empty_filled (s : Sudoku) :
    (s.empty.Pairwise RowMajor ∧ ∀ a, a ∈ s.empty ↔ InGrid s.bw s.bh a ∧ s.get a = 0) ∧
    (s.filled.Pairwise RowMajor ∧ ∀ a, a ∈ s.filled ↔ InGrid s.bw s.bh a ∧ s.get a ≠ 0) := by
  have hp := (C08_iter s).1
  refine ⟨⟨hp.filter _, fun a => ?_⟩, ⟨hp.filter _, fun a => ?_⟩⟩
  · simp [Sudoku.empty, Sudoku.mem_cells]
  · simp [Sudoku.filled, Sudoku.mem_cells]

/-- **C08** `count` counts the filled fields; with the empty ones they make up `len`. -/
theorem C08_count (s : Sudoku) : s.count = s.filled.length ∧ s.count + s.empty.length = s.len := by
  refine ⟨rfl, ?_⟩
  rw [← (C08_iter s).2.2]
  unfold Sudoku.count Sudoku.filled Sudoku.empty
  have := List.length_eq_length_filter_add (l := s.cells) (fun a => s.get a != 0)
  rw [this]
  congr 2
  refine List.filter_congr fun a _ => ?_
  show (s.get a == 0) = !(!(s.get a == 0))
  rw [Bool.not_not]

/-- **C08** `diff` lists exactly the fields with different numbers; none iff the sudokus are `==`. -/
theorem C08_diff (s t : Sudoku) (h : s.bw * s.bh = t.bw * t.bh) :
    (s.diff t).Pairwise RowMajor ∧ (∀ a, a ∈ s.diff t ↔ InGrid s.bw s.bh a ∧ s.get a ≠ t.get a) ∧
    (s.diff t = [] ↔ s.eq t = true) := by
  have hm : ∀ a, a ∈ s.diff t ↔ InGrid s.bw s.bh a ∧ s.get a ≠ t.get a := by
    intro a; simp [Sudoku.diff, Sudoku.mem_cells]
  refine ⟨(C08_iter s).1.filter _, hm, ?_⟩
  rw [C07_eq_iff s t h, List.eq_nil_iff_forall_not_mem]
  refine forall_congr' fun a => ?_
  rw [hm]; tauto

example : let s := (Sudoku.new 2 1).setNumber (0, 1) 2
    s.empty = [(0,0),(1,0),(1,1)] ∧ s.filled = [(0,1)] ∧ s.len = 4 ∧ s.diff (Sudoku.new 2 1) = [(0,1)] := by decide

end Props
