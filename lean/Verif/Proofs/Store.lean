import Verif.Model.Store
import Verif.Proofs.Geometry

set_option autoImplicit false

/-! Helper lemmas about the heap of rows. -/

open Spec

namespace Store

variable {α : Type}

theorem pyIdx_lt {n : Nat} {i : Int} {k : Nat} (h : pyIdx n i = some k) : k < n := by
  unfold pyIdx at h
  split at h
  · simp only [Option.some.injEq] at h; omega
  · split at h
    · simp only [Option.some.injEq] at h; omega
    · cases h

theorem pyIdx_nat {n k : Nat} (h : k < n) : pyIdx n (k : Int) = some k := by
  unfold pyIdx
  rw [if_pos ⟨by omega, by omega⟩]; simp

theorem pyIdx_none {n : Nat} {i : Int} : pyIdx n i = none ↔ ¬ (-(n : Int) ≤ i ∧ i < n) := by
  unfold pyIdx
  split
  · simp; omega
  · split
    · simp; omega
    · simp; omega

theorem pyGet_some {l : List α} {i : Int} {k : Nat} (h : pyIdx l.length i = some k) :
    pyGet l i = .ok (l[k]'(pyIdx_lt h)) := by
  unfold pyGet; rw [h]; simp [pyIdx_lt h]

theorem pyGet_none {l : List α} {i : Int} (h : pyIdx l.length i = none) :
    pyGet l i = .error .IndexError := by
  unfold pyGet; rw [h]

/-- The rows at `refs` are distinct rows of the right length. -/
structure WFa (rows : List (List α)) (refs : List Nat) (n : Nat) : Prop where
  len : refs.length = n
  nodup : refs.Nodup
  lt : ∀ r ∈ refs, r < rows.length
  rowLen : ∀ r ∈ refs, (deref rows r).length = n

/-- The two-dimensional array read as a function; `d` outside. -/
def look (rows : List (List α)) (refs : List Nat) (d : α) (a : Cell) : α :=
  match refs[a.1]? with
  | some r => (deref rows r).getD a.2 d
  | none => d

theorem arrGet_eq {rows : List (List α)} {refs : List Nat} {n : Nat} (wf : WFa rows refs n) (d : α) (i j : Int) :
    arrGet rows refs i j = match pyIdx n i, pyIdx n j with
      | some a, some b => .ok (look rows refs d (a, b))
      | _, _ => .error .IndexError := by
  unfold arrGet
  cases hi : pyIdx n i with
  | none => rw [pyGet_none (by rw [wf.len]; exact hi)]
  | some a =>
    have hi' : pyIdx refs.length i = some a := by rw [wf.len]; exact hi
    have ha := pyIdx_lt hi'
    rw [pyGet_some hi']
    have hmem : refs[a] ∈ refs := List.getElem_mem ha
    have hl := wf.rowLen _ hmem
    simp only
    cases hj : pyIdx n j with
    | none => rw [pyGet_none (by rw [hl]; exact hj)]
    | some b =>
      have hj' : pyIdx (deref rows refs[a]).length j = some b := by rw [hl]; exact hj
      rw [pyGet_some hj']
      have hb := pyIdx_lt hj'
      simp [look, ha, List.getD_eq_getElem?_getD, hb]

theorem deref_set {rows : List (List α)} {r : Nat} (hr : r < rows.length) (x : List α) (q : Nat) :
    deref (rows.set r x) q = if q = r then x else deref rows q := by
  unfold deref
  simp only [List.getD_eq_getElem?_getD, List.getElem?_set]
  by_cases h : q = r
  · subst h; simp [hr]
  · rw [if_neg (fun e => h e.symm), if_neg h]

theorem WFa.set {rows : List (List α)} {refs refs' : List Nat} {n : Nat} (wf : WFa rows refs n) {r : Nat}
    (hr : r ∈ refs') (wf' : WFa rows refs' n) {x : List α} (hx : x.length = n) : WFa (rows.set r x) refs n := by
  refine ⟨wf.len, wf.nodup, fun q hq => by simpa using wf.lt q hq, fun q hq => ?_⟩
  rw [deref_set (wf'.lt _ hr)]
  split
  · exact hx
  · exact wf.rowLen q hq

theorem WFa.set_disjoint {rows : List (List α)} {refs refs' : List Nat} {n m : Nat} (wf : WFa rows refs n) {r : Nat}
    (hr : r ∈ refs') (wf' : WFa rows refs' m) {x : List α} (hd : refs.Disjoint refs') :
    WFa (rows.set r x) refs n := by
  refine ⟨wf.len, wf.nodup, fun q hq => by simpa using wf.lt q hq, fun q hq => ?_⟩
  rw [deref_set (wf'.lt _ hr), if_neg]
  · exact wf.rowLen q hq
  · rintro rfl; exact hd hq hr

/-- Effect of `refs[i][j] = v`. -/
theorem arrSet_eq {rows : List (List α)} {refs : List Nat} {n : Nat} (wf : WFa rows refs n) (d : α) (i j : Int) (v : α) :
    (∀ a b, pyIdx n i = some a → pyIdx n j = some b →
      ∃ rows', arrSet rows refs i j v = .ok rows' ∧ WFa rows' refs n ∧
        look rows' refs d = (fun c => if c = (a, b) then v else look rows refs d c) ∧
        ∀ refs' m, WFa rows refs' m → refs'.Disjoint refs →
          WFa rows' refs' m ∧ look rows' refs' d = look rows refs' d) ∧
    ((pyIdx n i = none ∨ pyIdx n j = none) → arrSet rows refs i j v = .error .IndexError) := by
  constructor
  · intro a b hi hj
    have hi' : pyIdx refs.length i = some a := by rw [wf.len]; exact hi
    have ha := pyIdx_lt hi'
    have hmem : refs[a] ∈ refs := List.getElem_mem ha
    have hl := wf.rowLen _ hmem
    have hj' : pyIdx (deref rows refs[a]).length j = some b := by rw [hl]; exact hj
    have hb := pyIdx_lt hj'
    refine ⟨_, by unfold arrSet; rw [pyGet_some hi']; simp only; rw [hj'], ?_, ?_, ?_⟩
    · exact wf.set hmem wf (by simpa using hl)
    · funext c
      obtain ⟨c1, c2⟩ := c
      unfold look
      simp only [Prod.mk.injEq]
      cases hc : refs[c1]? with
      | none =>
        rw [if_neg]
        rintro ⟨rfl, -⟩
        rw [List.getElem?_eq_getElem ha] at hc; cases hc
      | some r =>
        simp only
        rw [deref_set (wf.lt _ hmem)]
        have hr : r = refs[a] ↔ c1 = a := by
          obtain ⟨h1, h2⟩ := List.getElem?_eq_some_iff.1 hc
          rw [← h2]; exact wf.nodup.getElem_inj_iff
        by_cases h1 : c1 = a
        · subst h1
          have h2 := hr.2 rfl
          rw [if_pos h2, h2]
          simp only [true_and, List.getD_eq_getElem?_getD, List.getElem?_set]
          by_cases h3 : c2 = b
          · subst h3; simp [hb]
          · rw [if_neg (fun e => h3 e.symm), if_neg h3]
        · rw [if_neg (fun e => h1 (hr.1 e)), if_neg (fun e => h1 e.1)]
    · intro refs' m wf' hd
      refine ⟨wf'.set_disjoint hmem wf hd, ?_⟩
      funext c
      unfold look
      cases hc : refs'[c.1]? with
      | none => rfl
      | some r =>
        simp only
        rw [deref_set (wf.lt _ hmem), if_neg]
        rintro rfl
        exact hd (List.mem_of_getElem? hc) hmem
  · intro h
    unfold arrSet
    cases hi : pyIdx n i with
    | none => rw [pyGet_none (by rw [wf.len]; exact hi)]
    | some a =>
      have hj : pyIdx n j = none := by rcases h with h | h; · rw [hi] at h; cases h
                                       · exact h
      have hi' : pyIdx refs.length i = some a := by rw [wf.len]; exact hi
      have ha := pyIdx_lt hi'
      have hl := wf.rowLen _ (List.getElem_mem ha)
      rw [pyGet_some hi']
      simp only
      rw [hl, hj]

theorem deref_append_left {rows ex : List (List α)} {r : Nat} (h : r < rows.length) :
    deref (rows ++ ex) r = deref rows r := by
  unfold deref
  simp only [List.getD_eq_getElem?_getD]
  rw [List.getElem?_append_left h]

/-- Fresh rows. -/
theorem alloc_eq (rows : List (List α)) (d : α) (n : Nat) :
    WFa (rows ++ List.replicate n (List.replicate n d)) (List.range' rows.length n) n ∧
    look (rows ++ List.replicate n (List.replicate n d)) (List.range' rows.length n) d = (fun _ => d) ∧
    ∀ refs' m, WFa rows refs' m →
      WFa (rows ++ List.replicate n (List.replicate n d)) refs' m ∧
      look (rows ++ List.replicate n (List.replicate n d)) refs' d = look rows refs' d ∧
      refs'.Disjoint (List.range' rows.length n) := by
  have key : ∀ r ∈ List.range' rows.length n,
      deref (rows ++ List.replicate n (List.replicate n d)) r = List.replicate n d := by
    intro r hr
    rw [List.mem_range'_1] at hr
    unfold deref
    simp only [List.getD_eq_getElem?_getD]
    rw [List.getElem?_append_right hr.1, List.getElem?_replicate_of_lt (by omega)]
    rfl
  refine ⟨⟨by simp, List.nodup_range', ?_, ?_⟩, ?_, ?_⟩
  · intro r hr; rw [List.mem_range'_1] at hr; simp; omega
  · intro r hr; rw [key r hr]; simp
  · funext a
    unfold look
    cases h : (List.range' rows.length n)[a.1]? with
    | none => rfl
    | some r =>
      simp only
      rw [key r (List.mem_of_getElem? h), List.getD_eq_getElem?_getD, List.getElem?_replicate]
      split <;> rfl
  · intro refs' m wf'
    refine ⟨⟨wf'.len, wf'.nodup, fun r hr => ?_, fun r hr => ?_⟩, ?_, ?_⟩
    · have := wf'.lt r hr; simp; omega
    · rw [deref_append_left (wf'.lt r hr)]; exact wf'.rowLen r hr
    · funext a
      unfold look
      cases h : refs'[a.1]? with
      | none => rfl
      | some r =>
        simp only
        rw [deref_append_left (wf'.lt r (List.mem_of_getElem? h))]
    · intro r h1 h2
      rw [List.mem_range'_1] at h2
      have := wf'.lt r h1; omega

/-- Object `o` in heap `H` is a well-formed representation of the sudoku value `s`. -/
structure Rep (H : Heap) (o : Obj) (s : Sudoku) : Prop where
  bw : o.bw = s.bw
  bh : o.bh = s.bh
  wn : WFa H.nums o.numRows s.n
  wc : WFa H.cands o.candRows s.n
  num : look H.nums o.numRows 0 = s.num
  cand : look H.cands o.candRows ∅ = s.cand

/-- No shared rows. -/
def Sep (o o' : Obj) : Prop := o.numRows.Disjoint o'.numRows ∧ o.candRows.Disjoint o'.candRows

theorem Sep.symm {o o' : Obj} (h : Sep o o') : Sep o' o := ⟨h.1.symm, h.2.symm⟩

theorem init_eq (H : Heap) (bw bh : Nat) :
    Rep (init H bw bh).1 (init H bw bh).2 (Sudoku.new bw bh) ∧
    ∀ o s, Rep H o s → Rep (init H bw bh).1 o s ∧ Sep o (init H bw bh).2 := by
  obtain ⟨a1, a2, a3⟩ := alloc_eq H.nums 0 (bw * bh)
  obtain ⟨b1, b2, b3⟩ := alloc_eq H.cands ∅ (bw * bh)
  refine ⟨⟨rfl, rfl, a1, b1, a2, b2⟩, fun o s r => ?_⟩
  obtain ⟨c1, c2, c3⟩ := a3 _ _ r.wn
  obtain ⟨d1, d2, d3⟩ := b3 _ _ r.wc
  exact ⟨⟨r.bw, r.bh, c1, d1, c2.trans r.num, d2.trans r.cand⟩, c3, d3⟩

theorem getNumber_eq {H : Heap} {o : Obj} {s : Sudoku} (r : Rep H o s) (i j : Int) :
    getNumber H o i j = match pyIdx s.n i, pyIdx s.n j with
      | some a, some b => .ok (s.num (a, b))
      | _, _ => .error .IndexError := by
  unfold getNumber; rw [arrGet_eq r.wn 0, r.num]

theorem getCandidates_eq {H : Heap} {o : Obj} {s : Sudoku} (r : Rep H o s) (i j : Int) :
    getCandidates H o i j = match pyIdx s.n i, pyIdx s.n j with
      | some a, some b => .ok (s.cand (a, b))
      | _, _ => .error .IndexError := by
  unfold getCandidates; rw [arrGet_eq r.wc ∅, r.cand]

/-- What a write does: `f` on the sudoku value, or `IndexError`. -/
def WriteSpec (H : Heap) (o : Obj) (s : Sudoku) (i j : Int) (res : Except PyErr Heap) (f : Cell → Sudoku) : Prop :=
  (∀ a b, pyIdx s.n i = some a → pyIdx s.n j = some b → ∃ H', res = .ok H' ∧ Rep H' o (f (a, b)) ∧
    ∀ o' s', Rep H o' s' → Sep o' o → Rep H' o' s') ∧
  ((pyIdx s.n i = none ∨ pyIdx s.n j = none) → res = .error .IndexError)

theorem setNumber_spec {H : Heap} {o : Obj} {s : Sudoku} (r : Rep H o s) (i j v : Int) :
    WriteSpec H o s i j (setNumber H o i j v) (fun a => s.setNumber a v) := by
  obtain ⟨h1, h2⟩ := arrSet_eq r.wn 0 i j v
  refine ⟨fun a b hi hj => ?_, fun h => by unfold setNumber; rw [h2 h]⟩
  obtain ⟨rows', e, w, l, oth⟩ := h1 a b hi hj
  refine ⟨{ H with nums := rows' }, by unfold setNumber; rw [e], ?_, ?_⟩
  · exact ⟨r.bw, r.bh, w, r.wc, by rw [l, r.num]; rfl, r.cand⟩
  · intro o' s' r' hs
    obtain ⟨w', l'⟩ := oth _ _ r'.wn hs.1
    exact ⟨r'.bw, r'.bh, w', r'.wc, l'.trans r'.num, r'.cand⟩

theorem setCandidates_spec {H : Heap} {o : Obj} {s : Sudoku} (r : Rep H o s) (i j : Int) (v : Finset Int) :
    WriteSpec H o s i j (setCandidates H o i j v) (fun a => s.setCandidates a v) := by
  obtain ⟨h1, h2⟩ := arrSet_eq r.wc ∅ i j v
  refine ⟨fun a b hi hj => ?_, fun h => by unfold setCandidates; rw [h2 h]⟩
  obtain ⟨rows', e, w, l, oth⟩ := h1 a b hi hj
  refine ⟨{ H with cands := rows' }, by unfold setCandidates; rw [e], ?_, ?_⟩
  · exact ⟨r.bw, r.bh, r.wn, w, r.num, by rw [l, r.cand]; rfl⟩
  · intro o' s' r' hs
    obtain ⟨w', l'⟩ := oth _ _ r'.wc hs.2
    exact ⟨r'.bw, r'.bh, r'.wn, w', r'.num, l'.trans r'.cand⟩

theorem setCandidates_sdiff (s : Sudoku) (a : Cell) (v : Finset Int) :
    s.setCandidates a (s.cand a \ v) = s.removeCandidates a v := rfl

theorem removeCandidates_spec {H : Heap} {o : Obj} {s : Sudoku} (r : Rep H o s) (i j : Int) (v : Finset Int) :
    WriteSpec H o s i j (removeCandidates H o i j v) (fun a => s.removeCandidates a v) := by
  have hg := arrGet_eq r.wc ∅ i j
  rw [r.cand] at hg
  constructor
  · intro a b hi hj
    rw [hi, hj] at hg
    unfold removeCandidates
    rw [hg]
    exact (setCandidates_spec r i j _).1 a b hi hj
  · intro h
    have : arrGet H.cands o.candRows i j = .error .IndexError := by
      rw [hg]
      rcases h with h | h <;> rw [h]
      cases pyIdx s.n i <;> rfl
    unfold removeCandidates; rw [this]

@[simp] theorem setNumber_n (s : Sudoku) (a : Cell) (v : Int) : (s.setNumber a v).n = s.n := rfl
@[simp] theorem setCandidates_n (s : Sudoku) (a : Cell) (v : Finset Int) : (s.setCandidates a v).n = s.n := rfl

theorem copyNumbers_spec {o t : Obj} {s : Sudoku} (hs : Sep o t) (l : List Cell) :
    ∀ (H : Heap) (u : Sudoku), Rep H o s → Rep H t u → u.n = s.n → (∀ a ∈ l, a.1 < s.n ∧ a.2 < s.n) →
    ∃ H', copyNumbers o t l H = .ok H' ∧ Rep H' t (l.foldl (fun t a => t.setNumber a (s.get a)) u) ∧
      ∀ o' s', Rep H o' s' → Sep o' t → Rep H' o' s' := by
  induction l with
  | nil => intro H u _ ru _ _; exact ⟨H, rfl, ru, fun _ _ h _ => h⟩
  | cons a l ih =>
    intro H u rs ru hn hl
    obtain ⟨ha1, ha2⟩ := hl a (by simp)
    have hg := getNumber_eq rs a.1 a.2
    rw [pyIdx_nat ha1, pyIdx_nat ha2] at hg
    obtain ⟨H1, e1, r1, o1⟩ := (setNumber_spec ru a.1 a.2 (s.num a)).1 a.1 a.2
      (by rw [hn]; exact pyIdx_nat ha1) (by rw [hn]; exact pyIdx_nat ha2)
    obtain ⟨H2, e2, r2, o2⟩ := ih H1 _ (o1 _ _ rs hs) r1 (by simpa using hn) (fun b hb => hl b (by simp [hb]))
    refine ⟨H2, ?_, r2, fun o' s' h' h'' => o2 _ _ (o1 _ _ h' h'') h''⟩
    simp only [copyNumbers]
    rw [hg]; simp only
    rw [e1]; exact e2

theorem copyCandidates_spec {o t : Obj} {s : Sudoku} (hs : Sep o t) (l : List Cell) :
    ∀ (H : Heap) (u : Sudoku), Rep H o s → Rep H t u → u.n = s.n → (∀ a ∈ l, a.1 < s.n ∧ a.2 < s.n) →
    ∃ H', copyCandidates o t l H = .ok H' ∧
      Rep H' t (l.foldl (fun t a => t.setCandidates a (s.getCandidates a)) u) ∧
      ∀ o' s', Rep H o' s' → Sep o' t → Rep H' o' s' := by
  induction l with
  | nil => intro H u _ ru _ _; exact ⟨H, rfl, ru, fun _ _ h _ => h⟩
  | cons a l ih =>
    intro H u rs ru hn hl
    obtain ⟨ha1, ha2⟩ := hl a (by simp)
    have hg := getCandidates_eq rs a.1 a.2
    rw [pyIdx_nat ha1, pyIdx_nat ha2] at hg
    obtain ⟨H1, e1, r1, o1⟩ := (setCandidates_spec ru a.1 a.2 (s.cand a)).1 a.1 a.2
      (by rw [hn]; exact pyIdx_nat ha1) (by rw [hn]; exact pyIdx_nat ha2)
    obtain ⟨H2, e2, r2, o2⟩ := ih H1 _ (o1 _ _ rs hs) r1 (by simpa using hn) (fun b hb => hl b (by simp [hb]))
    refine ⟨H2, ?_, r2, fun o' s' h' h'' => o2 _ _ (o1 _ _ h' h'') h''⟩
    simp only [copyCandidates]
    rw [hg]; simp only
    rw [e1]; exact e2

theorem foldl_setNumber_n (l : List Cell) (f : Cell → Int) (u : Sudoku) :
    (l.foldl (fun t a => t.setNumber a (f a)) u).n = u.n := by
  induction l generalizing u with
  | nil => rfl
  | cons a l ih => simp [ih]

theorem copy_spec {H : Heap} {o : Obj} {s : Sudoku} (r : Rep H o s) (ic : Bool) :
    ∃ H' t, copy H o ic = .ok (H', t) ∧ Rep H' t (s.copy ic) ∧
      ∀ o' s', Rep H o' s' → Rep H' o' s' ∧ Sep o' t := by
  obtain ⟨i1, i2⟩ := init_eq H o.bw o.bh
  have hcells : cells o = s.cells := by
    unfold cells Sudoku.cells Sudoku.indices Sudoku.n; rw [r.bw, r.bh]
  have hl : ∀ a ∈ cells o, a.1 < s.n ∧ a.2 < s.n := by
    intro a ha; rw [hcells] at ha; exact (Sudoku.mem_cells s).1 ha
  have hnew : Sudoku.new o.bw o.bh = Sudoku.new s.bw s.bh := by rw [r.bw, r.bh]
  rw [hnew] at i1
  obtain ⟨ro, so⟩ := i2 o s r
  obtain ⟨H1, e1, r1, o1⟩ := copyNumbers_spec so (cells o) _ _ ro i1 rfl hl
  cases ic with
  | false =>
    refine ⟨H1, (init H o.bw o.bh).2, ?_, ?_, fun o' s' h' => ?_⟩
    · unfold copy
      simp only [e1, Bool.false_eq_true, if_false]
    · rw [hcells] at r1; exact r1
    · obtain ⟨h1, h2⟩ := i2 o' s' h'
      exact ⟨o1 _ _ h1 h2, h2⟩
  | true =>
    obtain ⟨H2, e2, r2, o2⟩ := copyCandidates_spec so (cells o) _ _ (o1 _ _ ro so) r1
      (by rw [foldl_setNumber_n]; rfl) hl
    refine ⟨H2, (init H o.bw o.bh).2, ?_, ?_, fun o' s' h' => ?_⟩
    · unfold copy
      simp only [e1, e2, if_true]
    · rw [hcells] at r2; exact r2
    · obtain ⟨h1, h2⟩ := i2 o' s' h'
      exact ⟨o2 _ _ (o1 _ _ h1 h2) h2, h2⟩

/-- Programs on sudoku values: no references. -/
def vwrite (ss : List Sudoku) (k : Nat) (i j : Int) (f : Sudoku → Cell → Sudoku) : List Sudoku × Except PyErr Unit :=
  match ss[k]? with
  | none => (ss, .ok ())
  | some s => match pyIdx s.n i, pyIdx s.n j with
    | some a, some b => (ss.set k (f s (a, b)), .ok ())
    | _, _ => (ss, .error .IndexError)

def vexec (ss : List Sudoku) : Cmd → List Sudoku × Except PyErr Unit
  | .new bw bh => (ss ++ [Sudoku.new bw bh], .ok ())
  | .copy k ic => match ss[k]? with
    | none => (ss, .ok ())
    | some s => (ss ++ [s.copy ic], .ok ())
  | .setNumber k i j v => vwrite ss k i j fun s a => s.setNumber a v
  | .setCandidates k i j v => vwrite ss k i j fun s a => s.setCandidates a v.toFinset
  | .removeCandidates k i j v => vwrite ss k i j fun s a => s.removeCandidates a v.toFinset

def vrun (ss : List Sudoku) : List Cmd → List Sudoku × List (Except PyErr Unit)
  | [] => (ss, [])
  | c :: cs => let (ss', r) := vexec ss c; let (ss'', rs) := vrun ss' cs; (ss'', r :: rs)

/-- The heap state represents the list of sudoku values. -/
structure Sim (σ : State) (ss : List Sudoku) : Prop where
  len : σ.objs.length = ss.length
  rep : ∀ (k : Nat) o s, σ.objs[k]? = some o → ss[k]? = some s → Rep σ.heap o s
  sep : ∀ (k l : Nat) o o', σ.objs[k]? = some o → σ.objs[l]? = some o' → k ≠ l → Sep o o'

theorem Sim.get {σ : State} {ss : List Sudoku} (h : Sim σ ss) {k : Nat} {o : Obj} (ho : σ.objs[k]? = some o) :
    ∃ s, ss[k]? = some s ∧ Rep σ.heap o s := by
  have hk : k < ss.length := by rw [← h.len]; exact (List.getElem?_eq_some_iff.1 ho).1
  exact ⟨_, List.getElem?_eq_getElem hk, h.rep k o _ ho (List.getElem?_eq_getElem hk)⟩

theorem Sim.getNone {σ : State} {ss : List Sudoku} (h : Sim σ ss) {k : Nat} (ho : σ.objs[k]? = none) :
    ss[k]? = none := by
  rw [List.getElem?_eq_none_iff] at *; rw [← h.len]; exact ho

/-- Adding an object. -/
theorem Sim.add {σ : State} {ss : List Sudoku} (h : Sim σ ss) {H : Heap} {t : Obj} {u : Sudoku} (rt : Rep H t u)
    (oth : ∀ o s, Rep σ.heap o s → Rep H o s ∧ Sep o t) : Sim ⟨H, σ.objs ++ [t]⟩ (ss ++ [u]) := by
  have cases_k : ∀ k o, (σ.objs ++ [t])[k]? = some o →
      (k < σ.objs.length ∧ σ.objs[k]? = some o) ∨ (k = σ.objs.length ∧ o = t) := by
    intro k o hk
    rw [List.getElem?_append] at hk
    split at hk
    · left; exact ⟨by assumption, hk⟩
    · right
      rw [List.getElem?_singleton] at hk
      split at hk
      · simp only [Option.some.injEq] at hk; exact ⟨by omega, hk.symm⟩
      · cases hk
  refine ⟨by simp [h.len], ?_, ?_⟩
  · intro k o s hk hs
    rcases cases_k k o hk with ⟨hlt, hk⟩ | ⟨rfl, rfl⟩
    · rw [List.getElem?_append_left (by rw [← h.len]; exact hlt)] at hs
      exact (oth o s (h.rep k o s hk hs)).1
    · rw [h.len] at hs
      simp at hs; subst hs; exact rt
  · intro k l o o' hk hl hkl
    rcases cases_k k o hk with ⟨hlt, hk1⟩ | ⟨hk1, hk2⟩ <;> rcases cases_k l o' hl with ⟨hlt', hl1⟩ | ⟨hl1, hl2⟩
    · exact h.sep k l o o' hk1 hl1 hkl
    · obtain ⟨s, _, rs⟩ := h.get hk1
      rw [hl2]; exact (oth o s rs).2
    · obtain ⟨s, _, rs⟩ := h.get hl1
      rw [hk2]; exact (oth o' s rs).2.symm
    · exact absurd (hk1.trans hl1.symm) hkl

theorem Sim.write {σ : State} {ss : List Sudoku} (h : Sim σ ss) (k : Nat) (i j : Int) (f : Sudoku → Cell → Sudoku)
    (g : Obj → Except PyErr Heap) (hg : ∀ o s, Rep σ.heap o s → WriteSpec σ.heap o s i j (g o) (f s)) :
    Sim (σ.write k g).1 (vwrite ss k i j f).1 ∧ (σ.write k g).2 = (vwrite ss k i j f).2 := by
  unfold State.write vwrite
  cases ho : σ.objs[k]? with
  | none => rw [h.getNone ho]; exact ⟨h, rfl⟩
  | some o =>
    obtain ⟨s, hs, rs⟩ := h.get ho
    obtain ⟨w1, w2⟩ := hg o s rs
    rw [hs]
    dsimp only
    cases hi : pyIdx s.n i with
    | none => rw [w2 (Or.inl hi)]; exact ⟨h, rfl⟩
    | some a => cases hj : pyIdx s.n j with
      | none => rw [w2 (Or.inr hj)]; exact ⟨h, rfl⟩
      | some b =>
        obtain ⟨H', e, r', oth⟩ := w1 a b hi hj
        rw [e]
        refine ⟨?_, rfl⟩
        refine ⟨by simp [h.len], ?_, h.sep⟩
        intro l o' s' hl hl'
        have hkl : k < ss.length := (List.getElem?_eq_some_iff.1 hs).1
        rw [List.getElem?_set] at hl'
        by_cases hlk : k = l
        · subst hlk
          rw [if_pos rfl, if_pos hkl] at hl'
          simp only [Option.some.injEq] at hl'; subst hl'
          rw [ho] at hl; simp only [Option.some.injEq] at hl; subst hl
          exact r'
        · rw [if_neg hlk] at hl'
          exact oth _ _ (h.rep l o' s' hl hl') (h.sep l k o' o hl ho (fun e => hlk e.symm))

theorem Sim.exec {σ : State} {ss : List Sudoku} (h : Sim σ ss) (c : Cmd) :
    Sim (exec σ c).1 (vexec ss c).1 ∧ (exec σ c).2 = (vexec ss c).2 := by
  cases c with
  | new bw bh => exact ⟨h.add (init_eq _ _ _).1 (init_eq _ _ _).2, rfl⟩
  | copy k ic =>
    unfold Store.exec vexec
    cases ho : σ.objs[k]? with
    | none => simp only [ho, h.getNone ho]; exact ⟨h, trivial⟩
    | some o =>
      obtain ⟨s, hs, rs⟩ := h.get ho
      obtain ⟨H', t, e, rt, oth⟩ := copy_spec rs ic
      simp only [ho, hs, e, and_true]
      exact h.add rt oth
  | setNumber k i j v => exact h.write k i j _ _ fun o s r => setNumber_spec r i j v
  | setCandidates k i j v => exact h.write k i j _ _ fun o s r => setCandidates_spec r i j _
  | removeCandidates k i j v => exact h.write k i j _ _ fun o s r => removeCandidates_spec r i j _

theorem Sim.run {cs : List Cmd} : ∀ {σ : State} {ss : List Sudoku}, Sim σ ss →
    Sim (Store.run σ cs).1 (vrun ss cs).1 ∧ (Store.run σ cs).2 = (vrun ss cs).2 := by
  induction cs with
  | nil => intro σ ss h; exact ⟨h, rfl⟩
  | cons c cs ih =>
    intro σ ss h
    obtain ⟨h1, h2⟩ := h.exec c
    obtain ⟨h3, h4⟩ := ih h1
    exact ⟨h3, by simp only [Store.run, vrun]; rw [h2, h4]⟩

theorem Sim.start : Sim State.start [] := ⟨rfl, by simp [State.start], by simp [State.start]⟩

/-- Reachable states represent some values. -/
theorem reach (P : List Cmd) : ∃ ss, Sim (Store.run State.start P).1 ss := ⟨_, Sim.start.run.1⟩

theorem run_append (P Q : List Cmd) : ∀ σ, (Store.run σ (P ++ Q)).1 = (Store.run (Store.run σ P).1 Q).1 := by
  induction P with
  | nil => intro σ; rfl
  | cons c P ih => intro σ; simp only [List.cons_append, Store.run]; exact ih _

end Store

namespace Sudoku

theorem foldl_setNumber (l : List Cell) (f : Cell → Int) (u : Sudoku) :
    l.foldl (fun t a => t.setNumber a (f a)) u = { u with num := fun a => if a ∈ l then f a else u.num a } := by
  induction l generalizing u with
  | nil => simp
  | cons a l ih =>
    rw [List.foldl_cons, ih]
    ext1 <;> simp [setNumber]
    funext b
    by_cases hb : b ∈ l <;> by_cases h : b = a <;> simp [hb, h]

theorem foldl_setCandidates (l : List Cell) (f : Cell → Finset Int) (u : Sudoku) :
    l.foldl (fun t a => t.setCandidates a (f a)) u = { u with cand := fun a => if a ∈ l then f a else u.cand a } := by
  induction l generalizing u with
  | nil => simp
  | cons a l ih =>
    rw [List.foldl_cons, ih]
    ext1 <;> simp [setCandidates]
    funext b
    by_cases hb : b ∈ l <;> by_cases h : b = a <;> simp [hb, h]

theorem copy_eq (s : Sudoku) (ic : Bool) :
    s.copy ic = { bw := s.bw, bh := s.bh, num := fun a => if InGrid s.bw s.bh a then s.num a else 0,
                  cand := fun a => if ic = true ∧ InGrid s.bw s.bh a then s.cand a else ∅ } := by
  unfold copy
  simp only [foldl_setNumber, foldl_setCandidates, mem_cells, Sudoku.get, Sudoku.getCandidates]
  cases ic <;> simp [Sudoku.new]

end Sudoku
