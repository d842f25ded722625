import Verif.Proofs.Generators
import Verif.Props.Store

set_option autoImplicit false

/-! # Helper lemmas for C99: generators on objects, interleaved with a program -/

open Spec Store

namespace Generators

variable {α : Type}

/-- The program never writes to object `k` between two calls of `next`. -/
def Unwritten (user : Consumer) (k : Nat) : Prop := ∀ W cmds, user W = some cmds → ∀ c ∈ cmds, ¬ Props.Writes k c

theorem vexec_length (ss : List Sudoku) (c : Cmd) : ss.length ≤ (vexec ss c).1.length := by
  have wr : ∀ k i j f, ss.length ≤ (vwrite ss k i j f).1.length := by
    intro k i j f
    unfold vwrite
    cases ss[k]? with
    | none => exact Nat.le_refl _
    | some t =>
      dsimp only
      cases pyIdx t.n i with
      | none => exact Nat.le_refl _
      | some a => cases pyIdx t.n j with
        | none => exact Nat.le_refl _
        | some b => simp
  cases c with
  | new bw bh => simp [vexec]
  | copy k ic =>
    simp only [vexec]
    cases ss[k]? with
    | none => exact Nat.le_refl _
    | some t => simp
  | setNumber k i j v => exact wr _ _ _ _
  | setCandidates k i j v => exact wr _ _ _ _
  | removeCandidates k i j v => exact wr _ _ _ _

theorem vrun_length (Q : List Cmd) : ∀ ss : List Sudoku, ss.length ≤ (vrun ss Q).1.length := by
  induction Q with
  | nil => intro ss; exact Nat.le_refl _
  | cons c Q ih => intro ss; exact (vexec_length ss c).trans (ih _)

/-- A represented sudoku is 0 and without candidates outside of the grid. -/
theorem rep_outside {H : Heap} {o : Obj} {s : Sudoku} (r : Rep H o s) {a : Cell} (ha : ¬ (a.1 < s.n ∧ a.2 < s.n)) : s.num a = 0 ∧ s.cand a = ∅ := by
  rw [← r.num, ← r.cand]
  unfold look
  constructor
  · cases h : o.numRows[a.1]? with
    | none => rfl
    | some x =>
      have h1 : a.1 < s.n := by rw [← r.wn.len]; exact (List.getElem?_eq_some_iff.1 h).1
      have h2 := r.wn.rowLen x (List.mem_of_getElem? h)
      simp only
      rw [List.getD_eq_getElem?_getD, List.getElem?_eq_none (by rw [h2]; omega)]
      rfl
  · cases h : o.candRows[a.1]? with
    | none => rfl
    | some x =>
      have h1 : a.1 < s.n := by rw [← r.wc.len]; exact (List.getElem?_eq_some_iff.1 h).1
      have h2 := r.wc.rowLen x (List.mem_of_getElem? h)
      simp only
      rw [List.getD_eq_getElem?_getD, List.getElem?_eq_none (by rw [h2]; omega)]
      rfl

theorem contents_eq {H : Heap} {o : Obj} {s : Sudoku} (r : Rep H o s) : contents H o = s := by
  unfold contents
  ext1
  · exact r.bw
  · exact r.bh
  · funext a
    simp only [getNumber_eq r]
    by_cases ha : a.1 < s.n ∧ a.2 < s.n
    · rw [pyIdx_nat ha.1, pyIdx_nat ha.2]
    · rw [(rep_outside r ha).1]
      by_cases h1 : a.1 < s.n
      · have h2 : pyIdx s.n (a.2 : Int) = none := by rw [pyIdx_none]; omega
        rw [h2, pyIdx_nat h1]
      · have h2 : pyIdx s.n (a.1 : Int) = none := by rw [pyIdx_none]; omega
        rw [h2]
  · funext a
    simp only [getCandidates_eq r]
    by_cases ha : a.1 < s.n ∧ a.2 < s.n
    · rw [pyIdx_nat ha.1, pyIdx_nat ha.2]
    · rw [(rep_outside r ha).2]
      by_cases h1 : a.1 < s.n
      · have h2 : pyIdx s.n (a.2 : Int) = none := by rw [pyIdx_none]; omega
        rw [h2, pyIdx_nat h1]
      · have h2 : pyIdx s.n (a.1 : Int) = none := by rw [pyIdx_none]; omega
        rw [h2]

/-- How the run on objects ended, in terms of the run on values. -/
def Ended (i : Nat) (v : List Sudoku × Except PyErr (α × Sudoku)) (ys : List (Nat × Sudoku)) (ss' : List Sudoku) : Except Stop α → Prop
  | .ok x => ∃ s', v = (ys.map Prod.snd, .ok (x, s')) ∧ ss'[i]? = some s'
  | .error (.raised e) => v = (ys.map Prod.snd, .error e)
  | .error .abandoned => ys ≠ [] ∧ ys.map Prod.snd <+: v.1

/-- The run on objects. -/
structure Result (user : Consumer) (i : Nat) (v : List Sudoku × Except PyErr (α × Sudoku)) (W : World) (ss : List Sudoku)
    (r : World × Except Stop α) (ss' : List Sudoku) (ys : List (Nat × Sudoku)) : Prop where
  sim : Sim r.1.state ss'
  yielded : r.1.yielded = W.yielded ++ ys
  fresh : ∀ q ∈ ys, ss.length ≤ q.1 ∧ q.1 < ss'.length
  sorted : (ys.map Prod.fst).Pairwise (· < ·)
  keeps : ∀ k t, k ≠ i → Unwritten user k → ss[k]? = some t → ss'[k]? = some t
  kept : ∀ q ∈ ys, Unwritten user q.1 → ss'[q.1]? = some q.2
  silent : v.1 = [] → ∀ k, k ≠ i → ss'[k]? = ss[k]?
  length : ss.length ≤ ss'.length
  ended : Ended i v ys ss' r.2

variable {user : Consumer} {i : Nat}

/-- Indices of a field in the grid. -/
theorem pyIdx_inGrid {s : Sudoku} {a : Cell} (ha : InGrid s.bw s.bh a) : pyIdx s.n (a.1 : Int) = some a.1 ∧ pyIdx s.n (a.2 : Int) = some a.2 :=
  ⟨pyIdx_nat ha.1, pyIdx_nat ha.2⟩

theorem pyIdx_outside {s : Sudoku} {a : Cell} (ha : ¬ InGrid s.bw s.bh a) : pyIdx s.n (a.1 : Int) = none ∨ pyIdx s.n (a.2 : Int) = none := by
  rw [pyIdx_none, pyIdx_none]
  have : ¬ (a.1 < s.n ∧ a.2 < s.n) := ha
  omega

theorem Result.write {v : List Sudoku × Except PyErr (α × Sudoku)} {W : World} {ss : List Sudoku} {s : Sudoku} {a : Cell} (f : Sudoku → Cell → Sudoku)
    (g : Obj → Except PyErr Heap) (hg : ∀ o s, Rep W.state.heap o s → WriteSpec W.state.heap o s a.1 a.2 (g o) (f s))
    (hsim : Sim W.state ss) (hs : ss[i]? = some s) (next : World → World × Except Stop α) (nextV : Sudoku → List Sudoku × Except PyErr (α × Sudoku))
    (hv : v = if InGrid s.bw s.bh a then nextV (f s a) else ([], .error .IndexError))
    (hn : InGrid s.bw s.bh a → ∀ W' : World, W'.yielded = W.yielded → Sim W'.state (ss.set i (f s a)) →
      ∃ ss' ys, Result user i (nextV (f s a)) W' (ss.set i (f s a)) (next W') ss' ys) :
    ∃ ss' ys, Result user i v W ss (writing i W g next) ss' ys := by
  have hi : i < ss.length := (List.getElem?_eq_some_iff.1 hs).1
  obtain ⟨o, ho⟩ : ∃ o, W.state.objs[i]? = some o := ⟨_, List.getElem?_eq_getElem (by rw [hsim.len]; exact hi)⟩
  have r := hsim.rep i o s ho hs
  have hw := hsim.write i a.1 a.2 f g hg
  unfold State.write vwrite at hw
  rw [ho, hs] at hw
  dsimp only at hw
  unfold writing
  rw [ho]
  dsimp only
  by_cases ha : InGrid s.bw s.bh a
  · rw [if_pos ha] at hv
    obtain ⟨e1, e2⟩ := pyIdx_inGrid ha
    rw [e1, e2] at hw
    dsimp only at hw
    cases hgo : g o with
    | error e => rw [hgo] at hw; cases hw.2
    | ok H =>
      rw [hgo] at hw
      obtain ⟨ss', ys, h⟩ := hn ha { W with state := { W.state with heap := H } } rfl hw.1
      have other : ∀ k, k ≠ i → (ss.set i (f s a))[k]? = ss[k]? := fun k hk => by
        rw [List.getElem?_set, if_neg fun e => hk e.symm]
      subst hv
      refine ⟨ss', ys, h.sim, h.yielded, ?_, h.sorted, ?_, h.kept, ?_, ?_, h.ended⟩
      · intro q hq; have := h.fresh q hq; rw [List.length_set] at this; exact this
      · intro k t hk hu ht; exact h.keeps k t hk hu (by rw [other k hk]; exact ht)
      · intro hv k hk; rw [h.silent hv k hk, other k hk]
      · have := h.length; rw [List.length_set] at this; exact this
  · rw [if_neg ha] at hv
    have he := (hg o s r).2 (pyIdx_outside ha)
    rw [he]
    subst hv
    exact ⟨ss, [], hsim, by simp, by simp, by simp, fun k t _ _ h => h, by simp, fun _ _ _ => rfl, Nat.le_refl _, rfl⟩

theorem Result.read {β : Type} {v : List Sudoku × Except PyErr (α × Sudoku)} {W : World} {ss : List Sudoku} {s : Sudoku} {a : Cell}
    (f : Sudoku → Cell → β) (g : Obj → Except PyErr β)
    (hg : ∀ o s, Rep W.state.heap o s → g o = match pyIdx s.n a.1, pyIdx s.n a.2 with | some a, some b => .ok (f s (a, b)) | _, _ => .error .IndexError)
    (hsim : Sim W.state ss) (hs : ss[i]? = some s) (next : β → World × Except Stop α) (nextV : β → List Sudoku × Except PyErr (α × Sudoku))
    (hv : v = if InGrid s.bw s.bh a then nextV (f s a) else ([], .error .IndexError))
    (hn : InGrid s.bw s.bh a → ∃ ss' ys, Result user i (nextV (f s a)) W ss (next (f s a)) ss' ys) :
    ∃ ss' ys, Result user i v W ss (reading i W g next) ss' ys := by
  have hi : i < ss.length := (List.getElem?_eq_some_iff.1 hs).1
  obtain ⟨o, ho⟩ : ∃ o, W.state.objs[i]? = some o := ⟨_, List.getElem?_eq_getElem (by rw [hsim.len]; exact hi)⟩
  have r := hsim.rep i o s ho hs
  have hw := hg o s r
  unfold reading
  rw [ho]
  dsimp only
  by_cases ha : InGrid s.bw s.bh a
  · rw [if_pos ha] at hv
    obtain ⟨e1, e2⟩ := pyIdx_inGrid ha
    rw [e1, e2] at hw
    dsimp only at hw
    rw [hw, hv]
    exact hn ha
  · rw [if_neg ha] at hv
    have he : g o = .error .IndexError := by
      rw [hw]
      rcases pyIdx_outside ha with h | h <;> rw [h]
      cases pyIdx s.n (a.1 : Int) <;> rfl
    rw [he, hv]
    exact ⟨ss, [], hsim, by simp, by simp, by simp, fun k t _ _ h => h, by simp, fun _ _ _ => rfl, Nat.le_refl _, rfl⟩

theorem copy_copy (s : Sudoku) : s.copy.copy true = s.copy := by
  rw [Sudoku.copy_eq, Sudoku.copy_eq]
  ext1
  · rfl
  · rfl
  · funext a; simp only; split <;> rfl
  · funext a; simp

/-- **Main lemma** Whatever the program does to other objects, the generator does what it does on values. -/
theorem runOn_spec (p : Prog α) : ∀ (W : World) (ss : List Sudoku) (s : Sudoku), Sim W.state ss → ss[i]? = some s →
    ((runV p s).1 ≠ [] → Unwritten user i) → ∃ ss' ys, Result user i (runV p s) W ss (runOn user i p W) ss' ys := by
  induction p with
  | pure x =>
    intro W ss s hsim hs _
    exact ⟨ss, [], hsim, by simp [runOn], by simp, by simp, fun k t _ _ h => h, by simp, fun _ _ _ => rfl, Nat.le_refl _, s, rfl, hs⟩
  | fail e =>
    intro W ss s hsim hs _
    exact ⟨ss, [], hsim, by simp [runOn], by simp, by simp, fun k t _ _ h => h, by simp, fun _ _ _ => rfl, Nat.le_refl _, rfl⟩
  | get a k ih =>
    intro W ss s hsim hs hu
    refine Result.read (fun s a => s.num a) _ (fun o s r => getNumber_eq r _ _) hsim hs _ (fun v => runV (k v) s) rfl fun ha => ?_
    simp only [runV, if_pos ha] at hu
    exact ih _ W ss s hsim hs hu
  | getCandidates a k ih =>
    intro W ss s hsim hs hu
    refine Result.read (fun s a => s.cand a) _ (fun o s r => getCandidates_eq r _ _) hsim hs _ (fun v => runV (k v) s) rfl fun ha => ?_
    simp only [runV, if_pos ha] at hu
    exact ih _ W ss s hsim hs hu
  | set a v k ih =>
    intro W ss s hsim hs hu
    refine Result.write (fun s a => s.setNumber a v) _ (fun o s r => setNumber_spec r _ _ _) hsim hs _ (runV k) rfl fun ha W' hW' hsim' => ?_
    simp only [runV, if_pos ha] at hu
    exact ih W' _ _ hsim' (by rw [List.getElem?_set_self]; exact (List.getElem?_eq_some_iff.1 hs).1) hu
  | setCandidates a v k ih =>
    intro W ss s hsim hs hu
    refine Result.write (fun s a => s.setCandidates a v) _ (fun o s r => setCandidates_spec r _ _ _) hsim hs _ (runV k) rfl fun ha W' hW' hsim' => ?_
    simp only [runV, if_pos ha] at hu
    exact ih W' _ _ hsim' (by rw [List.getElem?_set_self]; exact (List.getElem?_eq_some_iff.1 hs).1) hu
  | removeCandidates a v k ih =>
    intro W ss s hsim hs hu
    refine Result.write (fun s a => s.removeCandidates a v) _ (fun o s r => removeCandidates_spec r _ _ _) hsim hs _ (runV k) rfl fun ha W' hW' hsim' => ?_
    simp only [runV, if_pos ha] at hu
    exact ih W' _ _ hsim' (by rw [List.getElem?_set_self]; exact (List.getElem?_eq_some_iff.1 hs).1) hu
  | yield k ih =>
    intro W ss s hsim hs hu
    have hu : Unwritten user i := hu (by simp [runV])
    have hi : i < ss.length := (List.getElem?_eq_some_iff.1 hs).1
    obtain ⟨o, ho⟩ : ∃ o, W.state.objs[i]? = some o := ⟨_, List.getElem?_eq_getElem (by rw [hsim.len]; exact hi)⟩
    have r := hsim.rep i o s ho hs
    obtain ⟨H, t, ec, rt, oth⟩ := copy_spec r false
    have hsim1 := hsim.add rt oth
    have hlen : W.state.objs.length = ss.length := hsim.len
    have hone : (ss ++ [s.copy])[ss.length]? = some s.copy := by simp
    have hold : ∀ k t, ss[k]? = some t → (ss ++ [s.copy])[k]? = some t := fun k t h => by
      rw [List.getElem?_append_left (List.getElem?_eq_some_iff.1 h).1]; exact h
    simp only [runOn, reading]
    rw [ho]
    dsimp only
    rw [ec]
    dsimp only
    rw [contents_eq rt, hlen]
    cases hw : user ⟨⟨H, W.state.objs ++ [t]⟩, W.yielded ++ [(ss.length, s.copy)]⟩ with
    | none =>
      refine ⟨ss ++ [s.copy], [(ss.length, s.copy)], hsim1, rfl, ?_, by simp, fun k t _ _ h => hold k t h, ?_, ?_, by simp, by simp, ?_⟩
      · intro q hq; rw [List.mem_singleton] at hq; rw [hq]; simp
      · intro q hq _; rw [List.mem_singleton] at hq; rw [hq]; exact hone
      · intro h; simp [runV] at h
      · simp [runV]
    | some cmds =>
      have hsim2 := (hsim1.run (cs := cmds)).1
      have hk2 : ∀ k t, Unwritten user k → (ss ++ [s.copy])[k]? = some t → (vrun (ss ++ [s.copy]) cmds).1[k]? = some t :=
        fun k t h ht => Props.vrun_keeps cmds ht (h _ _ hw)
      have hl2 : ss.length + 1 ≤ (vrun (ss ++ [s.copy]) cmds).1.length := by
        have := vrun_length cmds (ss ++ [s.copy]); simpa using this
      obtain ⟨ss', ys, h⟩ := ih ⟨(run ⟨H, W.state.objs ++ [t]⟩ cmds).1, W.yielded ++ [(ss.length, s.copy)]⟩ _ s hsim2
        (hk2 i s hu (hold i s hs)) (fun _ => hu)
      refine ⟨ss', (ss.length, s.copy) :: ys, h.sim, ?_, ?_, ?_, ?_, ?_, ?_, ?_, ?_⟩
      · rw [h.yielded]; simp
      · intro q hq
        rcases List.mem_cons.1 hq with rfl | hq
        · have := h.length; simp only; omega
        · have := h.fresh q hq; omega
      · rw [List.map_cons, List.pairwise_cons]
        refine ⟨?_, h.sorted⟩
        intro x hx
        obtain ⟨q, hq, rfl⟩ := List.mem_map.1 hx
        have := h.fresh q hq
        simp only; omega
      · intro k t hk hu' ht; exact h.keeps k t hk hu' (hk2 k t hu' (hold k t ht))
      · intro q hq hu'
        rcases List.mem_cons.1 hq with rfl | hq
        · exact h.keeps _ _ (by simp only; omega) hu' (hk2 _ _ hu' hone)
        · exact h.kept q hq hu'
      · intro hv; simp [runV] at hv
      · have := h.length; omega
      · have he := h.ended
        revert he
        simp only [runV]
        cases (runOn user i k ⟨(run ⟨H, W.state.objs ++ [t]⟩ cmds).1, W.yielded ++ [(ss.length, s.copy)]⟩).2 with
        | ok x =>
          rintro ⟨s', e, h'⟩
          exact ⟨s', by simp only [List.map_cons, e], h'⟩
        | error e => cases e with
          | abandoned =>
            rintro ⟨-, e⟩
            refine ⟨by simp, ?_⟩
            rw [List.map_cons]
            exact (List.prefix_cons_inj _).2 e
          | raised e =>
            intro h'
            have h' : runV k s = (ys.map Prod.snd, .error e) := h'
            show _ = _
            simp only [List.map_cons, h']

/-- `onCopy`: the copy gets the next name. -/
theorem onCopy_spec (p : Prog α) {k : Nat} (W : World) (ss : List Sudoku) (s : Sudoku) (hsim : Sim W.state ss) (hs : ss[k]? = some s)
    (hu : Unwritten user ss.length) : ∃ ss' ys, Result user ss.length (runV p s.copy) W (ss ++ [s.copy]) (onCopy user k p W) ss' ys := by
  have hi : k < ss.length := (List.getElem?_eq_some_iff.1 hs).1
  obtain ⟨o, ho⟩ : ∃ o, W.state.objs[k]? = some o := ⟨_, List.getElem?_eq_getElem (by rw [hsim.len]; exact hi)⟩
  have r := hsim.rep k o s ho hs
  obtain ⟨H, t, ec, rt, oth⟩ := copy_spec r false
  have hsim1 := hsim.add rt oth
  unfold onCopy reading
  rw [ho]
  dsimp only
  rw [ec]
  dsimp only
  rw [hsim.len]
  obtain ⟨ss', ys, h⟩ := runOn_spec (user := user) (i := ss.length) p { W with state := ⟨H, W.state.objs ++ [t]⟩ } _ s.copy hsim1 (by simp) (fun _ => hu)
  exact ⟨ss', ys, h.sim, h.yielded, h.fresh, h.sorted, h.keeps, h.kept, h.silent, h.length, h.ended⟩

/-- A loop that is never left. -/
theorem runOn_stays (hstay : ∀ W, user W ≠ none) (p : Prog α) : ∀ W, (runOn user i p W).2 ≠ .error .abandoned := by
  have wr : ∀ (W : World) (g : Obj → Except PyErr Heap) (next : World → World × Except Stop α), (∀ W, (next W).2 ≠ .error .abandoned) →
      (writing i W g next).2 ≠ .error .abandoned := by
    intro W g next h
    unfold writing
    cases W.state.objs[i]? with
    | none => simp
    | some o =>
      dsimp only
      cases g o with
      | error e => simp
      | ok H => exact h _
  have rd : ∀ {β : Type} (W : World) (g : Obj → Except PyErr β) (next : β → World × Except Stop α), (∀ x, (next x).2 ≠ .error .abandoned) →
      (reading i W g next).2 ≠ .error .abandoned := by
    intro β W g next h
    unfold reading
    cases W.state.objs[i]? with
    | none => simp
    | some o =>
      dsimp only
      cases g o with
      | error e => simp
      | ok H => exact h _
  induction p with
  | pure x => intro W; simp [runOn]
  | fail e => intro W; simp [runOn]
  | get a k ih => intro W; exact rd _ _ _ fun x => ih x W
  | getCandidates a k ih => intro W; exact rd _ _ _ fun x => ih x W
  | set a v k ih => intro W; exact wr _ _ _ fun W => ih W
  | setCandidates a v k ih => intro W; exact wr _ _ _ fun W => ih W
  | removeCandidates a v k ih => intro W; exact wr _ _ _ fun W => ih W
  | yield k ih =>
    intro W
    refine rd _ _ _ fun p => ?_
    dsimp only
    cases h : user ⟨⟨p.1, W.state.objs ++ [p.2]⟩, W.yielded ++ [(W.state.objs.length, contents p.1 p.2)]⟩ with
    | none => exact absurd h (hstay _)
    | some cmds => exact ih _

theorem onCopy_stays (hstay : ∀ W, user W ≠ none) (k : Nat) (p : Prog α) (W : World) : (onCopy user k p W).2 ≠ .error .abandoned := by
  unfold onCopy reading
  cases W.state.objs[k]? with
  | none => simp
  | some o =>
    dsimp only
    cases Store.copy W.state.heap o false with
    | error e => simp
    | ok q => exact runOn_stays hstay _ _

theorem bruteforce_stays (hstay : ∀ W, user W ≠ none) (w h : Nat) (π : Solve.SetOrder) (fuel k : Nat) (W : World) :
    (bruteforce w h π fuel user k W).2 ≠ .error .abandoned := by
  have hc := runOn_stays (i := k) hstay (hasConflict w h (Sudoku.new w h).cells) W
  unfold bruteforce
  generalize runOn user k (hasConflict w h (Sudoku.new w h).cells) W = r at hc
  obtain ⟨W1, x⟩ := r
  cases x with
  | error e =>
    intro h
    have h : (Except.error e : Except Stop Unit) = .error .abandoned := h
    injection h with h
    exact hc (congrArg Except.error h)
  | ok b => cases b with
    | true => simp
    | false => exact onCopy_stays hstay _ _ _

end Generators
