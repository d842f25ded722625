import Verif.Proofs.SplitGroups
import Verif.Proofs.Complete
import Verif.Props.Geometry

set_option autoImplicit false

/-! # Lemmas for `notation.decode` -/

open Spec Spec.Text

namespace Notation

/-- The letter of the model. -/
def ofLetter : Letter → Qual
  | .r => .r
  | .c => .c
  | .b => .b
  | .p => .p

theorem ofLetter_inj {l l' : Letter} (h : ofLetter l = ofLetter l') : l = l' := by
  cases l <;> cases l' <;> first | rfl | cases h

theorem qual?_char (l : Letter) : qual? l.char = some (ofLetter l) := by cases l <;> decide

theorem qual?_none {ch : Char} (h : ¬ ∃ l : Letter, ch = l.char) : qual? ch = none := by
  have hr : ch ≠ 'r' := fun e => h ⟨.r, e⟩
  have hc : ch ≠ 'c' := fun e => h ⟨.c, e⟩
  have hb : ch ≠ 'b' := fun e => h ⟨.b, e⟩
  have hp : ch ≠ 'p' := fun e => h ⟨.p, e⟩
  unfold qual?
  rw [if_neg hr, if_neg hc, if_neg hb, if_neg hp]

theorem special_iff (ch : Char) : Special ch ↔ Py.isDigit ch = true ∨ ∃ l : Letter, ch = l.char := by
  unfold Special
  constructor
  · rintro (h | h | h | h | h)
    · exact .inl h
    · exact .inr ⟨.r, h⟩
    · exact .inr ⟨.c, h⟩
    · exact .inr ⟨.b, h⟩
    · exact .inr ⟨.p, h⟩
  · rintro (h | ⟨l, h⟩)
    · exact .inl h
    · cases l
      · exact .inr (.inl h)
      · exact .inr (.inr (.inl h))
      · exact .inr (.inr (.inr (.inl h)))
      · exact .inr (.inr (.inr (.inr h)))

theorem digit_not_letter {ch : Char} (h : Py.isDigit ch = true) : ¬ ∃ l : Letter, ch = l.char := by
  rintro ⟨l, rfl⟩
  cases l <;> exact absurd h (by decide)

theorem numSep_digit {nsep : List Char} (h : NumSepOk nsep) {ch : Char} (hd : Py.isDigit ch = true) : ch ∉ nsep :=
  fun hm => h ch hm (.inl hd)

theorem numSep_letter {nsep : List Char} (h : NumSepOk nsep) (l : Letter) : l.char ∉ nsep :=
  fun hm => h _ hm ((special_iff _).2 (.inr ⟨l, rfl⟩))

/-- The numbers as written. -/
def numText (nsep : List Char) (ks : List Nat) : List Char := Py.join nsep (ks.map Py.natStr)

theorem numText_mem {nsep : List Char} {ks : List Nat} {ch : Char} (h : ch ∈ numText nsep ks) :
    Py.isDigit ch = true ∨ ch ∈ nsep := by
  rcases Py.mem_join h with h | ⟨x, hx, hc⟩
  · exact .inr h
  · obtain ⟨k, _, rfl⟩ := List.mem_map.1 hx
    exact .inl (Py.natStr_digits k ch hc)

theorem ints_natStr (ks : List Nat) : Py.ints (ks.map Py.natStr) = .ok (ks.map fun k : Nat => (k : Int)) := by
  induction ks with
  | nil => rfl
  | cons k ks ih => rw [List.map_cons, Py.ints, Py.int_natStr, ih]; rfl

theorem flatten_single (ks : List Nat) (h : ∀ k ∈ ks, k ≤ 9) :
    ((ks.map Py.natStr).flatten).map (fun c => [c]) = ks.map Py.natStr := by
  induction ks with
  | nil => rfl
  | cons k ks ih =>
    rw [List.map_cons, List.flatten_cons, List.map_append, ih fun x hx => h x (List.mem_cons_of_mem _ hx),
      Py.natStr_small (by have := h k (by simp); omega)]
    rfl

theorem readNumbers_text {nsep : List Char} (hn : NumSepOk nsep) {ks : List Nat} (h0 : ks ≠ [])
    (h9 : nsep = [] → ∀ k ∈ ks, k ≤ 9) : readNumbers nsep (numText nsep ks) = .ok (ks.map fun k : Nat => (k : Int) - 1) := by
  unfold readNumbers numText
  have key : (if nsep = [] then (Py.join nsep (ks.map Py.natStr)).map fun c => [c]
      else Py.splitGo nsep (Py.join nsep (ks.map Py.natStr)) 0 []) = ks.map Py.natStr := by
    by_cases hs : nsep = []
    · rw [if_pos hs, hs, Py.join_nil_sep, flatten_single ks (h9 hs)]
    · rw [if_neg hs]
      have := Py.split_join hs (l := ks.map Py.natStr) (by simpa using h0) (by
        intro x hx c hc
        obtain ⟨k, _, rfl⟩ := List.mem_map.1 hx
        exact numSep_digit hn (Py.natStr_digits k c hc))
      unfold Py.split at this
      rw [if_neg hs] at this
      exact Except.ok.inj this
  rw [key, ints_natStr]
  simp

theorem readChars_append (nsep x y : List Char) (st : State) :
    readChars nsep (x ++ y) st = match readChars nsep x st with
      | .error e => .error e
      | .ok st => readChars nsep y st := by
  induction x generalizing st with
  | nil => rfl
  | cons ch x ih =>
    rw [List.cons_append, readChars, readChars]
    cases readChar nsep st ch with
    | error e => rfl
    | ok st' => exact ih st'

theorem readChars_digits {nsep : List Char} (hn : NumSepOk nsep) {x : List Char} (hx : ∀ ch ∈ x, Py.isDigit ch = true ∨ ch ∈ nsep)
    (st : State) (hc : st.current ≠ none) : readChars nsep x st = .ok { st with str := st.str ++ x } := by
  induction x generalizing st with
  | nil => rw [readChars, List.append_nil]
  | cons ch x ih =>
    have hch := hx ch (by simp)
    have hq : qual? ch = none := by
      apply qual?_none
      rcases hch with h | h
      · exact digit_not_letter h
      · rintro ⟨l, rfl⟩; exact numSep_letter hn l h
    have : readChar nsep st ch = .ok { st with str := st.str ++ [ch] } := by
      unfold readChar
      rw [hq]
      simp only
      rw [if_pos hch, if_neg hc]
    rw [readChars, this]
    have h2 := ih (fun c h => hx c (List.mem_cons_of_mem _ h)) { st with str := st.str ++ [ch] } hc
    simp only at h2 ⊢
    rw [h2]
    simp

/-- `all_numbers` after the letters of a group. -/
def putAll (nums : Qual → List Int) (g : Group) : Qual → List Int :=
  g.foldl (fun nums q => State.put nums (ofLetter q.1) (q.2.map fun k : Nat => (k : Int) - 1)) nums

/-- The text of a group being read. -/
theorem readChars_group {nsep : List Char} (hn : NumSepOk nsep) (g : Group) (hnum : ∀ q ∈ g, q.2 ≠ [])
    (h9 : nsep = [] → ∀ q ∈ g, ∀ k ∈ q.2, k ≤ 9) (cur : Letter) (ks : List Nat) (h0 : ks ≠ []) (hk9 : nsep = [] → ∀ k ∈ ks, k ≤ 9)
    (nums : Qual → List Int) (present : List Qual)
    (hpr : ∀ q ∈ g, ofLetter q.1 ∉ present) (hone : (cur :: g.map Prod.fst).Nodup) :
    ∃ st, readChars nsep (groupText nsep g) ⟨nums, some (ofLetter cur), present, numText nsep ks⟩ = .ok st ∧
      finish nsep st = .ok (putAll nums ((cur, ks) :: g)) := by
  induction g generalizing cur ks nums present with
  | nil =>
    refine ⟨_, rfl, ?_⟩
    unfold finish
    simp only
    rw [readNumbers_text hn h0 hk9]
    rfl
  | cons q g ih =>
    obtain ⟨l, ks'⟩ := q
    have e : groupText nsep ((l, ks') :: g) = l.char :: (numText nsep ks' ++ groupText nsep g) := by
      simp [groupText, numText]
    rw [e, readChars]
    have h1 : readChar nsep ⟨nums, some (ofLetter cur), present, numText nsep ks⟩ l.char =
        .ok ⟨State.put nums (ofLetter cur) (ks.map fun k : Nat => (k : Int) - 1), some (ofLetter l), present ++ [ofLetter cur], []⟩ := by
      unfold readChar
      rw [qual?_char]
      simp only
      rw [if_neg (hpr (l, ks') (by simp)), readNumbers_text hn h0 hk9]
      simp only
      rw [if_neg (by simpa using h0)]
    rw [h1]
    simp only
    rw [readChars_append, readChars_digits hn (fun ch h => numText_mem h) _ (by simp)]
    simp only [List.nil_append]
    obtain ⟨st, h2, h3⟩ := ih (fun q hq => hnum q (List.mem_cons_of_mem _ hq)) (fun h q hq => h9 h q (List.mem_cons_of_mem _ hq))
      l ks' (hnum (l, ks') (by simp)) (fun h => h9 h (l, ks') (by simp))
      (State.put nums (ofLetter cur) (ks.map fun k : Nat => (k : Int) - 1)) (present ++ [ofLetter cur])
      (by
        intro q hq hm
        rcases List.mem_append.1 hm with hm | hm
        · exact hpr q (List.mem_cons_of_mem _ hq) hm
        · simp at hm
          have := ofLetter_inj hm
          simp only [List.map_cons, List.nodup_cons, List.mem_cons, List.mem_map, not_or] at hone
          exact hone.1.2 ⟨q, hq, this⟩)
      (by simp only [List.map_cons, List.nodup_cons] at hone ⊢; exact hone.2)
    exact ⟨st, h2, h3⟩

theorem read_group {w h : Nat} {nsep : List Char} (hn : NumSepOk nsep) (hN : nsep = [] → w * h ≤ 9) {g : Group} (hg : Proper w h g) :
    ∃ st, readChars nsep (groupText nsep g) State.init = .ok st ∧ finish nsep st = .ok (putAll (fun _ => []) g) := by
  have h9 : nsep = [] → ∀ q ∈ g, ∀ k ∈ q.2, k ≤ 9 := fun hs q hq k hk => le_trans (hg.range q hq k hk).2 (hN hs)
  cases hgc : g with
  | nil => exact absurd hgc hg.nonempty
  | cons q g' =>
    subst hgc
    obtain ⟨l, ks⟩ := q
    have e : groupText nsep ((l, ks) :: g') = l.char :: (numText nsep ks ++ groupText nsep g') := by
      simp [groupText, numText]
    have h1 : readChar nsep State.init l.char = .ok ⟨fun _ => [], some (ofLetter l), [], []⟩ := by
      unfold readChar
      rw [qual?_char]
      simp [State.init]
    rw [e, readChars, h1]
    simp only
    rw [readChars_append, readChars_digits hn (fun ch h => numText_mem h) _ (by simp)]
    simp only [List.nil_append]
    exact readChars_group hn g' (fun q hq => hg.numbers q (List.mem_cons_of_mem _ hq))
      (fun h q hq => h9 h q (List.mem_cons_of_mem _ hq)) l ks (hg.numbers (l, ks) (by simp))
      (fun h => h9 h (l, ks) (by simp)) _ _ (by simp) hg.once

theorem putAll_of_not_mem (nums : Qual → List Int) (g : Group) (l : Letter) (hl : l ∉ g.map Prod.fst) :
    putAll nums g (ofLetter l) = nums (ofLetter l) := by
  induction g generalizing nums with
  | nil => rfl
  | cons q g ih =>
    simp only [List.map_cons, List.mem_cons, not_or] at hl
    have : putAll nums (q :: g) = putAll (State.put nums (ofLetter q.1) (q.2.map fun k : Nat => (k : Int) - 1)) g := rfl
    rw [this, ih _ hl.2, State.put, if_neg fun e => hl.1 (ofLetter_inj e)]

theorem putAll_of_mem (nums : Qual → List Int) (g : Group) (hone : (g.map Prod.fst).Nodup) {q : Letter × List Nat} (hq : q ∈ g) :
    putAll nums g (ofLetter q.1) = q.2.map fun k : Nat => (k : Int) - 1 := by
  induction g generalizing nums with
  | nil => simp at hq
  | cons q' g ih =>
    have e : putAll nums (q' :: g) = putAll (State.put nums (ofLetter q'.1) (q'.2.map fun k : Nat => (k : Int) - 1)) g := rfl
    simp only [List.map_cons, List.nodup_cons] at hone
    rw [e]
    rcases List.mem_cons.1 hq with rfl | hq
    · rw [putAll_of_not_mem _ _ _ hone.1, State.put, if_pos rfl]
    · exact ih _ hone.2 hq

/-- The functions of `coordinates.py` and what they list. -/
theorem func_spec (w h : Nat) (l : Letter) (k : Int) :
    (∀ cs, func (ofLetter l) k w h = .ok cs → ∀ a, a ∈ cs ↔ InGrid w h a ∧ ((l.number w h a : Nat) : Int) = k + 1) ∧
    (0 ≤ k ∧ k < (w * h : Nat) → ∃ cs, func (ofLetter l) k w h = .ok cs) ∧
    (¬ (0 ≤ k ∧ k < (w * h : Nat)) → func (ofLetter l) k w h = .error .ValueError) := by
  cases l
  · have := Props.C03_the_row w h k
    refine ⟨fun cs hcs a => ?_, this.2⟩
    rw [(this.1 cs hcs).2]; unfold Letter.number; push_cast; constructor <;> rintro ⟨h1, h2⟩ <;> exact ⟨h1, by omega⟩
  · have := Props.C03_the_column w h k
    refine ⟨fun cs hcs a => ?_, this.2⟩
    rw [(this.1 cs hcs).2]; unfold Letter.number; push_cast; constructor <;> rintro ⟨h1, h2⟩ <;> exact ⟨h1, by omega⟩
  · have := Props.C03_the_box w h k
    refine ⟨fun cs hcs a => ?_, this.2⟩
    rw [(this.1 cs hcs).2]; simp only [Letter.number]; push_cast; constructor <;> rintro ⟨h1, h2⟩ <;> exact ⟨h1, by omega⟩
  · have := Props.C03_the_part w h k
    refine ⟨fun cs hcs a => ?_, this.2⟩
    rw [(this.1 cs hcs).2]; simp only [Letter.number]; push_cast; constructor <;> rintro ⟨h1, h2⟩ <;> exact ⟨h1, by omega⟩

theorem fieldsOf_ok {w h : Nat} (l : Letter) {ks : List Nat} (hr : ∀ k ∈ ks, 1 ≤ k ∧ k ≤ w * h) :
    ∃ cs, fieldsOf (ofLetter l) w h (ks.map fun k : Nat => (k : Int) - 1) = .ok cs ∧
      ∀ a, a ∈ cs ↔ InGrid w h a ∧ l.number w h a ∈ ks := by
  induction ks with
  | nil => exact ⟨[], rfl, by simp⟩
  | cons k ks ih =>
    obtain ⟨cs, h1, h2⟩ := ih fun x hx => hr x (List.mem_cons_of_mem _ hx)
    have hk := hr k (by simp)
    obtain ⟨cs', h3⟩ := (func_spec w h l ((k : Int) - 1)).2.1 ⟨by omega, by omega⟩
    refine ⟨cs' ++ cs, ?_, fun a => ?_⟩
    · rw [List.map_cons, fieldsOf, h3]
      simp only
      rw [h1]
    · rw [List.mem_append, h2, (func_spec w h l ((k : Int) - 1)).1 cs' h3, List.mem_cons]
      constructor
      · rintro (⟨h4, h5⟩ | ⟨h4, h5⟩)
        · exact ⟨h4, .inl (by omega)⟩
        · exact ⟨h4, .inr h5⟩
      · rintro ⟨h4, h5 | h5⟩
        · exact .inl ⟨h4, by omega⟩
        · exact .inr ⟨h4, h5⟩

theorem allSets_ok {w h : Nat} {g : Group} (hg : Proper w h g) (ls : List Letter) :
    ∃ sets, allSets (putAll (fun _ => []) g) w h (ls.map ofLetter) = .ok sets ∧
      (∀ S ∈ sets, ∀ a ∈ S, InGrid w h a) ∧
      (∀ a, InGrid w h a → ((∀ S ∈ sets, a ∈ S) ↔ ∀ q ∈ g, q.1 ∈ ls → q.1.number w h a ∈ q.2)) ∧
      ((∃ q ∈ g, q.1 ∈ ls) → sets ≠ []) := by
  induction ls with
  | nil => exact ⟨[], rfl, by simp, by simp, by simp⟩
  | cons l ls ih =>
    obtain ⟨sets, h1, h2, h3, h4⟩ := ih
    by_cases hl : l ∈ g.map Prod.fst
    · obtain ⟨q, hq, rfl⟩ := List.mem_map.1 hl
      obtain ⟨cs, h5, h6⟩ := fieldsOf_ok (w := w) (h := h) q.1 (hg.range q hq)
      refine ⟨cs :: sets, ?_, ?_, ?_, by simp⟩
      · rw [List.map_cons, allSets, putAll_of_mem _ _ hg.once hq, h5]
        simp only
        rw [h1]
        simp only
        rw [if_neg (by simpa using hg.numbers q hq)]
      · intro S hS a ha
        rcases List.mem_cons.1 hS with rfl | hS
        · exact ((h6 a).1 ha).1
        · exact h2 S hS a ha
      · intro a ha
        simp only [List.mem_cons, forall_eq_or_imp]
        rw [h3 a ha, h6]
        constructor
        · rintro ⟨⟨_, h7⟩, h8⟩ q' hq' (h9 | h9)
          · have : q' = q := List.inj_on_of_nodup_map hg.once hq' hq h9
            rw [this]; exact h7
          · exact h8 q' hq' h9
        · intro h7
          exact ⟨⟨ha, h7 q hq (.inl rfl)⟩, fun q' hq' h9 => h7 q' hq' (.inr h9)⟩
    · refine ⟨sets, ?_, h2, ?_, ?_⟩
      · rw [List.map_cons, allSets, putAll_of_not_mem _ _ _ hl]
        simp only [fieldsOf]
        rw [h1]
        simp
      · intro a ha
        rw [h3 a ha]
        constructor
        · intro h7 q hq h9
          rcases List.mem_cons.1 h9 with h9 | h9
          · exact absurd (List.mem_map.2 ⟨q, hq, h9⟩) hl
          · exact h7 q hq h9
        · intro h7 q hq h9
          exact h7 q hq (List.mem_cons_of_mem _ h9)
      · rintro ⟨q, hq, h9⟩
        rcases List.mem_cons.1 h9 with h9 | h9
        · exact absurd (List.mem_map.2 ⟨q, hq, h9⟩) hl
        · exact h4 ⟨q, hq, h9⟩

theorem mem_letters (l : Letter) : l ∈ [Letter.r, .c, .b, .p] := by cases l <;> decide

theorem decodeSingle_group {w h : Nat} {nsep : List Char} (hn : NumSepOk nsep) (hN : nsep = [] → w * h ≤ 9) {g : Group}
    (hg : Proper w h g) : ∃ cs, decodeSingle (groupText nsep g) w h nsep = .ok cs ∧ ∀ a, a ∈ cs ↔ Named w h g a := by
  obtain ⟨st, h1, h2⟩ := read_group hn hN hg
  obtain ⟨sets, h3, h4, h5, h6⟩ := allSets_ok hg [.r, .c, .b, .p]
  unfold decodeSingle
  rw [h1]
  simp only
  rw [h2]
  simp only
  have h3' : allSets (putAll (fun _ => []) g) w h [.r, .c, .b, .p] = .ok sets := h3
  rw [h3']
  simp only
  cases hs : sets with
  | nil =>
    cases hgc : g with
    | nil => exact absurd hgc hg.nonempty
    | cons q g' => exact absurd hs (h6 ⟨q, by rw [hgc]; simp, mem_letters _⟩)
  | cons S l =>
    refine ⟨_, rfl, fun a => ?_⟩
    rw [hs] at h4 h5
    simp only [List.mem_filter, List.all_eq_true, decide_eq_true_eq]
    unfold Named
    constructor
    · rintro ⟨h7, h8⟩
      have ha := h4 S (by simp) a h7
      refine ⟨ha, fun q hq => (h5 a ha).1 ?_ q hq (mem_letters _)⟩
      intro T hT
      rcases List.mem_cons.1 hT with rfl | hT
      · exact h7
      · exact h8 T hT
    · rintro ⟨ha, h7⟩
      have := (h5 a ha).2 fun q hq _ => h7 q hq
      exact ⟨this S (by simp), fun T hT => this T (List.mem_cons_of_mem _ hT)⟩

theorem decodeGroups_ok {w h : Nat} {nsep : List Char} (hn : NumSepOk nsep) (hN : nsep = [] → w * h ≤ 9) {gs : List Group}
    (hg : ∀ g ∈ gs, Proper w h g) :
    ∃ cs, decodeGroups w h nsep (gs.map (groupText nsep)) = .ok cs ∧ ∀ a, a ∈ cs ↔ ∃ g ∈ gs, Named w h g a := by
  induction gs with
  | nil => exact ⟨[], rfl, by simp⟩
  | cons g gs ih =>
    obtain ⟨cs, h1, h2⟩ := ih fun x hx => hg x (List.mem_cons_of_mem _ hx)
    obtain ⟨cs', h3, h4⟩ := decodeSingle_group hn hN (hg g (by simp))
    refine ⟨cs' ++ cs, ?_, fun a => ?_⟩
    · rw [List.map_cons, decodeGroups, h3]
      simp only
      rw [h1]
    · rw [List.mem_append, h2, h4]
      simp

/-! ## The text of a group -/

theorem tame_none {c : Char} {x : List Char} (h : c ∉ x) : Tame c x := by
  intro y z hyz
  exact absurd (by rw [hyz]; simp) h

theorem numText_last {nsep : List Char} {ks : List Nat} (h0 : ks ≠ []) :
    ∃ ch, (numText nsep ks).getLast? = some ch ∧ Py.isDigit ch = true := by
  unfold numText
  obtain ⟨x, hx, he⟩ := Py.last_join (sep := nsep) (l := ks.map Py.natStr) (by simpa using h0) (by
    intro x hx
    obtain ⟨k, _, rfl⟩ := List.mem_map.1 hx
    exact Py.natStr_ne_nil k)
  obtain ⟨k, _, rfl⟩ := List.mem_map.1 hx
  rw [he]
  rcases List.eq_nil_or_concat (Py.natStr k) with h | ⟨x, ch, h⟩
  · exact absurd h (Py.natStr_ne_nil k)
  · refine ⟨ch, by simp [h], Py.natStr_digits k ch (by rw [h]; simp)⟩

theorem letter_not_num {nsep : List Char} (hn : NumSepOk nsep) (ks : List Nat) (l : Letter) : l.char ∉ numText nsep ks := by
  intro h
  rcases numText_mem h with h | h
  · exact digit_not_letter h ⟨l, rfl⟩
  · exact numSep_letter hn l h

theorem Tame.group {c : Char} {x y : List Char} (hx : c ∉ x) (hy : Tame c y)
    (hl : ∃ ch, x.getLast? = some ch ∧ Py.isDigit ch = true) (d : Char) : Tame c (d :: (x ++ y)) := by
  intro u v huv
  cases u with
  | nil => exact .inl rfl
  | cons e u =>
    right
    have h1 : x ++ y = u ++ c :: v := (List.cons.inj huv).2
    obtain ⟨ch, h5, h6⟩ := hl
    rcases List.append_eq_append_iff.1 h1 with ⟨a', h2, h3⟩ | ⟨b', h2, h3⟩
    · rcases hy a' v h3 with rfl | ⟨ch', h7, h8⟩
      · rw [List.append_nil] at h2
        subst h2
        refine ⟨ch, ?_, h6⟩
        rw [List.getLast?_cons, h5]; rfl
      · subst h2
        refine ⟨ch', ?_, h8⟩
        rw [List.getLast?_cons, List.getLast?_append, h7]; rfl
    · cases b' with
      | nil =>
        rw [List.append_nil] at h2
        subst h2
        refine ⟨ch, ?_, h6⟩
        rw [List.getLast?_cons, h5]; rfl
      | cons d' b' =>
        rw [List.cons_append] at h3
        have := (List.cons.inj h3).1
        exact absurd (by rw [h2, this]; simp) hx

theorem tame_group {nsep : List Char} (hn : NumSepOk nsep) {g : Group} (hg : ∀ q ∈ g, q.2 ≠ []) (l : Letter) :
    Tame l.char (groupText nsep g) := by
  induction g with
  | nil => exact tame_none (by simp [groupText])
  | cons q g ih =>
    obtain ⟨l', ks⟩ := q
    have e : groupText nsep ((l', ks) :: g) = l'.char :: (numText nsep ks ++ groupText nsep g) := by
      simp [groupText, numText]
    rw [e]
    exact Tame.group (letter_not_num hn ks l) (ih fun q hq => hg q (List.mem_cons_of_mem _ hq))
      (numText_last (hg (l', ks) (by simp))) _

theorem groupText_cons (nsep : List Char) (l : Letter) (ks : List Nat) (g : Group) :
    groupText nsep ((l, ks) :: g) = l.char :: (numText nsep ks ++ groupText nsep g) := by
  simp [groupText, numText]

theorem groupText_head {w h : Nat} {g : Group} (hg : Proper w h g) (nsep : List Char) :
    ∃ (l : Letter) (x : List Char), groupText nsep g = l.char :: x := by
  cases g with
  | nil => exact absurd rfl hg.nonempty
  | cons q g => exact ⟨_, _, groupText_cons nsep q.1 q.2 g⟩

theorem groupText_mem {nsep : List Char} {g : Group} {ch : Char} (h : ch ∈ groupText nsep g) : Special ch ∨ ch ∈ nsep := by
  induction g with
  | nil => simp [groupText] at h
  | cons q g ih =>
    rw [show q = (q.1, q.2) from rfl, groupText_cons] at h
    rcases List.mem_cons.1 h with rfl | h
    · exact .inl ((special_iff _).2 (.inr ⟨_, rfl⟩))
    · rcases List.mem_append.1 h with h | h
      · rcases numText_mem h with h | h
        · exact .inl (.inl h)
        · exact .inr h
      · exact ih h

theorem groupLike {w h : Nat} {sep nsep : List Char} (hs : SepOk sep) (hn : NumSepOk nsep) {g : Group} (hg : Proper w h g) :
    GroupLike sep (groupText nsep g) := by
  obtain ⟨l, x, e⟩ := groupText_head hg nsep
  exact ⟨⟨l.char, x, e, hs.letters l⟩, fun l => tame_group hn hg.numbers l⟩

theorem special_not_whitespace {ch : Char} (h : Special ch) : ch ∉ Py.whitespace := by
  rcases h with h | rfl | rfl | rfl | rfl
  · exact Py.not_whitespace_of_digit h
  all_goals decide

theorem text_mem {sep nsep : List Char} {gs : List Group} {ch : Char} (h : ch ∈ text sep nsep gs) :
    Special ch ∨ ch ∈ sep ∨ ch ∈ nsep := by
  rcases Py.mem_join h with h | ⟨x, hx, h⟩
  · exact .inr (.inl h)
  · obtain ⟨g, _, rfl⟩ := List.mem_map.1 hx
    rcases groupText_mem h with h | h
    · exact .inl h
    · exact .inr (.inr h)

theorem splitGo_absent {sc : List Char} (h0 : sc ≠ []) {s : List Char} (h : ∀ ch ∈ s, ch ∉ sc) : Py.splitGo sc s 0 [] = [s] := by
  have := Py.splitGo_piece s h h0 [] []
  rw [List.append_nil, List.append_nil] at this
  rw [this, Py.splitGo]
  simp

theorem removeWhitespace_none {sep nsep s : List Char} (h : ∀ ch ∈ s, ch ∈ Py.whitespace → ch ∈ sep ∨ ch ∈ nsep) :
    removeWhitespace sep nsep s = s := by
  unfold removeWhitespace
  split
  · rename_i hc
    simp only [Bool.and_eq_true, List.all_eq_true, decide_eq_true_eq] at hc
    rw [splitGo_absent (by decide)]
    · rfl
    · intro ch hch hw
      rcases h ch hch hw with h | h
      · exact hc.1 ch hw h
      · exact hc.2 ch hw h
  · rfl

theorem numberSep_eq (w h : Nat) (nsep : List Char) : numberSep nsep (w * h) = between w h nsep := by
  unfold numberSep between
  by_cases h0 : nsep = []
  · rw [if_pos h0, if_neg (not_not.2 h0)]
    by_cases h1 : w * h ≤ 9
    · rw [if_neg (by omega), if_pos h1]
    · rw [if_pos (by omega), if_neg h1]
  · rw [if_neg h0, if_pos h0]

theorem between_ok {w h : Nat} {nsep : List Char} (hn : NumSepOk nsep) : NumSepOk (between w h nsep) := by
  unfold between
  split
  · exact hn
  · split
    · intro ch h; simp at h
    · intro ch h
      simp at h
      subst h
      unfold Special
      decide

theorem between_nil {w h : Nat} {nsep : List Char} (hs : between w h nsep = []) : w * h ≤ 9 := by
  unfold between at hs
  split at hs
  · contradiction
  · split at hs
    · assumption
    · simp at hs

theorem checkSize_ok {w h : Nat} (hw : 0 < w) (hh : 0 < h) : checkSize w h = .ok (w, h) := by
  unfold checkSize
  rw [if_neg (by omega)]
  simp

/-- `decode` reads a text as it is meant. -/
theorem decode_text {w h : Nat} (hw : 0 < w) (hh : 0 < h) {sep nsep : List Char} (hs : SepOk sep) (hn : NumSepOk nsep)
    {gs : List Group} (h0 : gs ≠ []) (hg : ∀ g ∈ gs, Proper w h g) :
    ∃ l, decode (text sep (between w h nsep) gs) w h sep nsep = .ok l ∧ SortedFields l fun a => ∃ g ∈ gs, Named w h g a := by
  have hn' := between_ok (w := w) (h := h) hn
  obtain ⟨cs, h1, h2⟩ := decodeGroups_ok hn' between_nil hg
  unfold decode
  rw [checkSize_ok hw hh]
  simp only
  rw [numberSep_eq, removeWhitespace_none, text, splitGroups_join hs (by simpa using h0), h1]
  · refine ⟨_, rfl, Solvers.sortCells_sorted (List.nodup_dedup _), fun a => ?_⟩
    rw [Solvers.mem_sortCells, List.mem_dedup, h2]
  · intro x hx
    obtain ⟨g, hg', rfl⟩ := List.mem_map.1 hx
    exact groupLike hs hn' (hg g hg')
  · intro x hx
    obtain ⟨g, hg', rfl⟩ := List.mem_map.1 hx
    obtain ⟨l, y, e⟩ := groupText_head (hg g hg') (between w h nsep)
    exact ⟨l, by rw [e]; rfl⟩
  · intro ch hch hw'
    rcases text_mem hch with h | h
    · exact absurd hw' (special_not_whitespace h)
    · exact h

/-! ## What `decode` returns for any string -/

theorem func_error {q : Qual} {k : Int} {w h : Nat} {e : PyErr} (he : func q k w h = .error e) : e = .ValueError := by
  obtain ⟨l, rfl⟩ : ∃ l, q = ofLetter l := by cases q <;> [exact ⟨.r, rfl⟩; exact ⟨.c, rfl⟩; exact ⟨.b, rfl⟩; exact ⟨.p, rfl⟩]
  by_cases hk : 0 ≤ k ∧ k < (w * h : Nat)
  · obtain ⟨cs, h1⟩ := (func_spec w h l k).2.1 hk
    rw [h1] at he; cases he
  · rw [(func_spec w h l k).2.2 hk] at he
    cases he; rfl

theorem func_inGrid {q : Qual} {k : Int} {w h : Nat} {cs : List Cell} (he : func q k w h = .ok cs) : ∀ a ∈ cs, InGrid w h a := by
  obtain ⟨l, rfl⟩ : ∃ l, q = ofLetter l := by cases q <;> [exact ⟨.r, rfl⟩; exact ⟨.c, rfl⟩; exact ⟨.b, rfl⟩; exact ⟨.p, rfl⟩]
  intro a ha
  exact (((func_spec w h l k).1 cs he a).1 ha).1

theorem fieldsOf_inGrid {q : Qual} {w h : Nat} (ks : List Int) {cs : List Cell} (he : fieldsOf q w h ks = .ok cs) :
    ∀ a ∈ cs, InGrid w h a := by
  induction ks generalizing cs with
  | nil => cases he; simp
  | cons k ks ih =>
    rw [fieldsOf] at he
    split at he
    · cases he
    · rename_i c1 h1
      split at he
      · cases he
      · rename_i c2 h2
        cases he
        intro a ha
        rcases List.mem_append.1 ha with ha | ha
        · exact func_inGrid h1 a ha
        · exact ih h2 a ha

theorem fieldsOf_error {q : Qual} {w h : Nat} (ks : List Int) {e : PyErr} (he : fieldsOf q w h ks = .error e) : e = .ValueError := by
  induction ks with
  | nil => cases he
  | cons k ks ih =>
    rw [fieldsOf] at he
    split at he
    · rename_i h1
      cases he
      exact func_error h1
    · split at he
      · rename_i h2
        cases he
        exact ih h2
      · cases he

theorem allSets_inGrid {nums : Qual → List Int} {w h : Nat} (qs : List Qual) {sets : List (List Cell)}
    (he : allSets nums w h qs = .ok sets) : ∀ S ∈ sets, ∀ a ∈ S, InGrid w h a := by
  induction qs generalizing sets with
  | nil => cases he; simp
  | cons q qs ih =>
    rw [allSets] at he
    split at he
    · cases he
    · rename_i c1 h1
      split at he
      · cases he
      · rename_i c2 h2
        cases he
        intro S hS
        split at hS
        · exact ih h2 S hS
        · rcases List.mem_cons.1 hS with rfl | hS
          · exact fieldsOf_inGrid _ h1
          · exact ih h2 S hS

theorem allSets_error {nums : Qual → List Int} {w h : Nat} (qs : List Qual) {e : PyErr} (he : allSets nums w h qs = .error e) :
    e = .ValueError := by
  induction qs with
  | nil => cases he
  | cons q qs ih =>
    rw [allSets] at he
    split at he
    · rename_i h1
      cases he
      exact fieldsOf_error _ h1
    · split at he
      · rename_i h2
        cases he
        exact ih h2
      · cases he

theorem allSets_nil {nums : Qual → List Int} {w h : Nat} (qs : List Qual) (he : allSets nums w h qs = .ok []) :
    ∀ q ∈ qs, nums q = [] := by
  induction qs with
  | nil => simp
  | cons q qs ih =>
    rw [allSets] at he
    split at he
    · cases he
    · split at he
      · cases he
      · rename_i c2 h2
        have he := Except.ok.inj he
        split at he
        · rename_i h3
          subst he
          intro q' hq'
          rcases List.mem_cons.1 hq' with rfl | hq'
          · exact h3
          · exact ih h2 q' hq'
        · cases he

theorem readNumbers_error {nsep str : List Char} {e : PyErr} (he : readNumbers nsep str = .error e) : e = .ValueError := by
  unfold readNumbers at he
  split at he
  · rename_i h1
    cases he
    exact Py.ints_error h1
  · cases he

theorem splitGo_ne_nil (sc s : List Char) (k : Nat) (acc : List Char) : Py.splitGo sc s k acc ≠ [] := by
  induction s generalizing k acc with
  | nil => simp [Py.splitGo]
  | cons c s ih =>
    cases k with
    | zero =>
      rw [Py.splitGo]
      split
      · simp
      · exact ih _ _
    | succ k => rw [Py.splitGo]; exact ih _ _

theorem ints_ne_nil {l : List (List Char)} (h : Py.ints l = .ok []) : l = [] := by
  cases l with
  | nil => rfl
  | cons x l =>
    rw [Py.ints] at h
    split at h
    · cases h
    · split at h <;> cases h

theorem readNumbers_nil {nsep str : List Char} (he : readNumbers nsep str = .ok []) : nsep = [] ∧ str = [] := by
  unfold readNumbers at he
  split at he
  · cases he
  · rename_i l h1
    have he := Except.ok.inj he
    rw [List.map_eq_nil_iff] at he
    subst he
    have h2 := ints_ne_nil h1
    split at h2
    · rename_i h3
      exact ⟨h3, by simpa using h2⟩
    · exact absurd h2 (splitGo_ne_nil _ _ _ _)

theorem readChar_error {nsep : List Char} {st : State} {ch : Char} {e : PyErr} (he : readChar nsep st ch = .error e) :
    e = .ValueError := by
  unfold readChar at he
  split at he
  · split at he
    · cases he; rfl
    · split at he
      · split at he
        · rename_i h1
          cases he
          exact readNumbers_error h1
        · split at he
          · cases he; rfl
          · cases he
      · cases he
  · split at he
    · split at he
      · cases he; rfl
      · cases he
    · cases he; rfl

theorem readChars_error {nsep s : List Char} {st : State} {e : PyErr} (he : readChars nsep s st = .error e) : e = .ValueError := by
  induction s generalizing st with
  | nil => cases he
  | cons ch s ih =>
    rw [readChars] at he
    split at he
    · rename_i h1
      cases he
      exact readChar_error h1
    · exact ih he

theorem finish_error {nsep : List Char} {st : State} {e : PyErr} (he : finish nsep st = .error e) : e = .ValueError := by
  unfold finish at he
  split at he
  · split at he
    · rename_i h1
      cases he
      exact readNumbers_error h1
    · cases he
  · split at he
    · cases he; rfl
    · cases he

theorem finish_nil {nsep : List Char} {st : State} {nums : Qual → List Int} (he : finish nsep st = .ok nums)
    (hn : ∀ q, nums q = []) (hp : st.current = none → st.present = []) : nsep = [] := by
  unfold finish at he
  split at he
  · rename_i cur hc
    split at he
    · cases he
    · rename_i numbers h1
      cases he
      have := hn cur
      unfold State.put at this
      rw [if_pos rfl] at this
      subst this
      exact (readNumbers_nil h1).1
  · rename_i hc
    rw [if_pos (hp hc)] at he
    cases he

theorem readChars_present {nsep s : List Char} {st st' : State} (he : readChars nsep s st = .ok st')
    (hp : st.current = none → st.present = []) : st'.current = none → st'.present = [] := by
  induction s generalizing st with
  | nil => cases he; exact hp
  | cons ch s ih =>
    rw [readChars] at he
    split at he
    · cases he
    · rename_i st1 h1
      refine ih he ?_
      unfold readChar at h1
      split at h1
      · split at h1
        · cases h1
        · split at h1
          · split at h1
            · cases h1
            · split at h1
              · cases h1
              · cases h1; simp
          · cases h1; simp
      · split at h1
        · split at h1
          · cases h1
          · rename_i hc
            cases h1
            intro h; exact absurd h hc
        · cases h1

theorem decodeSingle_error {group : List Char} {w h : Nat} {nsep : List Char} {e : PyErr}
    (he : decodeSingle group w h nsep = .error e) : e = .ValueError ∨ (e = .TypeError ∧ nsep = []) := by
  unfold decodeSingle at he
  split at he
  · rename_i h1
    cases he
    exact .inl (readChars_error h1)
  · rename_i st h1
    split at he
    · rename_i h2
      cases he
      exact .inl (finish_error h2)
    · rename_i nums h2
      split at he
      · rename_i h3
        cases he
        exact .inl (allSets_error _ h3)
      · rename_i sets h3
        cases sets with
        | nil =>
          cases he
          refine .inr ⟨rfl, finish_nil h2 (fun q => ?_) (readChars_present h1 (by simp [State.init]))⟩
          exact allSets_nil _ h3 q (by cases q <;> decide)
        | cons S l => cases he

theorem decodeSingle_inGrid {group : List Char} {w h : Nat} {nsep : List Char} {cs : List Cell}
    (he : decodeSingle group w h nsep = .ok cs) : ∀ a ∈ cs, InGrid w h a := by
  unfold decodeSingle at he
  split at he
  · cases he
  · split at he
    · cases he
    · split at he
      · cases he
      · rename_i sets h3
        cases sets with
        | nil => cases he
        | cons S l =>
          cases he
          intro a ha
          exact allSets_inGrid _ h3 S (by simp) a (List.mem_filter.1 ha).1

theorem decodeGroups_error {w h : Nat} {nsep : List Char} {gs : List (List Char)} {e : PyErr}
    (he : decodeGroups w h nsep gs = .error e) : e = .ValueError ∨ (e = .TypeError ∧ nsep = []) := by
  induction gs with
  | nil => cases he
  | cons g gs ih =>
    rw [decodeGroups] at he
    split at he
    · rename_i h1
      cases he
      exact decodeSingle_error h1
    · split at he
      · rename_i h2
        cases he
        exact ih h2
      · cases he

theorem decodeGroups_inGrid {w h : Nat} {nsep : List Char} {gs : List (List Char)} {cs : List Cell}
    (he : decodeGroups w h nsep gs = .ok cs) : ∀ a ∈ cs, InGrid w h a := by
  induction gs generalizing cs with
  | nil => cases he; simp
  | cons g gs ih =>
    rw [decodeGroups] at he
    split at he
    · cases he
    · rename_i c1 h1
      split at he
      · cases he
      · rename_i c2 h2
        cases he
        intro a ha
        rcases List.mem_append.1 ha with ha | ha
        · exact decodeSingle_inGrid h1 a ha
        · exact ih h2 a ha

/-- A character without meaning makes its group fail. -/
theorem readChars_illegal {nsep s : List Char} {st : State} {ch : Char} (hm : ch ∈ s) (h1 : ¬ Special ch) (h2 : ch ∉ nsep) :
    ∃ e, readChars nsep s st = .error e := by
  induction s generalizing st with
  | nil => simp at hm
  | cons c s ih =>
    rw [readChars]
    split
    · exact ⟨_, rfl⟩
    · rename_i st' h3
      rcases List.mem_cons.1 hm with rfl | hm
      · exfalso
        unfold readChar at h3
        rw [qual?_none fun hl => h1 ((special_iff _).2 (.inr hl))] at h3
        simp only at h3
        rw [if_neg] at h3
        · cases h3
        · rintro (h | h)
          · exact h1 (.inl h)
          · exact h2 h
      · exact ih hm

theorem decodeGroups_illegal {w h : Nat} {nsep : List Char} {gs : List (List Char)} {g : List Char} (hg : g ∈ gs) {ch : Char}
    (hm : ch ∈ g) (h1 : ¬ Special ch) (h2 : ch ∉ nsep) : ∃ e, decodeGroups w h nsep gs = .error e := by
  induction gs with
  | nil => simp at hg
  | cons g' gs ih =>
    rw [decodeGroups]
    split
    · exact ⟨_, rfl⟩
    · rename_i c1 h3
      rcases List.mem_cons.1 hg with rfl | hg
      · exfalso
        unfold decodeSingle at h3
        obtain ⟨e, he⟩ := readChars_illegal (st := State.init) hm h1 h2
        rw [he] at h3
        cases h3
      · obtain ⟨e, he⟩ := ih hg
        rw [he]
        exact ⟨_, rfl⟩

/-- Splitting loses only characters of the separator. -/
theorem splitGo_keeps {sc s : List Char} (hsc : sc ≠ []) {ch : Char} (hm : ch ∈ s) (hc : ch ∉ sc) (k : Nat) (acc : List Char)
    (hk : ∃ t, t <:+ sc ∧ t.length = k ∧ t <+: s) : ∃ g ∈ Py.splitGo sc s k acc, ch ∈ g := by
  have acc_mem : ∀ (s : List Char) (k : Nat) (acc : List Char), ch ∈ acc → ∃ g ∈ Py.splitGo sc s k acc, ch ∈ g := by
    intro s
    induction s with
    | nil => intro k acc h; exact ⟨acc.reverse, by simp [Py.splitGo], by simpa using h⟩
    | cons c s ih =>
      intro k acc h
      cases k with
      | zero =>
        rw [Py.splitGo]
        split
        · exact ⟨acc.reverse, by simp, by simpa using h⟩
        · exact ih _ _ (List.mem_cons_of_mem _ h)
      | succ k => rw [Py.splitGo]; exact ih _ _ h
  induction s generalizing k acc with
  | nil => simp at hm
  | cons c s ih =>
    obtain ⟨t, ht1, ht2, ht3⟩ := hk
    cases k with
    | succ k =>
      rw [Py.splitGo]
      cases t with
      | nil => simp at ht2
      | cons d t =>
        obtain ⟨u, hu⟩ := ht3
        have h3 := List.cons.inj hu
        have hne : ch ≠ c := by
          rintro rfl
          exact hc (ht1.subset (by rw [h3.1]; simp))
        rcases List.mem_cons.1 hm with h | hm
        · exact absurd h hne
        · exact ih hm k acc ⟨t, (List.suffix_cons d t).trans ht1, by simpa using ht2, ⟨u, h3.2⟩⟩
    | zero =>
      rw [Py.splitGo]
      split
      · rename_i hp
        obtain ⟨u, hu⟩ := List.isPrefixOf_iff_prefix.1 hp
        cases sc with
        | nil => exact absurd rfl hsc
        | cons d sc =>
          have h3 := List.cons.inj hu
          have hne : ch ≠ c := by
            rintro rfl
            exact hc (by rw [h3.1]; simp)
          rcases List.mem_cons.1 hm with h | hm
          · exact absurd h hne
          · obtain ⟨g, h4, h5⟩ := ih hm sc.length [] ⟨sc, List.suffix_cons d sc, rfl, ⟨u, h3.2⟩⟩
            exact ⟨g, List.mem_cons_of_mem _ h4, h5⟩
      · rcases List.mem_cons.1 hm with rfl | hm
        · exact acc_mem _ _ _ (by simp)
        · exact ih hm 0 _ ⟨[], List.nil_suffix, rfl, List.nil_prefix⟩

theorem splitGo_keeps' {sc s : List Char} (hsc : sc ≠ []) {ch : Char} (hm : ch ∈ s) (hc : ch ∉ sc) :
    ∃ g ∈ Py.splitGo sc s 0 [], ch ∈ g := splitGo_keeps hsc hm hc 0 [] ⟨[], List.nil_suffix, rfl, List.nil_prefix⟩

theorem splitGroup_keeps {sep s : List Char} {c ch : Char} (hm : ch ∈ s) (h1 : ch ∉ sep) (h2 : ch ≠ c) :
    ∃ g ∈ splitGroup sep c s, ch ∈ g := by
  obtain ⟨g, h3, h4⟩ := splitGo_keeps' (sc := sep ++ [c]) (by simp) hm (by simp [h1, h2])
  unfold splitGroup
  split
  · rename_i h5
    rw [h5] at h3
    simp at h3
  · rename_i g' gs h5
    rw [h5] at h3
    rcases List.mem_cons.1 h3 with rfl | h3
    · exact ⟨g, by simp, h4⟩
    · exact ⟨c :: g, List.mem_cons_of_mem _ (List.mem_map.2 ⟨g, h3, rfl⟩), List.mem_cons_of_mem _ h4⟩

theorem splitGroups_keeps {sep s : List Char} {ch : Char} (hm : ch ∈ s) (h1 : ch ∉ sep) (h2 : ¬ Special ch) :
    ∃ g ∈ splitGroups sep s, ch ∈ g := by
  have key : ∀ (cs : List Char), (∀ c ∈ cs, ch ≠ c) → ∀ gs : List (List Char), (∃ g ∈ gs, ch ∈ g) →
      ∃ g ∈ cs.foldl (fun groups c => groups.flatMap (splitGroup sep c)) gs, ch ∈ g := by
    intro cs
    induction cs with
    | nil => exact fun _ _ h => h
    | cons c cs ih =>
      rintro hcs gs ⟨g, hg, hgm⟩
      refine ih (fun d hd => hcs d (List.mem_cons_of_mem _ hd)) _ ?_
      obtain ⟨g', h3, h4⟩ := splitGroup_keeps hgm h1 (hcs c (by simp))
      exact ⟨g', List.mem_flatMap.2 ⟨g, hg, h3⟩, h4⟩
  refine key _ ?_ _ ⟨s, by simp, hm⟩
  intro c hc
  rintro rfl
  apply h2
  simp only [List.mem_cons, List.not_mem_nil, or_false] at hc
  exact .inr hc

theorem removeWhitespace_keeps {sep nsep s : List Char} {ch : Char} (hm : ch ∈ s)
    (hw : ch ∉ Py.whitespace ∨ ¬ Py.whitespace <:+: s) : ch ∈ removeWhitespace sep nsep s := by
  unfold removeWhitespace
  split
  · rw [Py.join_nil_sep]
    rcases hw with hw | hw
    · obtain ⟨g, h1, h2⟩ := splitGo_keeps' (by decide) hm hw
      exact List.mem_flatten.2 ⟨g, h1, h2⟩
    · have := splitGo_scan (sc := Py.whitespace) s [] [] (by
        rintro y z rfl _ ⟨t, ht⟩
        exact hw ⟨y, t, by rw [List.append_assoc, ht, List.append_nil]⟩)
      rw [List.append_nil] at this
      rw [this, Py.splitGo]
      simpa using hm
  · exact hm

/-- A character without meaning makes `decode` fail. -/
theorem decode_illegal {s sep nsep : List Char} {w h : Nat} {ch : Char} (hm : ch ∈ s) (h1 : ¬ Special ch) (h2 : ch ∉ sep)
    (h3 : ch ∉ between w h nsep) (hw : ch ∉ Py.whitespace ∨ ¬ Py.whitespace <:+: s) :
    ∃ e, decode s w h sep nsep = .error e := by
  unfold decode
  split
  · exact ⟨_, rfl⟩
  · rename_i w' h' hc
    have : w' = w ∧ h' = h := by
      unfold checkSize at hc
      split at hc
      · cases hc
      · simp at hc; exact ⟨hc.1.symm, hc.2.symm⟩
    obtain ⟨rfl, rfl⟩ := this
    simp only
    rw [numberSep_eq]
    obtain ⟨g, h4, h5⟩ := splitGroups_keeps (removeWhitespace_keeps (sep := sep) (nsep := between w' h' nsep) hm hw) h2 h1
    obtain ⟨e, he⟩ := decodeGroups_illegal (w := w') (h := h') h4 h5 h1 h3
    rw [he]
    exact ⟨_, rfl⟩

end Notation
