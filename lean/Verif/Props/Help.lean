import Verif.Props.Arguments
import Verif.Model.Help

set_option autoImplicit false

/-!
# C85, C86: `signature_str` and `help`
-/

open Spec

namespace Props

open Shell

/-! ## C85: `signature_str` -/

/-- The signature with the defaults where they belong: they are those of the last parameters. -/
def rightSignature (names defaults : List (List Char)) : List Char :=
  let k := names.length - defaults.length
  Py.join [' '] (names.take k ++ List.zipWith (fun n d => n ++ '=' :: d) (names.drop k) defaults)

/-- The parameter number `i` of `n`, with the default number `i` modulo the number of defaults. -/
def cyclicItem (defaults : List (List Char)) (n i : Nat) (name : List Char) : List Char :=
  if i < n - defaults.length then name else name ++ '=' :: defaults.getD (i % defaults.length) []

private theorem item_cyclic {defaults : List (List Char)} {n i : Nat} (hd : defaults ≠ []) (hn : defaults.length ≤ n) (h2 : n ≤ 2 * defaults.length)
    (hi : i < n) (name : List Char) : sigItem defaults n i name = .ok (cyclicItem defaults n i name) := by
  have hpos : 0 < defaults.length := List.length_pos_iff.2 hd
  unfold sigItem cyclicItem
  by_cases hc : i < n - defaults.length
  · rw [if_neg (by omega), if_pos hc]
  · rw [if_pos ⟨hd, by omega⟩, if_neg hc]
    have key : ∃ k, Store.pyIdx defaults.length ((i : Int) - defaults.length) = some k ∧ k = i % defaults.length := by
      unfold Store.pyIdx
      by_cases h : defaults.length ≤ i
      · refine ⟨_, if_pos ⟨by omega, by omega⟩, ?_⟩
        rw [Nat.mod_eq_sub_mod h, Nat.mod_eq_of_lt (by omega)]
        omega
      · refine ⟨_, by rw [if_neg (by omega), if_pos ⟨by omega, by omega⟩], ?_⟩
        rw [Nat.mod_eq_of_lt (by omega)]
        omega
    obtain ⟨k, hk, rfl⟩ := key
    unfold Store.pyGet
    rw [hk]
    have hlt := Nat.mod_lt i hpos
    simp only [List.getElem?_eq_getElem hlt, List.getD_eq_getElem?_getD, Option.getD_some]

private theorem items_cyclic {defaults : List (List Char)} {n : Nat} (hd : defaults ≠ []) (hn : defaults.length ≤ n) (h2 : n ≤ 2 * defaults.length) :
    ∀ (l : List (List Char)) (i : Nat), i + l.length = n → sigItems defaults n i l = .ok (l.mapIdx fun j name => cyclicItem defaults n (i + j) name) := by
  intro l
  induction l with
  | nil => intro i _; rfl
  | cons name l ih =>
    intro i hi
    rw [List.length_cons] at hi
    rw [sigItems, item_cyclic hd hn h2 (by omega), ih (i + 1) (by omega)]
    simp only [List.mapIdx_cons, Nat.add_zero]
    congr 2
    refine List.mapIdx_eq_mapIdx_iff.2 fun j hj => ?_
    rw [Nat.add_assoc, Nat.add_comm 1 j]

private theorem items_none {n : Nat} : ∀ (l : List (List Char)) (i : Nat), sigItems [] n i l = .ok l := by
  intro l
  induction l with
  | nil => intro i; rfl
  | cons name l ih => intro i; simp [sigItems, sigItem, ih]

private theorem items_error {defaults : List (List Char)} {n : Nat} (hd : defaults ≠ []) (h2 : 2 * defaults.length < n) :
    ∀ (l : List (List Char)) (i : Nat), i + l.length = n → l ≠ [] → sigItems defaults n i l = .error .IndexError := by
  have hpos : 0 < defaults.length := List.length_pos_iff.2 hd
  intro l
  induction l with
  | nil => intro i _ h; exact absurd rfl h
  | cons name l ih =>
    intro i hi _
    rw [List.length_cons] at hi
    have hbad : ∀ j : Nat, 2 * defaults.length ≤ j → Store.pyGet defaults ((j : Int) - defaults.length) = .error .IndexError := by
      intro j hj
      unfold Store.pyGet Store.pyIdx
      rw [if_neg (by omega), if_neg (by omega)]
    rw [sigItems]
    by_cases hl : l = []
    · subst hl
      have : sigItem defaults n i name = .error .IndexError := by
        unfold sigItem
        simp only [List.length_nil] at hi
        rw [if_pos ⟨hd, by omega⟩, hbad i (by omega)]
      rw [this]
    · cases hs : sigItem defaults n i name with
      | error e =>
        simp only
        unfold sigItem at hs
        split at hs
        · rename_i h
          have : 2 * defaults.length ≤ i ∨ i < 2 * defaults.length := by omega
          rcases this with h' | h'
          · rw [hbad i h'] at hs
            injection hs with hs
            rw [hs]
          · exfalso
            unfold Store.pyGet at hs
            have hk : ∃ k, Store.pyIdx defaults.length ((i : Int) - defaults.length) = some k ∧ k < defaults.length := by
              unfold Store.pyIdx
              by_cases h : defaults.length ≤ i
              · exact ⟨_, if_pos ⟨by omega, by omega⟩, by omega⟩
              · exact ⟨_, by rw [if_neg (by omega), if_pos ⟨by omega, by omega⟩], by omega⟩
            obtain ⟨k, hk, hlt⟩ := hk
            rw [hk] at hs
            simp only [List.getElem?_eq_getElem hlt] at hs
            cases hs
        · cases hs
      | ok t =>
        simp only
        rw [ih (i + 1) (by omega) hl]

/-- **C85** The text of the signature: without defaults the names; if there are more than twice as many parameters as defaults, an `IndexError`;
otherwise each of the last parameters is shown with the default whose number is that of the parameter (counted from the left, modulo the number of defaults). -/
theorem C85_text (f : Func) (hd : f.defaults.length ≤ f.shown.length) :
    (f.defaults = [] → signatureStr f = .ok (Py.join [' '] f.shown)) ∧
    (f.defaults ≠ [] → f.shown.length ≤ 2 * f.defaults.length →
      signatureStr f = .ok (Py.join [' '] (f.shown.mapIdx (cyclicItem f.defaults f.shown.length)))) ∧
    (f.defaults ≠ [] → 2 * f.defaults.length < f.shown.length → signatureStr f = .error .IndexError) := by
  refine ⟨fun h => ?_, fun h h2 => ?_, fun h h2 => ?_⟩
  · unfold signatureStr
    rw [h, items_none]
  · unfold signatureStr
    rw [items_cyclic h hd h2 _ 0 (by omega)]
    simp only [Nat.zero_add]
  · unfold signatureStr
    rw [items_error h h2 _ 0 (by omega) (by rintro h'; rw [h'] at h2; simp at h2)]

private theorem right_items (names defaults : List (List Char)) (hd : defaults.length ≤ names.length) :
    names.take (names.length - defaults.length) ++ List.zipWith (fun n d => n ++ '=' :: d) (names.drop (names.length - defaults.length)) defaults =
      names.mapIdx fun i name => if i < names.length - defaults.length then name
        else name ++ '=' :: defaults.getD (i - (names.length - defaults.length)) [] := by
  apply List.ext_getElem?
  intro i
  rw [List.getElem?_append, List.getElem?_mapIdx]
  by_cases h : i < names.length - defaults.length
  · rw [if_pos (by rw [List.length_take]; omega), List.getElem?_take_of_lt h]
    simp only [h, if_true]
    rw [List.getElem?_eq_getElem (by omega)]
    rfl
  · rw [if_neg (by rw [List.length_take]; omega), List.length_take, Nat.min_eq_left (by omega)]
    simp only [h, if_false]
    rw [List.getElem?_zipWith, List.getElem?_drop, show names.length - defaults.length + (i - (names.length - defaults.length)) = i by omega]
    by_cases hi : i < names.length
    · rw [List.getElem?_eq_getElem hi, List.getD_eq_getElem?_getD, List.getElem?_eq_getElem (by omega)]
      rfl
    · rw [List.getElem?_eq_none (by omega)]
      rfl

/-- **C85** The signature is right if there are no defaults, if all parameters have defaults, or if exactly half of them have. -/
theorem C85_right (f : Func) (h : f.defaults = [] ∨ f.shown.length = f.defaults.length ∨ f.shown.length = 2 * f.defaults.length) :
    signatureStr f = .ok (rightSignature f.shown f.defaults) := by
  by_cases hd : f.defaults = []
  · rw [(C85_text f (by rw [hd]; simp)).1 hd]
    unfold rightSignature
    rw [hd]
    simp
  · have hlen : f.shown.length = f.defaults.length ∨ f.shown.length = 2 * f.defaults.length := by
      rcases h with h | h
      · exact absurd h hd
      · exact h
    rw [(C85_text f (by omega)).2.1 hd (by omega)]
    unfold rightSignature
    simp only
    rw [right_items _ _ (by omega)]
    congr 2
    refine List.mapIdx_eq_mapIdx_iff.2 fun i hi => ?_
    unfold cyclicItem
    by_cases hc : i < f.shown.length - f.defaults.length
    · rw [if_pos hc, if_pos hc]
    · rw [if_neg hc, if_neg hc]
      have : i % f.defaults.length = i - (f.shown.length - f.defaults.length) := by
        rcases hlen with h | h
        · rw [Nat.mod_eq_of_lt (by omega)]; omega
        · rw [Nat.mod_eq_sub_mod (by omega), Nat.mod_eq_of_lt (by omega)]; omega
      rw [this]

private theorem join_inj {l l' : List (List Char)} (hl : l ≠ []) (hl' : l' ≠ []) (h : ∀ x ∈ l, ' ' ∉ x) (h' : ∀ x ∈ l', ' ' ∉ x)
    (he : Py.join [' '] l = Py.join [' '] l') : l = l' := by
  have h1 := Py.split_join (sep := [' ']) (by simp) hl fun x hx c hc hm => by
    rw [List.mem_singleton.1 hm] at hc; exact h x hx hc
  have h2 := Py.split_join (sep := [' ']) (by simp) hl' fun x hx c hc hm => by
    rw [List.mem_singleton.1 hm] at hc; exact h' x hx hc
  rw [he, h2] at h1
  exact (Except.ok.inj h1).symm

/-- **C85** In all other cases it is wrong, if the defaults are different: another text (names and defaults being without blanks), or an `IndexError`. -/
theorem C85_wrong (f : Func) (hd : f.defaults.length < f.shown.length) (h2 : f.shown.length ≠ 2 * f.defaults.length) (h0 : f.defaults ≠ [])
    (hdiff : f.defaults.Nodup) (hn : ∀ x ∈ f.shown, ' ' ∉ x) (hb : ∀ x ∈ f.defaults, ' ' ∉ x) :
    signatureStr f ≠ .ok (rightSignature f.shown f.defaults) := by
  have hpos : 0 < f.defaults.length := List.length_pos_iff.2 h0
  by_cases hlt : 2 * f.defaults.length < f.shown.length
  · rw [(C85_text f (by omega)).2.2 h0 hlt]
    intro h
    cases h
  · rw [(C85_text f (by omega)).2.1 h0 (by omega)]
    unfold rightSignature
    simp only
    rw [right_items _ _ (by omega)]
    intro he
    have hne : f.shown ≠ [] := by rintro h; rw [h] at hd; simp at hd
    have hblank : ∀ (g : Nat → List Char → List Char), (∀ i x, i < f.shown.length → x ∈ f.shown → ' ' ∉ g i x) → ∀ y ∈ f.shown.mapIdx g, ' ' ∉ y := by
      intro g hg y hy
      obtain ⟨i, hi, rfl⟩ := List.mem_mapIdx.1 hy
      exact hg i _ hi (List.getElem_mem hi)
    have hget : ∀ k, ' ' ∉ f.defaults.getD k [] := by
      intro k
      rw [List.getD_eq_getElem?_getD]
      cases hk : f.defaults[k]? with
      | none => simp
      | some y => exact hb y (List.mem_of_getElem? hk)
    have := join_inj (by simpa using hne) (by simpa using hne)
      (hblank _ fun i x _ hx => by
        unfold cyclicItem
        split
        · exact hn x hx
        · simp only [List.mem_append, List.mem_cons, not_or]
          exact ⟨hn x hx, by decide, hget _⟩)
      (hblank _ fun i x _ hx => by
        split
        · exact hn x hx
        · simp only [List.mem_append, List.mem_cons, not_or]
          exact ⟨hn x hx, by decide, hget _⟩) (Except.ok.inj he)
    -- the first parameter with a default
    have hi := List.mapIdx_eq_mapIdx_iff.1 this (f.shown.length - f.defaults.length) (by omega)
    unfold cyclicItem at hi
    rw [if_neg (by omega), if_neg (by omega), Nat.sub_self, Nat.mod_eq_of_lt (by omega)] at hi
    have hd' : f.defaults.getD (f.shown.length - f.defaults.length) [] = f.defaults.getD 0 [] := by
      have := List.append_cancel_left hi
      exact (List.cons.inj this).2
    rw [List.getD_eq_getElem?_getD, List.getD_eq_getElem?_getD, List.getElem?_eq_getElem (by omega), List.getElem?_eq_getElem hpos] at hd'
    have := (List.Nodup.getElem_inj_iff hdiff).1 hd'
    omega

/-- **C85** Of the functions in `COMMANDS`, the signatures shown for `decode`, `encode`, `view` and `help` are wrong, the others are right. -/
theorem C85_commands (n : Name) :
    (∃ t, signatureStr (func n) = .ok t) ∧
    (signatureStr (func n) = .ok (rightSignature (func n).shown (func n).defaults) ↔ n ≠ .decode ∧ n ≠ .encode ∧ n ≠ .view ∧ n ≠ .help) := by
  have key : ∀ n : Name, (match signatureStr (func n) with | .ok _ => true | .error _ => false) = true ∧
      (signatureStr (func n) = .ok (rightSignature (func n).shown (func n).defaults) ↔ n ≠ .decode ∧ n ≠ .encode ∧ n ≠ .view ∧ n ≠ .help) := by
    intro n
    cases n <;> decide +kernel
  refine ⟨?_, (key n).2⟩
  have := (key n).1
  split at this
  · exact ⟨_, by assumption⟩
  · cases this

/-- **C85** The parameters shown by `help` for each command. -/
theorem C85_table (n : Name) : signatureStr (func n) = .ok (match n with
    | .new => "self box_size=(3, 3)"
    | .generate => "min_count=0 symmetry=None box_size=(3, 3)"
    | .generateFromTemplate => "template tries=100"
    | .decode => "s empty=None number_sep='|' sudoku_sep=',' candidate_sep=None box_size='0'"
    | .get | .getCandidates => "self row col"
    | .set | .setCandidates | .removeCandidates => "self row col value"
    | .initCandidates => "sudoku filled_only=False"
    | .encode => "self row_sep='' col_sep=False include_candidates=''"
    | .view => "sudoku include_candidates=None number_sep='*' candidate_prefix=True align_right=True"
    | .solve => "self sudoku"
    | .loop => "self n"
    | .pop => "self position=None"
    | .help => "self command=True verbose=None"
    | .clear => ""
    | .print | .stack | .push | .exit => "self").toList := by
  cases n <;> decide +kernel

example : signatureStr (func .decode) = .ok "s empty=None number_sep='|' sudoku_sep=',' candidate_sep=None box_size='0'".toList ∧
    rightSignature (func .decode).shown (func .decode).defaults =
      "s empty='0' number_sep=None sudoku_sep='|' candidate_sep=',' box_size=None".toList := by decide +kernel
example : signatureStr (func .encode) = .ok "self row_sep='' col_sep=False include_candidates=''".toList := by decide +kernel
-- the example of the documentation, and one where it fails
example : signatureStr { args := ["a".toList, "b".toList], defaults := ["3".toList] } = .ok "a b=3".toList := by decide +kernel
example : signatureStr { args := ["a".toList, "b".toList, "c".toList], defaults := ["3".toList] } = .error .IndexError := by decide +kernel
example := C85_right { args := ["a".toList, "b".toList], defaults := ["3".toList] } (by decide)
example := C85_wrong { args := ["a".toList, "b".toList, "c".toList], defaults := ["3".toList, "4".toList] } (by decide) (by decide) (by decide) (by decide)
  (by decide) (by decide)

/-! ## C86: `help` -/

variable {σ ν ω : Type} {lib : Lib σ ν ω} {val : Val → ν} {docs : Name → Option (List Char)}

/-- The first line of the documentation, without surrounding whitespace. -/
def firstLine (d : Option (List Char)) : List Char := match d with
  | none => "(Not documented)".toList
  | some d => Py.strip (d.takeWhile (· ≠ '\n'))

/-- The line for a command: its name, the signature shown, and the first line of its documentation. -/
def helpLine (docs : Name → Option (List Char)) (name : List Char) (n : Name) (line : List Char) : Prop :=
  ∃ sig, signatureStr (func n) = .ok sig ∧ line = name ++ ' ' :: (sig ++ [':', ' '] ++ firstLine (docs n))

/-- What follows after the first line. -/
def afterFirstLine (d : Option (List Char)) : List Char := match d with
  | none => []
  | some d => (d.dropWhile (· ≠ '\n')).drop 1

private theorem split_ne (d acc : List Char) : Py.splitGo ['\n'] d 0 acc ≠ [] := by
  induction d generalizing acc with
  | nil => simp [Py.splitGo]
  | cons c d ih =>
    rw [Py.splitGo]
    split
    · simp
    · exact ih _

private theorem join_split (d acc : List Char) : Py.join ['\n'] (Py.splitGo ['\n'] d 0 acc) = acc.reverse ++ d := by
  induction d generalizing acc with
  | nil => simp [Py.splitGo, Py.join]
  | cons c d ih =>
    rw [Py.splitGo]
    by_cases hc : c = '\n'
    · subst hc
      rw [if_pos (by simp), show ['\n'].length - 1 = 0 from rfl, Py.join_cons _ _ (split_ne _ _), ih]
      simp
    · rw [if_neg (by simpa using fun h => hc h.symm), ih]
      simp

private theorem split_head (d acc : List Char) : (Py.splitGo ['\n'] d 0 acc).headD [] = acc.reverse ++ d.takeWhile (· ≠ '\n') ∧
    Py.join ['\n'] ((Py.splitGo ['\n'] d 0 acc).drop 1) = (d.dropWhile (· ≠ '\n')).drop 1 := by
  induction d generalizing acc with
  | nil => simp [Py.splitGo, Py.join]
  | cons c d ih =>
    rw [Py.splitGo]
    by_cases hc : c = '\n'
    · subst hc
      rw [if_pos (by simp)]
      simp [join_split]
    · rw [if_neg (by simpa using fun h => hc h.symm), (ih _).1, (ih _).2]
      simp [hc]

private theorem strip_mem {c : Char} {t : List Char} (h : c ∈ Py.strip t) : c ∈ t := by
  unfold Py.strip Py.stripBy at h
  rw [List.mem_reverse] at h
  have h1 := (List.dropWhile_sublist _).subset h
  rw [List.mem_reverse] at h1
  exact (List.dropWhile_sublist _).subset h1

private theorem first_line (d : Option (List Char)) : '\n' ∉ firstLine d := by
  cases d with
  | none => decide
  | some d =>
    intro h
    have := (List.all_eq_true.1 List.all_takeWhile) _ (strip_mem h)
    simp at this

private theorem one_eq (docs : Name → Option (List Char)) (name : List Char) (n : Name) (hc : command? name = some n) (v : Bool) :
    ∃ line, helpLine docs name n line ∧ '\n' ∉ line ∧ helpOne docs name v = .ok (line ++ if v then afterFirstLine (docs n) else []) := by
  have h1 : ∀ p ∈ commands, '\n' ∉ p.1 := by decide
  have h2 : ∀ n : Name, (match signatureStr (func n) with | .ok t => decide ('\n' ∉ t) | .error _ => false) = true := by
    intro n
    cases n <;> decide +kernel
  have hn : '\n' ∉ name := by
    unfold command? at hc
    cases hf : commands.find? (fun p => p.1 = name) with
    | none => rw [hf] at hc; cases hc
    | some p =>
      have h4 : p.1 = name := by simpa using List.find?_some hf
      exact h4 ▸ h1 p (List.mem_of_find?_eq_some hf)
  obtain ⟨⟨sig, hs⟩, _⟩ := C85_commands n
  have hsig : '\n' ∉ sig := by
    have := h2 n
    rw [hs] at this
    simpa using this
  have hfirst : helpFirst (docs n) = firstLine (docs n) := by
    cases docs n with
    | none => rfl
    | some d => unfold helpFirst firstLine; simp only; rw [(split_head d []).1]; rfl
  have hrest : helpRest v (docs n) = if v then afterFirstLine (docs n) else [] := by
    cases docs n with
    | none => unfold helpRest afterFirstLine; simp
    | some d =>
      unfold helpRest afterFirstLine
      simp only
      rw [(split_head d []).2]
      cases v with
      | false => simp
      | true =>
        by_cases hd0 : d = []
        · subst hd0
          simp
        · rw [if_pos ⟨rfl, hd0⟩, if_pos rfl]
  refine ⟨name ++ ' ' :: (sig ++ [':', ' '] ++ firstLine (docs n)), ⟨sig, hs, rfl⟩, ?_, ?_⟩
  · simp only [List.mem_append, List.mem_cons, not_or, List.not_mem_nil]
    exact ⟨hn, by decide, ⟨hsig, by decide, by decide, by simp⟩, first_line _⟩
  · unfold helpOne
    rw [hc]
    simp only
    rw [hs]
    simp only
    rw [hfirst, hrest]
    simp [Py.join]

private def lineOf (docs : Name → Option (List Char)) (name : List Char) : List Char := match helpOne docs name false with
  | .ok t => t
  | .error _ => []

private theorem lineOf_eq (docs : Name → Option (List Char)) (name : List Char) (n : Name) (hc : command? name = some n) :
    helpOne docs name false = .ok (lineOf docs name) ∧ helpLine docs name n (lineOf docs name) ∧ '\n' ∉ lineOf docs name := by
  obtain ⟨line, h1, h2, h3⟩ := one_eq docs name n hc false
  rw [if_neg (by simp), List.append_nil] at h3
  unfold lineOf
  rw [h3]
  exact ⟨rfl, h1, h2⟩

private theorem names_eq (docs : Name → Option (List Char)) (names : List (List Char)) (h : ∀ x ∈ names, ∃ n, command? x = some n) (s : List Char) :
    helpNames docs names s = .ok (s ++ (names.map fun x => " - ".toList ++ lineOf docs x).flatMap (· ++ ['\n'])) := by
  induction names generalizing s with
  | nil => simp [helpNames]
  | cons x names ih =>
    obtain ⟨n, hn⟩ := h x (by simp)
    rw [helpNames, (lineOf_eq docs x n hn).1]
    simp only
    rw [ih fun y hy => h y (by simp [hy])]
    simp

private def sectionLines (docs : Name → Option (List Char)) (p : List Char × List (List Char)) : List (List Char) :=
  p.1 :: (p.2.map fun x => " - ".toList ++ lineOf docs x) ++ [[]]

private theorem sections_eq (docs : Name → Option (List Char)) (l : List (List Char × List (List Char)))
    (h : ∀ p ∈ l, ∀ x ∈ p.2, ∃ n, command? x = some n) (s : List Char) :
    helpSections docs l s = .ok (s ++ (l.flatMap (sectionLines docs)).flatMap (· ++ ['\n'])) := by
  induction l generalizing s with
  | nil => simp [helpSections]
  | cons p l ih =>
    rw [helpSections, names_eq docs _ (h p (by simp))]
    simp only
    rw [ih fun q hq => h q (by simp [hq])]
    simp [sectionLines]

private theorem join_lines (l : List (List Char)) (x : List Char) : Py.join ['\n'] (l ++ [x]) = l.flatMap (· ++ ['\n']) ++ x := by
  induction l with
  | nil => simp [Py.join]
  | cons y l ih =>
    rw [List.cons_append, Py.join_cons _ _ (by simp), ih]
    simp

private theorem section_commands : ∀ p ∈ sections, ∀ x ∈ p.2, ∃ n, command? x = some n := by
  intro p hp x hx
  have : ∀ p ∈ sections, ∀ x ∈ p.2, (command? x).isSome = true := by decide
  exact Option.isSome_iff_exists.1 (this p hp x hx)

/-- **C86** `help_command()` raises nothing; the lines beginning with " - " tell each command exactly once. -/
theorem C86_all (docs : Name → Option (List Char)) :
    ∃ (text : List Char) (ls : List (List Char × List Char)), helpAll docs = .ok text ∧ (ls.map Prod.fst).Perm (commands.map Prod.fst) ∧
      (∀ p ∈ ls, ∃ n, command? p.1 = some n ∧ helpLine docs p.1 n p.2) ∧
      (Py.splitGo ['\n'] text 0 []).filter (" - ".toList.isPrefixOf ·) = ls.map fun p => " - ".toList ++ p.2 := by
  have hall : helpAll docs = .ok (Py.join ['\n'] (sections.flatMap (sectionLines docs) ++ ["NOTE: The 'sudoku' argument will be supplied automatically.".toList])) := by
    unfold helpAll
    rw [sections_eq docs _ section_commands, join_lines]
    rfl
  refine ⟨_, (sections.flatMap Prod.snd).map fun x => (x, lineOf docs x), hall, ?_, ?_, ?_⟩
  · rw [List.map_map, show (Prod.fst ∘ fun x => (x, lineOf docs x)) = id from rfl, List.map_id]
    decide
  · intro p hp
    obtain ⟨x, hx, rfl⟩ := List.mem_map.1 hp
    obtain ⟨q, hq, hx⟩ := List.mem_flatMap.1 hx
    obtain ⟨n, hn⟩ := section_commands q hq x hx
    exact ⟨n, hn, (lineOf_eq docs x n hn).2.1⟩
  · have hsplit := Py.split_join (sep := ['\n']) (by simp) (l := sections.flatMap (sectionLines docs) ++ ["NOTE: The 'sudoku' argument will be supplied automatically.".toList])
      (by simp) (by
        intro x hx c hc hm
        rw [List.mem_singleton.1 hm] at hc
        rcases List.mem_append.1 hx with hx | hx
        · obtain ⟨q, hq, hx⟩ := List.mem_flatMap.1 hx
          unfold sectionLines at hx
          rcases List.mem_append.1 hx with hx | hx
          · rcases List.mem_cons.1 hx with rfl | hx
            · have : ∀ q ∈ sections, '\n' ∉ q.1 := by decide
              exact this q hq hc
            · obtain ⟨y, hy, rfl⟩ := List.mem_map.1 hx
              obtain ⟨n, hn⟩ := section_commands q hq y hy
              rcases List.mem_append.1 hc with hc | hc
              · exact absurd hc (by decide)
              · exact (lineOf_eq docs y n hn).2.2 hc
          · rw [List.mem_singleton.1 hx] at hc
            cases hc
        · rw [List.mem_singleton.1 hx] at hc
          exact absurd hc (by decide))
    unfold Py.split at hsplit
    rw [if_neg (by simp)] at hsplit
    rw [Except.ok.inj hsplit, List.filter_append]
    have h1 : ["NOTE: The 'sudoku' argument will be supplied automatically.".toList].filter (" - ".toList.isPrefixOf ·) = [] := by decide
    rw [h1, List.append_nil]
    have h2 : ∀ l : List (List Char × List (List Char)), (∀ q ∈ l, " - ".toList.isPrefixOf q.1 = false) →
        (l.flatMap (sectionLines docs)).filter (" - ".toList.isPrefixOf ·) = (l.flatMap Prod.snd).map fun x => " - ".toList ++ lineOf docs x := by
      intro l hl
      induction l with
      | nil => rfl
      | cons q l ih =>
        rw [List.flatMap_cons, List.flatMap_cons, List.filter_append, List.map_append, ih fun y hy => hl y (by simp [hy])]
        congr 1
        unfold sectionLines
        rw [List.filter_append, List.filter_cons, if_neg (by rw [hl q (by simp)]; simp)]
        have h3 : ([[]] : List (List Char)).filter (" - ".toList.isPrefixOf ·) = [] := by decide
        rw [h3, List.append_nil]
        refine List.filter_eq_self.2 fun x hx => ?_
        obtain ⟨y, _, rfl⟩ := List.mem_map.1 hx
        simp
    rw [h2 _ (by decide), List.map_map]
    rfl

private theorem help_line (i : Bool) (s : State σ ν ω) (args : List (Arg ν)) (hl : s.loopN = none) (line : List Char) (h1 : ';' ∉ line)
    (h2 : parse lib (Py.strip line) = .ok ⟨.help, args, []⟩) :
    executeLine lib i line s = match lib.help args [] with
      | .ok t => ({ s with out := s.out ++ [.text (t ++ ['\n'])] }, none)
      | .error e => error i (.exn e) s := by
  rw [line_part lib i h1, part_plain hl h2]
  unfold execute executeWith callWith
  simp only
  cases lib.help args [] <;> rfl

private theorem helpFn_none (docs : Name → Option (List Char)) (v : Arg Val) : helpFn docs [.value .none, v] = helpAll docs := by
  unfold helpFn
  exact if_neg (by decide)

private theorem helpFn_command (docs : Name → Option (List Char)) (name : List Char) : helpFn docs [.command name, .value (.bool true)] = helpOne docs name true := rfl

/-- **C86** `help` prints the text of `C86_all`, and changes nothing else. -/
theorem C86_help (hh : RealHelp lib val docs) (i : Bool) (s : State σ ν ω) (hl : s.loopN = none) :
    ∃ text, helpAll docs = .ok text ∧ executeLine lib i "help".toList s = ({ s with out := s.out ++ [.text (text ++ ['\n'])] }, none) := by
  obtain ⟨text, _, h, _⟩ := C86_all docs
  refine ⟨text, h, ?_⟩
  rw [help_line i s [] hl "help".toList (by decide) rfl]
  have := hh [] []
  rw [show ([] : List (Arg ν)) = [].map (Arg.map val) from rfl, show ([] : List (List Char × ν)) = kwMap val [] from rfl, this]
  rw [show bindCommand .help [] [] = .ok [.value .none, .value (.bool true)] from rfl]
  simp only [helpFn_none]
  rw [h]

private theorem parse_help (lib : Lib σ ν ω) : ∀ p ∈ commands, ';' ∉ "help ".toList ++ p.1 ∧
    parse lib (Py.strip ("help ".toList ++ p.1)) = .ok ⟨.help, [.command p.1], []⟩ := by
  intro p hp
  have key : ∀ p ∈ commands, ';' ∉ "help ".toList ++ p.1 ∧ Py.splitGo [' '] (Py.strip ("help ".toList ++ p.1)) 0 [] = ["help".toList, p.1] ∧
      Py.cut ['='] p.1 = none ∧ (command? p.1).isSome = true := by decide +kernel
  obtain ⟨h1, h2, h3, h4⟩ := key p hp
  refine ⟨h1, ?_⟩
  unfold parse
  rw [h2]
  simp only [parseItems, h3, h4, if_true, List.nil_append]
  rfl

/-- **C86** `help command` prints the line for the command followed by the rest of its documentation, and changes nothing else. -/
theorem C86_command (hh : RealHelp lib val docs) (i : Bool) (s : State σ ν ω) (hl : s.loopN = none) (name : List Char) (n : Name) (hn : (name, n) ∈ commands) :
    ∃ line, helpLine docs name n line ∧ executeLine lib i ("help ".toList ++ name) s =
      ({ s with out := s.out ++ [.text (line ++ afterFirstLine (docs n) ++ ['\n'])] }, none) := by
  obtain ⟨h1, h2⟩ := parse_help lib _ hn
  have hc : command? name = some n := by
    have : ∀ p ∈ commands, command? p.1 = some p.2 := by decide
    exact this _ hn
  obtain ⟨line, g1, _, g3⟩ := one_eq docs name n hc true
  refine ⟨line, g1, ?_⟩
  rw [help_line i s _ hl _ h1 h2]
  have := hh [.command name] []
  rw [show [Arg.command name] = [Arg.command name].map (Arg.map val) from rfl, show ([] : List (List Char × ν)) = kwMap val [] from rfl, this]
  rw [show bindCommand .help [.command name] [] = .ok [.command name, .value (.bool true)] from rfl]
  simp only [helpFn_command]
  rw [g3, if_pos rfl]

/-- **C86** Anything else is an error that changes nothing: a `KeyError` for `help end`, an `AttributeError` for a number other than 0 (`help 0` is `help`). -/
theorem C86_error {lib : Lib Sudoku ν ω} {π : Solve.SetOrder} {fuel : Nat} (hr : Real lib val π fuel) (hh : RealHelp lib val docs) (i : Bool)
    (s : State Sudoku ν ω) (hl : s.loopN = none) :
    executeLine lib i "help end".toList s = error i (.exn .KeyError) s ∧
    (∀ k : Int, k ≠ 0 → executeLine lib i (commandText "help" [k]) s = error i (.exn .AttributeError) s) ∧
    executeLine lib i (commandText "help" [0]) s = executeLine lib i "help".toList s := by
  have key : ∀ k : Int, executeLine lib i (commandText "help" [k]) s = match helpFn docs [.value (.int k), .value (.bool true)] with
      | .ok t => ({ s with out := s.out ++ [.text (t ++ ['\n'])] }, none)
      | .error e => error i (.exn e) s := by
    intro k
    obtain ⟨h2, h1⟩ := text_parse hr "help" .help rfl [k]
    rw [help_line i s _ hl _ h1 h2]
    have := hh [.value (.int k)] []
    rw [show intArgs val [k] = [Arg.value (.int k)].map (Arg.map val) from rfl, show ([] : List (List Char × ν)) = kwMap val [] from rfl, this]
    rfl
  refine ⟨?_, fun k hk => ?_, ?_⟩
  · rw [help_line i s [.keyword "end".toList] hl _ (by decide) rfl]
    have := hh [.keyword "end".toList] []
    rw [show [Arg.keyword "end".toList] = [Arg.keyword "end".toList].map (Arg.map val) from rfl, show ([] : List (List Char × ν)) = kwMap val [] from rfl, this]
    rfl
  · rw [key k]
    have : helpFn docs [.value (.int k), .value (.bool true)] = .error .AttributeError := by
      unfold helpFn
      exact if_pos (by simpa [Arg.truth, Val.truth] using hk)
    rw [this]
  · obtain ⟨text, h, he⟩ := C86_help hh i s hl
    have : helpFn docs [.value (.int 0), .value (.bool true)] = helpAll docs := by
      unfold helpFn
      exact if_neg (by decide)
    rw [key 0, this, he, h]

-- a shell with the documentation of one of the functions
private def sortedOrder : Solve.SetOrder := fun _ S => Solvers.sortSet S
private def someDocs : Name → Option (List Char)
  | .set => some "Same as sudoku[row, col] = value.".toList
  | .encode => some "Return sudoku as a (machine-readable) string.\n\n        This method".toList
  | _ => none
private def demoHelp : Lib Sudoku Val Unit :=
  { demo sortedOrder 100 with help := fun args kwargs => match bindCommand .help args kwargs with
    | .error e => .error e
    | .ok vs => helpFn someDocs vs }
private theorem demo_help : RealHelp demoHelp id someDocs := by
  intro args kwargs
  rw [(map_id args kwargs).1, (map_id args kwargs).2]
  rfl
private theorem demo_help_real : Real demoHelp id sortedOrder 100 :=
  let h := demo_real sortedOrder 100
  ⟨h.literal', h.toInt', h.isNone', h.isEnd', h.str', h.fresh, h.copy, h.createError, h.create, h.callError, h.call⟩
private def start : State Sudoku Val Unit := init demoHelp true ()
example := C86_help demo_help true start rfl
example := C86_error demo_help_real demo_help true start rfl
example := C86_command demo_help true start rfl "decode".toList .decode (by decide)
example : (executeLine demoHelp true "help set".toList start).1.out = [.text "set self row col value: Same as sudoku[row, col] = value.\n".toList] := by decide +kernel
example : (executeLine demoHelp true "help encode".toList start).1.out =
    [.text "encode self row_sep='' col_sep=False include_candidates='': Return sudoku as a (machine-readable) string.\n        This method\n".toList] := by
  decide +kernel
example : (executeLine demoHelp true "help encode verbose=0".toList start).1.out =
    [.text "encode self row_sep='' col_sep=False include_candidates='': Return sudoku as a (machine-readable) string.\n".toList] := by decide +kernel

end Props
