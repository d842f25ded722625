import Verif.Props.Scripts
import Verif.Props.Codec
import Verif.Props.ErrorText

set_option autoImplicit false

/-!
# C81 - C83: arguments of commands, `encode` and `decode` in the shell, `generate` with options
-/

open Spec

namespace Props

open Shell

/-! ## C81: arguments by position and by name -/

/-- The value of a parameter that is not given by position: the one given by name, or the default if there is none with this name. -/
def Given {α : Type} (kwargs : List (List Char × α)) (p : List Char × Option α) (v : α) : Prop :=
  (p.1, v) ∈ kwargs ∨ (p.1 ∉ kwargs.map Prod.fst ∧ p.2 = some v)

/-- The parameters `sig` (names and defaults) get the values `vs`: first the ones given by position; all names belong to one of the
other parameters. -/
def Binds {α : Type} (sig : List (List Char × Option α)) (args : List α) (kwargs : List (List Char × α)) (vs : List α) : Prop :=
  ∃ rest, vs = args ++ rest ∧ args.length ≤ sig.length ∧ List.Forall₂ (Given kwargs) (sig.drop args.length) rest ∧
    ∀ p ∈ kwargs, p.1 ∈ (sig.drop args.length).map Prod.fst

private theorem find_key {α : Type} {kwargs : List (List Char × α)} (hk : (kwargs.map Prod.fst).Nodup) (name : List Char) :
    (∃ v, kwargs.find? (fun p => p.1 = name) = some (name, v) ∧ (name, v) ∈ kwargs ∧ ∀ v', (name, v') ∈ kwargs → v' = v) ∨
    kwargs.find? (fun p => p.1 = name) = none ∧ name ∉ kwargs.map Prod.fst := by
  cases h : kwargs.find? (fun p => p.1 = name) with
  | none =>
    right
    refine ⟨rfl, fun hm => ?_⟩
    obtain ⟨p, hp, rfl⟩ := List.mem_map.1 hm
    have := List.find?_eq_none.1 h p hp
    simp at this
  | some p =>
    left
    have h1 : p.1 = name := by simpa using List.find?_some h
    have h2 := List.mem_of_find?_eq_some h
    obtain ⟨n, v⟩ := p
    simp only at h1
    subst h1
    refine ⟨v, rfl, h2, fun v' hv' => ?_⟩
    have := List.inj_on_of_nodup_map hk hv' h2 rfl
    exact (Prod.mk.inj this).2

private theorem fill_iff {α : Type} {kwargs : List (List Char × α)} (hk : (kwargs.map Prod.fst).Nodup) (sig : List (List Char × Option α)) :
    (∀ vs, fill kwargs sig = .ok vs ↔ List.Forall₂ (Given kwargs) sig vs) ∧ ∀ e, fill kwargs sig = .error e → e = .TypeError := by
  induction sig with
  | nil =>
    refine ⟨fun vs => ?_, fun e h => by cases h⟩
    rw [List.forall₂_nil_left_iff, fill, Except.ok.injEq, eq_comm]
  | cons p sig ih =>
    obtain ⟨name, dflt⟩ := p
    rw [fill]
    have key : ∃ o : Option α, valueFor kwargs name dflt = o ∧
        ∀ v, Given kwargs (name, dflt) v ↔ o = some v := by
      rcases find_key hk name with ⟨v, h1, h2, h3⟩ | ⟨h1, h2⟩
      · refine ⟨some v, by rw [valueFor, h1], fun v' => ⟨?_, ?_⟩⟩
        · rintro (h | ⟨h, _⟩)
          · rw [h3 _ h]
          · exact absurd (List.mem_map_of_mem h2) h
        · intro h
          cases h
          exact .inl h2
      · refine ⟨dflt, by rw [valueFor, h1], fun v => ⟨?_, fun h => .inr ⟨h2, h⟩⟩⟩
        rintro (h | ⟨_, h⟩)
        · exact absurd (List.mem_map_of_mem h) h2
        · exact h
    obtain ⟨o, h1, h2⟩ := key
    rw [h1]
    cases o with
    | none =>
      refine ⟨fun vs => ⟨fun h => (by cases h), fun h => ?_⟩, fun e h => by cases h; rfl⟩
      cases h with
      | cons h _ => rw [h2] at h; cases h
    | some v =>
      simp only
      cases hf : fill kwargs sig with
      | error e =>
        refine ⟨fun vs => ⟨fun h => (by cases h), fun h => ?_⟩, fun e' h => by cases h; exact ih.2 _ hf⟩
        cases h with
        | cons _ h =>
          rw [(ih.1 _).2 h] at hf
          cases hf
      | ok vs' =>
        refine ⟨fun vs => ⟨fun h => ?_, fun h => ?_⟩, fun e h => by cases h⟩
        · cases h
          exact .cons ((h2 v).2 rfl) ((ih.1 _).1 hf)
        · cases h with
          | cons h3 h4 =>
            rw [h2] at h3
            cases h3
            rw [(ih.1 _).2 h4] at hf
            cases hf
            rfl

/-- **C81** A call gives the parameters the values of `Binds`, and is a `TypeError` if there are none. -/
theorem C81_binds {α : Type} (sig : List (List Char × Option α)) (args : List α) (kwargs : List (List Char × α))
    (hk : (kwargs.map Prod.fst).Nodup) :
    (∀ vs, bindArgs sig args kwargs = .ok vs ↔ Binds sig args kwargs vs) ∧
    ((¬ ∃ vs, Binds sig args kwargs vs) → bindArgs sig args kwargs = .error .TypeError) := by
  have key : (∀ vs, bindArgs sig args kwargs = .ok vs ↔ Binds sig args kwargs vs) ∧ ∀ e, bindArgs sig args kwargs = .error e → e = .TypeError := by
    unfold bindArgs
    by_cases h1 : sig.length < args.length
    · rw [if_pos h1]
      refine ⟨fun vs => ⟨fun h => (by cases h), ?_⟩, fun e h => by cases h; rfl⟩
      rintro ⟨_, _, h, _⟩
      omega
    rw [if_neg h1]
    by_cases h2 : (kwargs.any fun p => !((sig.drop args.length).map Prod.fst).contains p.1) = true
    · rw [if_pos h2]
      refine ⟨fun vs => ⟨fun h => (by cases h), ?_⟩, fun e h => by cases h; rfl⟩
      rintro ⟨_, _, _, _, h⟩
      obtain ⟨p, hp, h3⟩ := List.any_eq_true.1 h2
      have := h p hp
      rw [← List.contains_iff_mem] at this
      rw [this] at h3
      cases h3
    rw [if_neg h2]
    have h3 : ∀ p ∈ kwargs, p.1 ∈ (sig.drop args.length).map Prod.fst := by
      intro p hp
      by_contra h
      refine h2 (List.any_eq_true.2 ⟨p, hp, ?_⟩)
      rw [← List.contains_iff_mem] at h
      simpa using h
    cases hf : fill kwargs (sig.drop args.length) with
    | error e =>
      refine ⟨fun vs => ⟨fun h => (by cases h), ?_⟩, fun e' h => by cases h; exact (fill_iff hk _).2 _ hf⟩
      rintro ⟨rest, _, _, h, _⟩
      rw [((fill_iff hk _).1 _).2 h] at hf
      cases hf
    | ok rest =>
      refine ⟨fun vs => ⟨fun h => ?_, ?_⟩, fun e h => by cases h⟩
      · cases h
        exact ⟨rest, rfl, by omega, ((fill_iff hk _).1 _).1 hf, h3⟩
      · rintro ⟨rest', rfl, _, h, _⟩
        rw [((fill_iff hk _).1 _).2 h] at hf
        cases hf
        rfl
  refine ⟨key.1, fun h => ?_⟩
  cases hb : bindArgs sig args kwargs with
  | ok vs => exact absurd ⟨vs, (key.1 vs).1 hb⟩ h
  | error e => rw [key.2 e hb]

private theorem set_keys {α : Type} (kwargs : List (List Char × α)) (name : List Char) (v : α) :
    (setKwarg kwargs name v).map Prod.fst = if name ∈ kwargs.map Prod.fst then kwargs.map Prod.fst else kwargs.map Prod.fst ++ [name] := by
  unfold setKwarg
  have : (kwargs.any fun p => p.1 == name) = true ↔ name ∈ kwargs.map Prod.fst := by simp
  by_cases h : name ∈ kwargs.map Prod.fst
  · rw [if_pos (this.2 h), if_pos h, List.map_map]
    refine List.map_congr_left fun p _ => ?_
    by_cases hp : p.1 = name <;> simp [hp]
  · rw [if_neg (fun h' => h (this.1 h')), if_neg h, List.map_append]
    rfl

private theorem set_mem {α : Type} (kwargs : List (List Char × α)) (name : List Char) (v : α) (n : List Char) (x : α) :
    (n, x) ∈ setKwarg kwargs name v ↔ if n = name then x = v else (n, x) ∈ kwargs := by
  unfold setKwarg
  by_cases h : (kwargs.any fun p => p.1 == name) = true
  · rw [if_pos h]
    obtain ⟨q, hq, hqn⟩ := List.any_eq_true.1 h
    have hqn : q.1 = name := by simpa using hqn
    rw [List.mem_map]
    by_cases hn : n = name
    · subst hn
      rw [if_pos rfl]
      constructor
      · rintro ⟨p, hp, he⟩
        by_cases hp' : p.1 = n
        · rw [if_pos hp'] at he; exact (Prod.mk.inj he).2.symm
        · rw [if_neg hp'] at he; exact absurd (by rw [he]) hp'
      · rintro rfl
        exact ⟨q, hq, by rw [if_pos hqn]⟩
    · rw [if_neg hn]
      constructor
      · rintro ⟨p, hp, he⟩
        by_cases hp' : p.1 = name
        · rw [if_pos hp'] at he; exact absurd (Prod.mk.inj he).1.symm hn
        · rw [if_neg hp'] at he; exact he ▸ hp
      · intro hm
        exact ⟨_, hm, by rw [if_neg hn]⟩
  · rw [if_neg h, List.mem_append, List.mem_singleton, Prod.mk.injEq]
    have h' : ∀ p ∈ kwargs, p.1 ≠ name := by
      intro p hp hpn
      exact h (List.any_eq_true.2 ⟨p, hp, by simp [hpn]⟩)
    by_cases hn : n = name
    · subst hn
      rw [if_pos rfl]
      constructor
      · rintro (hm | ⟨_, h⟩)
        · exact absurd rfl (h' _ hm)
        · exact h
      · rintro rfl; exact .inr ⟨rfl, rfl⟩
    · rw [if_neg hn]
      simp [hn]

private theorem keyArgs_nodup (items : List Item) (kwargs : List (List Char × Val)) (hk : (kwargs.map Prod.fst).Nodup) :
    ((keyArgs items kwargs).map Prod.fst).Nodup := by
  induction items generalizing kwargs with
  | nil => exact hk
  | cons x items ih =>
    cases x with
    | pos t v => exact ih _ hk
    | key name t v =>
      refine ih _ ?_
      rw [set_keys]
      by_cases h : name ∈ kwargs.map Prod.fst
      · rwa [if_pos h]
      · rw [if_neg h]
        exact List.nodup_append.2 ⟨hk, by simp, by rintro a ha b hb rfl; rw [List.mem_singleton.1 hb] at ha; exact h ha⟩

private theorem keyArgs_mem (items : List Item) (kwargs : List (List Char × Val)) (n : List Char) (v : Val) :
    (n, v) ∈ keyArgs items kwargs ↔ (∃ l m t, items = l ++ .key n t v :: m ∧ ∀ t' v', Item.key n t' v' ∉ m) ∨
      ((∀ t' v', Item.key n t' v' ∉ items) ∧ (n, v) ∈ kwargs) := by
  induction items generalizing kwargs with
  | nil => simp [keyArgs]
  | cons x items ih =>
    have hcons : (∃ l m t, x :: items = l ++ .key n t v :: m ∧ ∀ t' v', Item.key n t' v' ∉ m) ↔
        (∃ l m t, items = l ++ .key n t v :: m ∧ ∀ t' v', Item.key n t' v' ∉ m) ∨
        ((∃ t, x = .key n t v) ∧ ∀ t' v', Item.key n t' v' ∉ items) := by
      constructor
      · rintro ⟨l, m, t, h1, h2⟩
        cases l with
        | nil => simp only [List.nil_append, List.cons.injEq] at h1; exact .inr ⟨⟨t, h1.1⟩, h1.2 ▸ h2⟩
        | cons y l => simp only [List.cons_append, List.cons.injEq] at h1; exact .inl ⟨l, m, t, h1.2, h2⟩
      · rintro (⟨l, m, t, rfl, h2⟩ | ⟨⟨t, rfl⟩, h2⟩)
        · exact ⟨x :: l, m, t, rfl, h2⟩
        · exact ⟨[], items, t, rfl, h2⟩
    rw [hcons]
    cases x with
    | pos t v' =>
      rw [keyArgs, ih]
      simp
    | key name t v' =>
      rw [keyArgs, ih, set_mem]
      by_cases hn : n = name
      · subst hn
        rw [if_pos rfl]
        constructor
        · rintro (h | ⟨h, rfl⟩)
          · exact .inl (.inl h)
          · exact .inl (.inr ⟨⟨t, rfl⟩, h⟩)
        · rintro ((h | ⟨⟨t', h'⟩, h⟩) | ⟨h, _⟩)
          · exact .inl h
          · cases h'; exact .inr ⟨h, rfl⟩
          · exact absurd (by simp) (h t v')
      · rw [if_neg hn]
        constructor
        · rintro (h | ⟨h, h'⟩)
          · exact .inl (.inl h)
          · refine .inr ⟨fun t' v'' hm => ?_, h'⟩
            rcases List.mem_cons.1 hm with hm | hm
            · cases hm; exact hn rfl
            · exact h _ _ hm
        · rintro ((h | ⟨⟨t', h'⟩, h⟩) | ⟨h, h'⟩)
          · exact .inl h
          · cases h'; exact absurd rfl hn
          · exact .inr ⟨fun t' v'' hm => h t' v'' (by simp [hm]), h'⟩

/-- **C81** If a name is used several times in a line, the last value counts. -/
theorem C81_last (items : List Item) : ((keyArgs items []).map Prod.fst).Nodup ∧
    ∀ n v, (n, v) ∈ keyArgs items [] ↔ ∃ l m t, items = l ++ .key n t v :: m ∧ ∀ t' v', Item.key n t' v' ∉ m := by
  refine ⟨keyArgs_nodup items [] (by simp), fun n v => ?_⟩
  rw [keyArgs_mem]
  simp

/-- What a call needs, for the command and the arguments of a line. -/
def LineBinds (name : Name) (items : List Item) (vs : List (Arg Val)) : Prop :=
  Binds (signatureArgs name) (posArgs items) ((keyArgs items []).map fun p => (p.1, .value p.2)) vs

theorem line_binds (name : Name) (items : List Item) : (∀ vs, bindCommand name (posArgs items) (keyArgs items []) = .ok vs ↔
    LineBinds name items vs) ∧ ((¬ ∃ vs, LineBinds name items vs) → bindCommand name (posArgs items) (keyArgs items []) = .error .TypeError) := by
  refine C81_binds _ _ _ ?_
  rw [List.map_map]
  exact (C81_last items).1

variable {ν ω : Type} {lib : Lib Sudoku ν ω} {val : Val → ν} {π : Solve.SetOrder} {fuel : Nat}

/-- The commands that are library functions. -/
def IsLibrary (name : Name) : Prop :=
  name ≠ .loop ∧ name ≠ .exit ∧ name ≠ .stack ∧ name ≠ .push ∧ name ≠ .pop ∧ name ≠ .help

/-- **C81** A line with too many, unknown, doubled or missing arguments is an error (`TypeError`), and changes nothing. -/
theorem C81_type_error (hr : Real lib val π fuel) (i : Bool) (w : String) (name : Name) (hw : command? w.toList = some name) (hn : IsLibrary name)
    (items : List Item) (hi : ∀ x ∈ items, x.Ok) (h : ¬ ∃ vs, LineBinds name items vs) (s : State Sudoku ν ω) (hs : Separate s)
    (hl : s.loopN = none) : executeLine lib i (itemText w items) s = error i (.exn .TypeError) s := by
  have h0 := (item_execute hr i w name hw hn items hi s hl).trans (library lib i ⟨name, _, _⟩ hn s)
  have hb := (line_binds name items).2 h
  by_cases ht : name.takesSudoku = true
  · simp only [if_pos ht] at h0
    rw [hr.callError _ _ _ _ _ _ ht hb] at h0
    simp only [Pre.apply] at h0
    rw [set_self s hs] at h0
    exact h0
  · have ht' : name.takesSudoku = false := by simpa using ht
    simp only [ht', Bool.false_eq_true, if_false] at h0
    rw [hr.createError _ _ _ _ _ ht' hb] at h0
    exact h0

/-- **C81** Two lines that give the parameters the same values do the same: it does not matter whether they are given by position or by
name, in which order, or left out because they are the default. -/
theorem C81_same (hr : Real lib val π fuel) (i : Bool) (w : String) (name : Name) (hw : command? w.toList = some name) (hn : IsLibrary name)
    (items items' : List Item) (hi : ∀ x ∈ items, x.Ok) (hi' : ∀ x ∈ items', x.Ok) (vs : List (Arg Val)) (h : LineBinds name items vs)
    (h' : LineBinds name items' vs) (s : State Sudoku ν ω) (hl : s.loopN = none)
    (hm : if name.takesSudoku then callFn π fuel (s.sudoku lib) name vs ≠ none else createFn name vs ≠ none) :
    executeLine lib i (itemText w items) s = executeLine lib i (itemText w items') s := by
  rw [(item_execute hr i w name hw hn items hi s hl).trans (library lib i ⟨name, _, _⟩ hn s),
    (item_execute hr i w name hw hn items' hi' s hl).trans (library lib i ⟨name, _, _⟩ hn s)]
  have hb := ((line_binds name items).1 vs).2 h
  have hb' := ((line_binds name items').1 vs).2 h'
  by_cases ht : name.takesSudoku = true
  · rw [if_pos ht] at hm
    simp only [if_pos ht]
    obtain ⟨⟨y, r⟩, hy⟩ := Option.ne_none_iff_exists'.1 hm
    rw [hr.call _ _ _ _ _ _ _ _ ht hb hy, hr.call _ _ _ _ _ _ _ _ ht hb' hy]
  · rw [if_neg ht] at hm
    have ht' : name.takesSudoku = false := by simpa using ht
    simp only [ht', Bool.false_eq_true, if_false]
    obtain ⟨r, hy⟩ := Option.ne_none_iff_exists'.1 hm
    rw [hr.create _ _ _ _ _ _ ht' hb hy, hr.create _ _ _ _ _ _ ht' hb' hy]

/-- **C81** `decode` reports an `AttributeError` and changes nothing if its first parameter `s` gets anything but a string, whatever the other
arguments are (also a command or the word `end`, which are not quoted). -/
theorem C81_decode (hr : Real lib val π fuel) (i : Bool) (items : List Item) (hi : ∀ x ∈ items, x.Ok) (v : Arg Val) (vs : List (Arg Val))
    (h : LineBinds .decode items (v :: vs)) (hv : ∀ t, v ≠ .value (.str t)) (s : State Sudoku ν ω) (hl : s.loopN = none) :
    executeLine lib i (itemText "decode" items) s = error i (.exn .AttributeError) s := by
  have h0 := (item_execute hr i "decode" .decode rfl (by simp [IsLibrary]) items hi s hl).trans (library lib i ⟨.decode, _, _⟩ (by simp [IsLibrary]) s)
  have hb := ((line_binds .decode items).1 _).2 h
  have hf : createFn .decode (v :: vs) = some (.error ⟨.AttributeError, .builtin⟩) := by
    cases v with
    | value x =>
      cases x with
      | str t => exact absurd rfl (hv t)
      | none => rfl
      | bool _ => rfl
      | int _ => rfl
      | ints _ _ => rfl
    | command _ => rfl
    | keyword _ => rfl
  simp only [show Name.decode.takesSudoku = false from rfl, Bool.false_eq_true, if_false] at h0
  rw [hr.create _ _ _ _ _ _ rfl hb hf] at h0
  exact h0

/-- **C81** The commands `loop` (`p` is `n`, which has no default) and `pop` (`p` is `position`) get their argument in the same way. -/
theorem C81_shell (p : List Char) (args : List (Arg ν)) (kwargs : List (List Char × ν)) (hk : (kwargs.map Prod.fst).Nodup) :
    (∀ o, bindOne p args kwargs = .ok o ↔
      Binds [(p, some none)] (args.map some) (kwargs.map fun q => (q.1, some (Arg.value q.2))) [o]) ∧
    ∀ e, bindOne p args kwargs = .error e → e = .TypeError := by
  have hk' : ((kwargs.map fun q => (q.1, some (Arg.value q.2))).map Prod.fst).Nodup := by rw [List.map_map]; exact hk
  have hb := (C81_binds [(p, some none)] (args.map some) (kwargs.map fun q => (q.1, some (Arg.value q.2))) hk').1
  constructor
  · intro o
    rw [← hb]
    cases args with
    | nil =>
      cases kwargs with
      | nil => simp [bindOne, bindArgs, fill, valueFor]
      | cons q kwargs =>
        cases kwargs with
        | nil =>
          by_cases hq : q.1 = p
          · simp [bindOne, bindArgs, fill, valueFor, hq]
          · simp [bindOne, bindArgs, hq]
        | cons r kwargs =>
          have hne : ¬ (q.1 = p ∧ r.1 = p) := by
            rintro ⟨h1, h2⟩
            simp [h1, h2] at hk
          constructor
          · intro h; cases h
          · intro h
            exfalso
            have : bindArgs [(p, some (none : Option (Arg ν)))] [] ((q :: r :: kwargs).map fun q => (q.1, some (Arg.value q.2))) = .error .TypeError := by
              unfold bindArgs
              rw [if_neg (by simp), if_pos]
              simp only [List.length_nil, List.drop_zero, List.map_cons, List.map_nil, List.any_cons, Bool.or_eq_true]
              by_cases h1 : q.1 = p
              · have h2 : r.1 ≠ p := fun h => hne ⟨h1, h⟩
                exact .inr (.inl (by simpa using h2))
              · exact .inl (by simpa using h1)
            rw [List.map_nil, this] at h
            cases h
    | cons a args =>
      cases args with
      | nil =>
        cases kwargs with
        | nil => simp [bindOne, bindArgs, fill]
        | cons q kwargs => simp [bindOne, bindArgs]
      | cons b args => simp [bindOne, bindArgs]
  · intro e h
    unfold bindOne at h
    split at h
    · cases h
    · cases h
    · split at h
      · cases h
      · cases h; rfl
    · cases h; rfl

/-! ## C82: `encode` and `decode` -/

theorem created (i : Bool) (name : Name) (hn : IsLibrary name) (ht : name.takesSudoku = false) (args : List (Arg ν))
    (kwargs : List (List Char × ν)) (s : State Sudoku ν ω) (hs : Separate s) (u : ω) (x : Sudoku)
    (h : lib.create name args kwargs s.world = (u, .ok (.sudoku x))) :
    ∃ t, executeBody lib i ⟨name, args, kwargs⟩ s = (t, none) ∧ t.sudoku lib = x ∧ stackValues lib t = stackValues lib s ∧ t.out = s.out ∧
      t.errors = s.errors := by
  have h0 := library lib i ⟨name, args, kwargs⟩ hn s
  simp only [ht, Bool.false_eq_true, if_false, h] at h0
  refine ⟨_, h0, ?_, ?_, rfl, rfl⟩
  · simp [State.sudoku, Pre.apply]
  · unfold stackValues
    simp only [Pre.apply]
    refine List.map_congr_left fun a ha => ?_
    rw [List.getD_eq_getElem?_getD, List.getD_eq_getElem?_getD, List.getElem?_append_left (hs.stack a ha)]

private theorem encode_chars (x : Sudoku) (b : Bool) : ∀ c ∈ Codec.encode x [] [] b, Py.isDigit c = true ∨ c = '-' ∨ c = '|' ∨ c = ',' := by
  have h1 : ∀ c ∈ Codec.encodeNumbers x [] [], Py.isDigit c = true ∨ c = '-' := by
    intro c hc
    rcases Py.mem_join hc with h | ⟨t, ht, h⟩
    · cases h
    · obtain ⟨r, _, rfl⟩ := List.mem_map.1 ht
      rcases Py.mem_join h with h | ⟨t, ht, h⟩
      · cases h
      · obtain ⟨r, _, rfl⟩ := List.mem_map.1 ht
        exact Py.intStr_chars _ _ h
  intro c hc
  unfold Codec.encode at hc
  by_cases hb : b = true
  · rw [if_pos hb] at hc
    rcases List.mem_append.1 hc with h | h
    · rcases h1 c h with h | h
      · exact .inl h
      · exact .inr (.inl h)
    · rcases List.mem_cons.1 h with h | h
      · exact .inr (.inr (.inl h))
      · rcases Py.mem_join h with h | ⟨t, ht, h⟩
        · exact .inr (.inr (.inr (by simpa using h)))
        · obtain ⟨a, _, rfl⟩ := List.mem_map.1 ht
          obtain ⟨t, ht, h⟩ := List.mem_flatten.1 h
          obtain ⟨k, _, rfl⟩ := List.mem_map.1 ht
          rcases Py.intStr_chars k _ h with h | h
          · exact .inl h
          · exact .inr (.inl h)
  · rw [if_neg hb] at hc
    rcases h1 c hc with h | h
    · exact .inl h
    · exact .inr (.inl h)

/-- The line that reads the text `t` (printed by `encode`) again; the box size may be left out if the boxes are squares. -/
def decodeLine (t : List Char) : Option (Nat × Nat) → List Char
  | none => "decode \"".toList ++ t ++ ['"']
  | some (w, h) => "decode \"".toList ++ t ++ "\" box_size=(".toList ++ Py.natStr w ++ ',' :: Py.natStr h ++ [')']

/-- What can be given to `decode` in double quotes as the first argument. -/
def Quoted (t : List Char) : Prop := Quotable '"' t ∧ Word t ∧ '=' ∉ t

/-- How `decode "t"` is executed. -/
theorem decode_call (hr : Real lib val π fuel) (t : List Char) (ht : Quoted t) (box : Option (Nat × Nat)) :
    ∃ items : List Item, decodeLine t box = itemText "decode" items ∧ (∀ y ∈ items, y.Ok) ∧
      ∀ u, lib.create .decode ((posArgs items).map (Arg.map val)) (kwMap val (keyArgs items [])) u =
        (u, ofSudoku (ErrorText.decodeSudoku (standardArgs '0' box) t)) := by
  obtain ⟨hq, hw, he⟩ := ht
  have hword : Word ('"' :: (t ++ ['"'])) := by
    intro c hc
    simp only [List.mem_cons, List.mem_append, List.not_mem_nil, or_false] at hc
    rcases hc with rfl | hc | rfl
    · decide
    · exact hw c hc
    · decide
  have heq : '=' ∉ '"' :: (t ++ ['"']) := by simp [he]
  have hit : (Item.pos ('"' :: (t ++ ['"'])) (.str t)).Ok := ⟨literal_str (.inl rfl) hq, hword, heq⟩
  have key : ∃ items : List Item, decodeLine t box = itemText "decode" items ∧ (∀ y ∈ items, y.Ok) ∧
      ∃ vs, bindCommand .decode (posArgs items) (keyArgs items []) = .ok vs ∧ createFn .decode vs = some (ofSudoku (ErrorText.decodeSudoku (standardArgs '0' box) t)) := by
    cases box with
    | none =>
      exact ⟨[.pos ('"' :: (t ++ ['"'])) (.str t)], rfl, by simpa using hit, _, rfl, rfl⟩
    | some wh =>
      obtain ⟨w, h⟩ := wh
      have hn : ∀ k : Nat, Py.intStr k = Py.natStr k := fun k => by
        unfold Py.intStr
        rw [if_neg (by omega)]
        rfl
      refine ⟨[.pos ('"' :: (t ++ ['"'])) (.str t), .key "box_size".toList ('(' :: (commaText [(w : Int), h] ++ [')'])) (.ints .tuple [(w : Int), h])],
        ?_, ?_, _, rfl, ?_⟩
      · have hc : commaText [(w : Int), h] = Py.natStr w ++ ',' :: Py.natStr h := by
          show Py.intStr w ++ [','] ++ Py.intStr h = _
          rw [hn, hn, List.append_assoc]
          rfl
        show "decode \"".toList ++ t ++ "\" box_size=(".toList ++ Py.natStr w ++ ',' :: Py.natStr h ++ [')'] =
          "decode".toList ++ [' '] ++ (('"' :: (t ++ ['"'])) ++ [' '] ++ ("box_size".toList ++ '=' :: '(' :: (commaText [(w : Int), h] ++ [')'])))
        rw [hc]
        simp only [List.append_assoc, List.cons_append]
        rfl
      · intro y hy
        simp only [List.mem_cons, List.not_mem_nil, or_false] at hy
        rcases hy with rfl | rfl
        · exact hit
        · refine ⟨literal_tuple [(w : Int), h] (by simp), ?_, by simp [Word]; decide, by decide⟩
          intro c hc
          simp only [List.mem_cons, List.mem_append, List.not_mem_nil, or_false] at hc
          rcases hc with rfl | hc | rfl
          · decide
          · rcases commaText_chars _ hc with h | rfl | rfl
            · refine ⟨Py.not_isSpace_of_digit h, ?_⟩
              rintro rfl
              exact absurd h (by decide)
            · decide
            · decide
          · decide
      · show some (ofSudoku (ErrorText.decodeSudoku (standardArgs '0' (some ((w : Int).toNat, (h : Int).toNat))) t)) = _
        simp only [Int.toNat_natCast]
  obtain ⟨items, h1, h2, vs, h3, h4⟩ := key
  exact ⟨items, h1, h2, fun u => hr.create _ _ _ _ _ _ rfl h3 h4⟩

private theorem decode_line (hr : Real lib val π fuel) (i : Bool) (t : List Char)
    (ht : ∀ c ∈ t, Py.isDigit c = true ∨ c = '-' ∨ c = '|' ∨ c = ',') (box : Option (Nat × Nat)) (x : Sudoku)
    (hx : Codec.decode (standardArgs '0' box) t = .ok x) (s : State Sudoku ν ω) (hs : Separate s) (hl : s.loopN = none) :
    ∃ v, executeLine lib i (decodeLine t box) s = (v, none) ∧ v.sudoku lib = x ∧ stackValues lib v = stackValues lib s ∧ v.out = s.out ∧
      v.errors = s.errors := by
  have hno : ∀ d : Char, Py.isDigit d = false → d ≠ '-' → d ≠ '|' → d ≠ ',' → d ∉ t := by
    intro d h1 h2 h3 h4 hm
    rcases ht d hm with h | h | h | h
    · rw [h1] at h; cases h
    · exact h2 h
    · exact h3 h
    · exact h4 h
  have hq : Quotable '"' t := by
    intro c hc
    refine ⟨?_, ?_, ?_, ?_, ?_⟩
    · rintro rfl; exact hno _ (by decide) (by decide) (by decide) (by decide) hc
    · rintro rfl; exact hno _ (by decide) (by decide) (by decide) (by decide) hc
    · rintro rfl; exact hno _ (by decide) (by decide) (by decide) (by decide) hc
    · rintro rfl; exact hno _ (by decide) (by decide) (by decide) (by decide) hc
    · intro h0
      rcases ht c hc with h | rfl | rfl | rfl
      · simp [Py.isDigit, h0] at h
      · exact absurd h0 (by decide)
      · exact absurd h0 (by decide)
      · exact absurd h0 (by decide)
  have hw : Word t := by
    intro c hc
    rcases ht c hc with h | rfl | rfl | rfl
    · refine ⟨Py.not_isSpace_of_digit h, ?_⟩
      rintro rfl
      exact absurd h (by decide)
    · decide
    · decide
    · decide
  obtain ⟨items, h1, h2, h3⟩ := decode_call hr t ⟨hq, hw, hno '=' (by decide) (by decide) (by decide) (by decide)⟩ box
  rw [h1, item_execute hr i "decode" .decode rfl (by simp) items h2 s hl]
  exact created i .decode (by simp [IsLibrary]) rfl _ _ s hs s.world x (by rw [h3, ErrorText.decodeSudoku_ok hx]; rfl)

private theorem encode_line (hr : Real lib val π fuel) (i : Bool) (s : State Sudoku ν ω) (hs : Separate s) (hl : s.loopN = none) :
    executeLine lib i "encode include_candidates=True".toList s =
      ({ s with out := s.out ++ [.text (Codec.encode (s.sudoku lib) [] [] true ++ ['\n'])] }, none) := by
  have h0 := (item_execute hr i "encode" .encode rfl (by simp) [.key "include_candidates".toList "True".toList (.bool true)] (by
    intro x hx
    rw [List.mem_singleton.1 hx]
    exact ⟨by decide, by simp [Word]; decide, by simp [Word]; decide, by decide⟩) s hl).trans (library lib i ⟨.encode, _, _⟩ (by simp) s)
  simp only [Name.takesSudoku, if_true] at h0
  rw [hr.call .encode _ _ _ _ _ (s.sudoku lib) (.ok (.text (Codec.encode (s.sudoku lib) [] [] true))) rfl rfl rfl] at h0
  simp only [Pre.apply] at h0
  rw [set_self s hs] at h0
  exact h0

/-- **C82** The text printed by `encode`, given to `decode` in any shell, makes a sudoku with the same numbers the current one. -/
theorem C82_numbers (hr : Real lib val π fuel) (i : Bool) (s : State Sudoku ν ω) (hs : Separate s) (hl : s.loopN = none)
    (hd : OneDigit (s.sudoku lib)) (box : Option (Nat × Nat))
    (hbox : box = some ((s.sudoku lib).bw, (s.sudoku lib).bh) ∨ box = none ∧ (s.sudoku lib).bw = (s.sudoku lib).bh) :
    ∃ t, executeLine lib i "encode".toList s = ({ s with out := s.out ++ [.text (t ++ ['\n'])] }, none) ∧
      ∀ (j : Bool) (s' : State Sudoku ν ω), Separate s' → s'.loopN = none → ∃ v, executeLine lib j (decodeLine t box) s' = (v, none) ∧
        SameNumbers (s.sudoku lib) (v.sudoku lib) ∧ (∀ a, (v.sudoku lib).getCandidates a = ∅) ∧ stackValues lib v = stackValues lib s' ∧
        v.out = s'.out ∧ v.errors = s'.errors := by
  obtain ⟨x, h1, h2, h3⟩ := C09_roundtrip (s.sudoku lib) hd (standardArgs '0' box) (standardArgs_ok '0' (by decide) (by decide) (by decide) box) hbox [] []
    (by simp) (by simp)
  refine ⟨_, (C69_print hr i s hs hl).1, fun j s' hs' hl' => ?_⟩
  obtain ⟨v, k1, k2, k3⟩ := decode_line hr j _ (encode_chars _ _) box x h1 s' hs' hl'
  exact ⟨v, k1, k2 ▸ h2, k2 ▸ h3.2.2.2, k3⟩

/-- **C82** With candidates. -/
theorem C82_candidates (hr : Real lib val π fuel) (i : Bool) (s : State Sudoku ν ω) (hs : Separate s) (hl : s.loopN = none)
    (hd : OneDigit (s.sudoku lib)) (hc : OneDigitCandidates (s.sudoku lib)) (box : Option (Nat × Nat))
    (hbox : box = some ((s.sudoku lib).bw, (s.sudoku lib).bh) ∨ box = none ∧ (s.sudoku lib).bw = (s.sudoku lib).bh) :
    ∃ t, executeLine lib i "encode include_candidates=True".toList s = ({ s with out := s.out ++ [.text (t ++ ['\n'])] }, none) ∧
      ∀ (j : Bool) (s' : State Sudoku ν ω), Separate s' → s'.loopN = none → ∃ v, executeLine lib j (decodeLine t box) s' = (v, none) ∧
        SameNumbers (s.sudoku lib) (v.sudoku lib) ∧
        (∀ a, InGrid (s.sudoku lib).bw (s.sudoku lib).bh a → (v.sudoku lib).getCandidates a = (s.sudoku lib).getCandidates a) ∧
        stackValues lib v = stackValues lib s' ∧ v.out = s'.out ∧ v.errors = s'.errors := by
  obtain ⟨x, h1, h2, h3⟩ := C10_roundtrip (s.sudoku lib) hd hc (standardArgs '0' box) (standardArgs_ok '0' (by decide) (by decide) (by decide) box) hbox [] []
    (by simp) (by simp)
  refine ⟨_, encode_line hr i s hs hl, fun j s' hs' hl' => ?_⟩
  obtain ⟨v, k1, k2, k3⟩ := decode_line hr j _ (encode_chars _ _) box x h1 s' hs' hl'
  exact ⟨v, k1, k2 ▸ h2, k2 ▸ h3, k3⟩

/-! ## C83: `generate` with options -/

/-- The value of the argument `symmetry`. -/
def symmetryValue : Option String → Val
  | none => .none
  | some t => .str t.toList

private theorem generate_call (hg : RealGenerate lib val) (items : List Item) (m : Int) (sym : Option String) (kind : Kind) (hk : kind ≠ .set) (w h : Nat)
    (hw : 0 < w) (hh : 0 < h) (hb : LineBinds .generate items [.value (.int m), .value (symmetryValue sym), .value (.ints kind [(w : Int), h])]) (u : ω) :
    ∃ (e : Generate.Env w h) (u' : ω), lib.create .generate ((posArgs items).map (Arg.map val)) (kwMap val (keyArgs items [])) u =
      (u', ofGenerated (ErrorText.envGenerate e m sym)) := by
  refine hg.generate' _ _ u _ m sym w h (((line_binds _ items).1 _).2 hb) ?_
  have h1 : ¬ (kind = .set ∨ (w : Int) ≤ 0 ∨ (h : Int) ≤ 0) := by
    rintro (h | h | h)
    · exact hk h
    · omega
    · omega
  cases sym with
  | none => simp only [generateArgs, symmetryValue, if_neg h1, Int.toNat_natCast]
  | some t => simp only [generateArgs, symmetryValue, if_neg h1, Int.toNat_natCast, String.ofList_toList]

/-- **C83** `generate` with the arguments `min_count`, `symmetry` and `box_size` (in any order, by position or by name): if `min_count` is not too large and
the symmetry exists, the current sudoku becomes one with exactly one solution, at least `min_count` filled fields, and this symmetry. -/
theorem C83_generate (hr : Real lib val π fuel) (hg : RealGenerate lib val) (i : Bool) (s : State Sudoku ν ω) (hs : Separate s) (hl : s.loopN = none)
    (items : List Item) (hi : ∀ x ∈ items, x.Ok) (m : Int) (sym : Option String) (kind : Kind) (hk : kind ≠ .set) (w h : Nat) (hw : 0 < w) (hh : 0 < h)
    (hb : LineBinds .generate items [.value (.int m), .value (symmetryValue sym), .value (.ints kind [(w : Int), h])])
    (hm : m ≤ ((w * h) ^ 2 : Nat)) (hsym : sym ∈ symmetries) :
    ∃ t, executeLine lib i (itemText "generate" items) s = (t, none) ∧ Plain w h (t.sudoku lib) ∧ UniqueSolution w h (t.sudoku lib).get ∧
      m ≤ (t.sudoku lib).count ∧ Symmetric sym (w * h) (fun a => (t.sudoku lib).get a ≠ 0) ∧ stackValues lib t = stackValues lib s ∧ t.out = s.out ∧
      t.errors = s.errors := by
  obtain ⟨e, u, he⟩ := generate_call hg items m sym kind hk w h hw hh hb s.world
  obtain ⟨x, hx⟩ := (C39_value_error e m sym).2 (by
    rintro (h | h)
    · omega
    · exact h hsym)
  rw [ErrorText.envGenerate_ok hx] at he
  rw [item_execute hr i "generate" .generate rfl (by simp) items hi s hl]
  obtain ⟨t, h1, h2, h3⟩ := created i .generate (by simp [IsLibrary]) rfl _ _ s hs u x he
  obtain ⟨k1, sol, -, k2, k3⟩ := C35_unique e m sym x hx
  refine ⟨t, h1, h2 ▸ k1, h2 ▸ ⟨sol.get, k2, k3⟩, h2 ▸ C36_min_count e m sym x hx, h2 ▸ C37_symmetry e m sym x hx, h3⟩

/-- What `generate` says about wrong arguments. -/
def generateMessage (m : Int) (limit : Nat) : List Char :=
  if m > limit then "min_count must be <= ".toList ++ Py.natStr limit ++ " (".toList ++ Py.intStr m ++ " was given).".toList
  else "symmetry must be one of None, rotate-90, rotate-180, mirror-x, mirror-y, mirror-xy".toList

/-- **C83** Otherwise there is an error (`ValueError`) which says what is wrong, and the current sudoku and the stack stay. -/
theorem C83_error (hr : Real lib val π fuel) (hg : RealGenerate lib val) (i : Bool) (s : State Sudoku ν ω) (hl : s.loopN = none)
    (items : List Item) (hi : ∀ x ∈ items, x.Ok) (m : Int) (sym : Option String) (kind : Kind) (hk : kind ≠ .set) (w h : Nat) (hw : 0 < w) (hh : 0 < h)
    (hb : LineBinds .generate items [.value (.int m), .value (symmetryValue sym), .value (.ints kind [(w : Int), h])])
    (hm : m > ((w * h) ^ 2 : Nat) ∨ sym ∉ symmetries) :
    ∃ u, executeLine lib i (itemText "generate" items) s =
      error i (.exn .ValueError (.text (generateMessage m ((w * h) ^ 2)))) { s with world := u } := by
  obtain ⟨e, u, he⟩ := generate_call hg items m sym kind hk w h hw hh hb s.world
  have hx : ErrorText.envGenerate e m sym = .error ⟨.ValueError, .text (generateMessage m ((w * h) ^ 2))⟩ := by
    refine (C110_generate e m sym _).2 ?_
    unfold generateMessage
    by_cases h1 : m > ((w * h) ^ 2 : Nat)
    · exact .inl ⟨h1, by rw [if_pos h1]; rfl⟩
    · exact .inr ⟨Int.not_lt.1 h1, hm.resolve_left h1, by rw [if_neg h1]; rfl⟩
  rw [hx] at he
  refine ⟨u, ?_⟩
  have h0 := (item_execute hr i "generate" .generate rfl (by simp) items hi s hl).trans (library lib i ⟨.generate, _, _⟩ (by simp) s)
  simp only [Name.takesSudoku, Bool.false_eq_true, if_false, he] at h0
  exact h0

/-- **C83** `generate_from_template` (with `tries >= 0`): the current sudoku becomes one with exactly one solution that has its filled fields where the
current one had them, or there is an error (`RuntimeError`) which says how many tries there were, and the current sudoku stays. -/
theorem C83_template (hr : Real lib val π fuel) (hg : RealGenerate lib val) (i : Bool) (s : State Sudoku ν ω) (hs : Separate s) (hl : s.loopN = none)
    (items : List Item) (hi : ∀ x ∈ items, x.Ok) (tries : Int) (ht : 0 ≤ tries) (hb : LineBinds .generateFromTemplate items [.value (.int tries)])
    (hw : 0 < (s.sudoku lib).bw) (hh : 0 < (s.sudoku lib).bh) :
    (∃ t, executeLine lib i (itemText "generate_from_template" items) s = (t, none) ∧ Matches (s.sudoku lib) (t.sudoku lib) ∧
      stackValues lib t = stackValues lib s ∧ t.out = s.out ∧ t.errors = s.errors) ∨
    ∃ u, executeLine lib i (itemText "generate_from_template" items) s =
      error i (.exn .RuntimeError (.text ("Failed to generate sudoku from template within ".toList ++ Py.intStr tries ++ " tries.".toList)))
        { s with world := u } := by
  obtain ⟨e, rounds, u, h1, h2⟩ := hg.template _ _ (s.sudoku lib) s.world tries (((line_binds _ items).1 _).2 hb) ht hw hh
  have h0 := (item_execute hr i "generate_from_template" .generateFromTemplate rfl (by simp) items hi s hl).trans
    (library lib i ⟨.generateFromTemplate, _, _⟩ (by simp) s)
  simp only [Name.takesSudoku, if_true, h2, Pre.apply] at h0
  rw [set_self s hs] at h0
  rw [h0]
  obtain ⟨n, rfl⟩ := Int.eq_ofNat_of_zero_le ht
  by_cases hall : ∀ k < n, Fails e k
  · right
    refine ⟨u, ?_⟩
    have hx := (C40_gives_up (s.sudoku lib) e rounds n (by omega)).2 hall
    rw [← ErrorText.forget_generateFromTemplate] at hx
    cases hy : ErrorText.generateFromTemplate e.fuel rounds e.f (s.sudoku lib) n with
    | ok x => rw [hy] at hx; cases hx
    | error x =>
      rw [C110_template (s.sudoku lib) e rounds n x hy]
      rfl
  · left
    push Not at hall
    classical
    have hmin := Nat.find_spec hall
    obtain ⟨x, hx⟩ := C40_success (s.sudoku lib) e rounds n (Nat.find hall) (Or.inl (by exact_mod_cast hmin.1)) (by
      intro j hj
      by_contra hf
      exact Nat.find_min hall hj ⟨by omega, hf⟩) hmin.2 (by omega)
    have hx' := C40_result _ e _ _ _ hx
    rw [ErrorText.generateFromTemplate_ok hx]
    refine ⟨_, rfl, ?_, ?_, rfl, rfl⟩
    · have : ∀ s' : State Sudoku ν ω, s' = { s with world := u, heap := s.heap ++ [x], cur := s.heap.length } → s'.sudoku lib = x := by
        rintro s' rfl
        simp [State.sudoku]
      rw [this _ rfl]
      exact hx'
    · unfold stackValues
      simp only
      refine List.map_congr_left fun a ha => ?_
      rw [List.getD_eq_getElem?_getD, List.getD_eq_getElem?_getD, List.getElem?_append_left (hs.stack a ha)]

/-! ## Samples -/

private def sortedOrder : Solve.SetOrder := fun _ S => Solvers.sortSet S
private def demo' : Lib Sudoku Val Unit := demo sortedOrder 100
private def start : State Sudoku Val Unit := init demo' true ()
private def after (l : List String) : State Sudoku Val Unit := (seq (executeLine demo' true) (l.map String.toList) start).1

-- the value 5 for a field, written in three ways
private def ways : List (List Item) :=
  [[.pos "0".toList (.int 0), .pos "1".toList (.int 1), .pos "5".toList (.int 5)],
   [.key "value".toList "5".toList (.int 5), .key "col".toList "1".toList (.int 1), .key "row".toList "0".toList (.int 0)],
   [.pos "0".toList (.int 0), .key "value".toList "7".toList (.int 7), .key "col".toList "1".toList (.int 1), .key "value".toList "5".toList (.int 5)]]

private theorem ways_bind : ∀ items ∈ ways, LineBinds .set items [.value (.int 0), .value (.int 1), .value (.int 5)] := by
  intro items hi
  rw [← (line_binds .set items).1]
  simp only [ways, List.mem_cons, List.not_mem_nil, or_false] at hi
  rcases hi with rfl | rfl | rfl <;> rfl

private theorem ways_ok : ∀ items ∈ ways, ∀ x ∈ items, x.Ok := by
  have key : ∀ items ∈ ways, ∀ x ∈ items, match x with
      | .pos t v => literalEval t = some v ∧ (∀ c ∈ t, Py.isSpace c = false ∧ c ≠ ';') ∧ '=' ∉ t
      | .key n t v => literalEval t = some v ∧ (∀ c ∈ t, Py.isSpace c = false ∧ c ≠ ';') ∧ (∀ c ∈ n, Py.isSpace c = false ∧ c ≠ ';') ∧ '=' ∉ n := by
    intro items hi
    simp only [ways, List.mem_cons, List.not_mem_nil, or_false] at hi
    rcases hi with rfl | rfl | rfl <;> simp only [List.mem_cons, List.not_mem_nil, or_false, forall_eq_or_imp, forall_eq] <;> decide +kernel
  intro items hi x hx
  have := key items hi x hx
  cases x <;> exact this

example : ways.map (itemText "set") = ["set 0 1 5".toList, "set value=5 col=1 row=0".toList, "set 0 value=7 col=1 value=5".toList] := by decide +kernel
example : ∀ a ∈ ways, ∀ b ∈ ways, executeLine demo' true (itemText "set" a) start = executeLine demo' true (itemText "set" b) start :=
  fun a ha b hb => C81_same (demo_real _ _) true "set" .set rfl (by simp [IsLibrary]) a b (ways_ok a ha) (ways_ok b hb) _ (ways_bind a ha) (ways_bind b hb)
    start rfl (by simp [Name.takesSudoku, callFn])
example : ((after ["set 0 value=7 col=1 value=5"]).sudoku demo').get (0, 1) = 5 := by decide +kernel
-- a missing argument, an unknown name, a name that is already used up, the name of the sudoku itself
example : (after ["set 0 1", "set 0 1 number=5", "set 0 1 5 col=2", "encode self=1", "new 2 2"]).errors = List.replicate 5 (.exn .TypeError) := by
  decide +kernel
-- something other than a string
example : (after ["decode 123", "decode None", "decode s=(1,2)"]).errors = List.replicate 3 (.exn .AttributeError) := by decide +kernel
example (s : State Sudoku Val Unit) (hl : s.loopN = none) := C81_decode (demo_real sortedOrder 100) true [.key "s".toList "123".toList (.int 123)]
  (by intro x hx; simp only [List.mem_singleton] at hx; subst hx
      exact ⟨by decide +kernel, by unfold Word; decide +kernel, by unfold Word; decide +kernel, by decide⟩) (.value (.int 123)) _ (((line_binds .decode _).1 _).1 rfl) (by simp) s hl
-- what `encode` prints can be read again
example : (after ["new 2,2", "set 0 1 3", "set_candidates 0 0 {1,2}", "encode include_candidates=True"]).out =
    [.text "0300000000000000|12,,,,,,,,,,,,,,,\n".toList] := by decide +kernel
example : ((after ["decode \"0300000000000000|12,,,,,,,,,,,,,,,\""]).sudoku demo').get (0, 1) = 3 ∧
    ((after ["decode \"0300000000000000|12,,,,,,,,,,,,,,,\""]).sudoku demo').getCandidates (0, 0) = {1, 2} := by decide +kernel
-- blanks in strings are not possible
example : (after ["decode \"0300 0000 0000 0000\""]).errors = [.message "Invalid argument: \"0300 (Did you forget quotation marks?)".toList] := by decide +kernel
-- the options of `generate`
private def options : List Item :=
  [.key "symmetry".toList "\"rotate-180\"".toList (.str "rotate-180".toList), .key "min_count".toList "30".toList (.int 30)]
example : itemText "generate" options = "generate symmetry=\"rotate-180\" min_count=30".toList := by decide +kernel
private theorem options_ok : ∀ x ∈ options, x.Ok := by
  intro x hx
  simp only [options, List.mem_cons, List.not_mem_nil, or_false] at hx
  rcases hx with rfl | rfl
  · exact ⟨by decide +kernel, by unfold Word; decide +kernel, by unfold Word; decide +kernel, by decide⟩
  · exact ⟨by decide +kernel, by unfold Word; decide +kernel, by unfold Word; decide +kernel, by decide⟩
private theorem options_bind : LineBinds .generate options [.value (.int 30), .value (symmetryValue (some "rotate-180")), .value (.ints .tuple [((3 : Nat) : Int), (3 : Nat)])] := by
  rw [← (line_binds .generate options).1]
  rfl
private def dice : Lib Sudoku Val Unit := demoGenerate sortedOrder 100
example (s : State Sudoku Val Unit) (hs : Separate s) (hl : s.loopN = none) := C83_generate (demoGenerate_real sortedOrder 100) (demoGenerate_generate _ _) true s hs hl options
  options_ok 30 (some "rotate-180") .tuple (by simp) 3 3 (by decide) (by decide) options_bind (by decide) (by decide)
example (s : State Sudoku Val Unit) (hs : Separate s) (hl : s.loopN = none) (hw : 0 < (s.sudoku dice).bw) (hh : 0 < (s.sudoku dice).bh) :=
  C83_template (demoGenerate_real sortedOrder 100) (demoGenerate_generate _ _) true s hs hl [] (by simp) 100 (by decide)
    (((line_binds .generateFromTemplate []).1 _).1 rfl) hw hh

end Props
