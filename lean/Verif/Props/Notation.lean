import Verif.Proofs.NotationEncode

set_option autoImplicit false

/-!
# Properties of `notation.encode` and `notation.decode` (C41 - C46)

Strings are lists of characters.  `between w h nsep` is what stands between two numbers (`nsep`, or the default).
-/

open Spec Spec.Text Notation

namespace Props

theorem valid_inGrid {w h : Nat} {cs : List (Int × Int)} (hv : Valid w h cs) (a : Cell) (ha : Among cs a) : InGrid w h a := by
  have := hv _ ha
  simp only at this
  exact ⟨by omega, by omega⟩

theorem among_of_valid {w h : Nat} {cs : List (Int × Int)} (hv : Valid w h cs) (h0 : cs ≠ []) : ∃ a, Among cs a := by
  obtain ⟨rc, hrc⟩ := List.exists_mem_of_ne_nil _ h0
  have := hv rc hrc
  refine ⟨(rc.1.toNat, rc.2.toNat), ?_⟩
  unfold Among
  have e : (((rc.1.toNat : Nat) : Int), ((rc.2.toNat : Nat) : Int)) = rc := Prod.ext (by simp; omega) (by simp; omega)
  rw [e]
  exact hrc

/-- **C41** Decoding an encoded collection of coordinates gives its fields in order, whatever form is used. -/
theorem C41_roundtrip (w h : Nat) (hw : 0 < w) (hh : 0 < h) (sep nsep : List Char) (hs : SepOk sep) (hn : NumSepOk nsep)
    (cs : List (Int × Int)) (hv : Valid w h cs) (h0 : cs ≠ []) (ub : Option Bool) :
    ∃ s l, encode cs w h ub sep nsep = .ok s ∧ decode s w h sep nsep = .ok l ∧ SortedFields l (Among cs) := by
  obtain ⟨rs, bs, h1, h2, h3⟩ := encode_forms hw hh hv sep nsep
  obtain ⟨a, ha⟩ := among_of_valid hv h0
  have hX := valid_inGrid hv
  have key : ∀ {k v : Letter} (_ : Form k v) {ds : List Block} (_ : Canonical w h k v (Among cs) ds),
      ∃ l, decode (text sep (between w h nsep) (ds.map (Block.group k v))) w h sep nsep = .ok l ∧ SortedFields l (Among cs) := by
    intro k v hf ds c
    obtain ⟨l, h4, h5, h6⟩ := decode_text hw hh hs hn (by simpa using canonical_ne_nil c ha) (proper_block hf hX c)
    exact ⟨l, h4, h5, fun a => (h6 a).trans (named_block hf hX c a)⟩
  obtain ⟨l1, hl1⟩ := key (.inl ⟨rfl, rfl⟩) h1
  obtain ⟨l2, hl2⟩ := key (.inr ⟨rfl, rfl⟩) h2
  have e := h3 ub
  cases ub with
  | none =>
    simp only at e
    by_cases hlt : (text sep (between w h nsep) (bs.map (Block.group .b .p))).length <
        (text sep (between w h nsep) (rs.map (Block.group .r .c))).length
    · rw [if_pos hlt] at e
      exact ⟨_, l2, e, hl2⟩
    · rw [if_neg hlt] at e
      exact ⟨_, l1, e, hl1⟩
  | some b =>
    cases b
    · exact ⟨_, l1, e, hl1⟩
    · exact ⟨_, l2, e, hl2⟩

/-- The default separators can be used. -/
theorem comma_ok : SepOk [','] ∧ NumSepOk [] := by
  refine ⟨⟨fun l => by cases l <;> decide, ',', rfl, by decide⟩, fun ch h => by simp at h⟩

/-- **C41** With the default arguments. -/
theorem C41_default (w h : Nat) (hw : 0 < w) (hh : 0 < h) (cs : List (Int × Int)) (hv : Valid w h cs) (h0 : cs ≠ []) :
    ∃ s l, encode cs w h none [','] [] = .ok s ∧ decode s w h [','] [] = .ok l ∧ SortedFields l (Among cs) :=
  C41_roundtrip w h hw hh _ _ comma_ok.1 comma_ok.2 cs hv h0 none

/-- **C41** No coordinates: the empty string, which `decode` rejects. -/
theorem C41_empty (w h : Nat) (hw : 0 < w) (hh : 0 < h) (ub : Option Bool) (sep nsep : List Char) :
    encode [] w h ub sep nsep = .ok [] ∧ decode [] w h sep nsep = .error .ValueError := by
  constructor
  · unfold encode
    rw [checkSize_ok hw hh]
    cases ub with
    | none => rfl
    | some b => cases b <;> rfl
  · have h1 : removeWhitespace sep (numberSep nsep (w * h)) [] = [] := removeWhitespace_none (by simp)
    have h2 : ∀ c : Char, splitGroup sep c [] = [[]] := fun c => rfl
    have h3 : splitGroups sep [] = [[]] := by
      unfold splitGroups
      simp [h2]
    unfold decode
    rw [checkSize_ok hw hh]
    simp only
    rw [h1, h3]
    rfl

/-- **C41** An empty separator of groups does not work, although `decode` accepts it. -/
theorem C41_no_separator :
    encode [(0, 0)] 3 3 none [] [] = .ok "r1c1".toList ∧ decode "r1c1".toList 3 3 [] [] = .error .ValueError := by
  decide +kernel

example : Valid 3 3 [(0, 0), (4, 8), (4, 0)] ∧ encode [(0, 0), (4, 8), (4, 0)] 3 3 none [','] [] = .ok "r1c1,r5c19".toList := by
  refine ⟨?_, by decide +kernel⟩
  intro rc h
  simp only [List.mem_cons, List.not_mem_nil, or_false] at h
  rcases h with rfl | rfl | rfl <;> decide

example : encode [(11, 11), (0, 2)] 4 3 (some true) [';', ' '] [] = .ok "b1p3; b12p12".toList ∧ SepOk [';', ' '] := by
  refine ⟨by decide +kernel, ⟨fun l => by cases l <;> decide, ' ', rfl, by decide⟩⟩

/-- **C42** What `encode` writes: the one canonical description of the set of coordinates, by rows and columns or by boxes and
places. -/
theorem C42_form (w h : Nat) (hw : 0 < w) (hh : 0 < h) (sep nsep : List Char) (cs : List (Int × Int)) (hv : Valid w h cs) :
    ∃ rs bs, Canonical w h .r .c (Among cs) rs ∧ Canonical w h .b .p (Among cs) bs ∧
      encode cs w h (some false) sep nsep = .ok (text sep (between w h nsep) (rs.map (Block.group .r .c))) ∧
      encode cs w h (some true) sep nsep = .ok (text sep (between w h nsep) (bs.map (Block.group .b .p))) := by
  obtain ⟨rs, bs, h1, h2, h3⟩ := encode_forms hw hh hv sep nsep
  exact ⟨rs, bs, h1, h2, h3 (some false), h3 (some true)⟩

/-- **C42** There is only one canonical description. -/
theorem C42_unique (w h : Nat) (k v : Letter) (X : Cell → Prop) (bs bs' : List Block) (c : Canonical w h k v X bs)
    (c' : Canonical w h k v X bs') : bs = bs' := Canonical.unique c c'

/-- **C42** Order and repetition of the coordinates play no role. -/
theorem C42_order (w h : Nat) (hw : 0 < w) (hh : 0 < h) (sep nsep : List Char) (cs cs' : List (Int × Int))
    (hc : ∀ rc, rc ∈ cs ↔ rc ∈ cs') (ub : Option Bool) : encode cs w h ub sep nsep = encode cs' w h ub sep nsep := by
  by_cases hv : Valid w h cs
  · have hv' : Valid w h cs' := fun rc h => hv rc ((hc rc).2 h)
    obtain ⟨rs, bs, h1, h2, h3⟩ := encode_forms hw hh hv sep nsep
    obtain ⟨rs', bs', h1', h2', h3'⟩ := encode_forms hw hh hv' sep nsep
    have e : ∀ a, Among cs' a ↔ Among cs a := fun a => (hc _).symm
    rw [h3, h3', Canonical.unique h1 (Canonical.congr h1' e), Canonical.unique h2 (Canonical.congr h2' e)]
  · have hv' : ¬ Valid w h cs' := fun h => hv fun rc hrc => h rc ((hc rc).1 hrc)
    have : ∀ ds : List (Int × Int), ¬ Valid w h ds → encode ds w h ub sep nsep = .error .ValueError := by
      intro ds hd
      unfold encode
      rw [checkSize_ok hw hh]
      simp only
      cases hcol : collect w h ds [] [] with
      | ok p => exact absurd (collect_valid hcol) hd
      | error e => rw [(collect_error hcol).1]
    rw [this cs hv, this cs' hv']

/-- **C42** Different sets of fields are written differently. -/
theorem C42_injective (w h : Nat) (hw : 0 < w) (hh : 0 < h) (sep nsep : List Char) (hs : SepOk sep) (hn : NumSepOk nsep)
    (cs cs' : List (Int × Int)) (hv : Valid w h cs) (hv' : Valid w h cs') (ub ub' : Option Bool)
    (he : encode cs w h ub sep nsep = encode cs' w h ub' sep nsep) : ∀ a, Among cs a ↔ Among cs' a := by
  by_cases h0 : cs = []
  · subst h0
    by_cases h0' : cs' = []
    · subst h0'; exact fun a => Iff.rfl
    · obtain ⟨s, l, h1, h2, _⟩ := C41_roundtrip w h hw hh sep nsep hs hn cs' hv' h0' ub'
      rw [(C41_empty w h hw hh ub sep nsep).1, h1] at he
      cases he
      rw [(C41_empty w h hw hh ub sep nsep).2] at h2
      cases h2
  · obtain ⟨s, l, h1, h2, h3, h4⟩ := C41_roundtrip w h hw hh sep nsep hs hn cs hv h0 ub
    by_cases h0' : cs' = []
    · subst h0'
      rw [(C41_empty w h hw hh ub' sep nsep).1, h1] at he
      cases he
      rw [(C41_empty w h hw hh ub sep nsep).2] at h2
      cases h2
    · obtain ⟨s', l', h1', h2', h3', h4'⟩ := C41_roundtrip w h hw hh sep nsep hs hn cs' hv' h0' ub'
      rw [h1, h1'] at he
      cases he
      rw [h2] at h2'
      cases h2'
      exact fun a => (h4 a).symm.trans (h4' a)

example : encode [(0, 0), (1, 0), (0, 1), (1, 1), (4, 2)] 3 3 (some false) [','] [] = .ok "r12c12,r5c3".toList ∧
    encode [(4, 2), (1, 1), (0, 1), (1, 1), (1, 0), (0, 0)] 3 3 (some false) [','] [] = .ok "r12c12,r5c3".toList := by
  decide +kernel

example : Canonical 3 3 .r .c (Among [(0, 1), (3, 1)]) [⟨[1, 4], [2]⟩] := by
  refine ⟨by simp, by simp, by simp, by simp, by simp, by simp, by simp, fun x y => ?_⟩
  simp only [List.mem_cons, List.not_mem_nil, or_false, exists_eq_left, Among, Letter.number, Prod.mk.injEq]
  constructor
  · rintro ⟨rfl | rfl, rfl⟩
    · exact ⟨(0, 1), by simp⟩
    · exact ⟨(3, 1), by simp⟩
  · rintro ⟨⟨a1, a2⟩, h1, rfl, rfl⟩
    simp only at h1 ⊢
    omega

/-- **C43** Without a preference the box form is used exactly when it is shorter. -/
theorem C43_shorter (w h : Int) (sep nsep : List Char) (cs : List (Int × Int)) (b r : List Char)
    (hb : encode cs w h (some true) sep nsep = .ok b) (hr : encode cs w h (some false) sep nsep = .ok r) :
    encode cs w h none sep nsep = .ok (if b.length < r.length then b else r) ∧
      (if b.length < r.length then b else r).length = min b.length r.length := by
  constructor
  · unfold encode at hb hr ⊢
    cases hc : checkSize w h with
    | error e => rw [hc] at hb; cases hb
    | ok p =>
      rw [hc] at hb hr
      simp only at hb hr ⊢
      cases hcol : collect p.1 p.2 cs [] [] with
      | error e => rw [hcol] at hb; cases hb
      | ok q =>
        rw [hcol] at hb hr
        simp only at hb hr ⊢
        cases hb
        cases hr
        split <;> rfl
  · split <;> omega

example : encode [(0, 0), (1, 1), (2, 2)] 3 3 (some true) [','] [] = .ok "b1p159".toList ∧
    encode [(0, 0), (1, 1), (2, 2)] 3 3 (some false) [','] [] = .ok "r1c1,r2c2,r3c3".toList ∧
    encode [(0, 0), (1, 1), (2, 2)] 3 3 none [','] [] = .ok "b1p159".toList := by
  decide +kernel

/-- **C44** Whatever is given to `decode`: it returns fields of the grid in strictly increasing order, or raises. -/
theorem C44_decode (s : List Char) (w h : Int) (sep nsep : List Char) (l : List Cell) (hl : decode s w h sep nsep = .ok l) :
    1 ≤ w ∧ 1 ≤ h ∧ l.Pairwise Before ∧ ∀ a ∈ l, InGrid w.toNat h.toNat a := by
  unfold decode at hl
  split at hl
  · cases hl
  · rename_i w' h' hc
    unfold checkSize at hc
    split at hc
    · cases hc
    · rename_i hwh
      cases hc
      simp only at hl
      split at hl
      · cases hl
      · rename_i cells hcells
        cases hl
        refine ⟨by omega, by omega, Solvers.sortCells_sorted (List.nodup_dedup _), fun a ha => ?_⟩
        rw [Solvers.mem_sortCells, List.mem_dedup] at ha
        exact decodeGroups_inGrid hcells a ha

/-- **C44** The exceptions of `decode`: `ValueError`, and `TypeError` only where numbers are not separated. -/
theorem C44_exceptions (s : List Char) (w h : Int) (sep nsep : List Char) (e : PyErr) (he : decode s w h sep nsep = .error e) :
    e = .ValueError ∨ (e = .TypeError ∧ 1 ≤ w ∧ 1 ≤ h ∧ nsep = [] ∧ w * h ≤ 9) := by
  unfold decode at he
  split at he
  · rename_i hc
    unfold checkSize at hc
    split at hc
    · cases hc; cases he; exact .inl rfl
    · cases hc
  · rename_i w' h' hc
    unfold checkSize at hc
    split at hc
    · cases hc
    · rename_i hwh
      cases hc
      simp only at he
      split at he
      · rename_i e' hg
        cases he
        rcases decodeGroups_error hg with h1 | ⟨h1, h2⟩
        · exact .inl h1
        · rw [numberSep_eq] at h2
          have h3 := between_nil h2
          refine .inr ⟨h1, by omega, by omega, ?_, ?_⟩
          · unfold between at h2
            by_contra hne
            rw [if_pos hne] at h2
            exact hne h2
          · obtain ⟨w', rfl⟩ := Int.eq_ofNat_of_zero_le (show 0 ≤ w by omega)
            obtain ⟨h', rfl⟩ := Int.eq_ofNat_of_zero_le (show 0 ≤ h by omega)
            simp only [Int.toNat_natCast] at h3
            exact_mod_cast h3
      · cases he

example : decode "b1r1,r9c9,c9r9".toList 3 3 [','] [] = .ok [(0, 0), (0, 1), (0, 2), (8, 8)] := by decide +kernel
example : decode "r0c1".toList 3 3 [','] [] = .error .ValueError ∧ decode "r1c1".toList 0 3 [','] [] = .error .ValueError := by
  decide +kernel

/-- **C45** `encode` raises exactly for impossible sizes and coordinates outside of the grid, and always a `ValueError`. -/
theorem C45_errors (w h : Int) (sep nsep : List Char) (cs : List (Int × Int)) (ub : Option Bool) (e : PyErr) :
    encode cs w h ub sep nsep = .error e ↔ e = .ValueError ∧ (w < 1 ∨ h < 1 ∨ ¬ Valid w.toNat h.toNat cs) := by
  unfold encode checkSize
  by_cases hwh : w < 1 ∨ h < 1
  · rw [if_pos hwh]
    simp only [Except.error.injEq]
    constructor
    · rintro rfl
      exact ⟨rfl, hwh.elim .inl fun h => .inr (.inl h)⟩
    · rintro ⟨rfl, _⟩; rfl
  · rw [if_neg hwh]
    simp only
    cases hcol : collect w.toNat h.toNat cs [] [] with
    | error e' =>
      obtain ⟨h1, h2⟩ := collect_error hcol
      simp only [Except.error.injEq]
      constructor
      · rintro rfl; exact ⟨h1, .inr (.inr h2)⟩
      · rintro ⟨rfl, _⟩; exact h1
    | ok p =>
      have hv := collect_valid hcol
      constructor
      · intro he
        cases ub with
        | none => simp only at he; split at he <;> cases he
        | some b => cases b <;> cases he
      · rintro ⟨_, h1 | h1 | h1⟩
        · exact absurd (.inl h1) hwh
        · exact absurd (.inr h1) hwh
        · exact absurd hv h1

example : ¬ Valid 3 3 [(0, 0), (0, 9)] ∧ encode [(0, 0), (0, 9)] 3 3 none [','] [] = .error .ValueError := by
  refine ⟨fun h => ?_, by decide +kernel⟩
  have := (h (0, 9) (by simp)).2.2
  simp at this

/-- **C46** What `decode` understands: groups of letters with numbers, in any combination and order.  A group names the fields
for which every letter of the group has one of its numbers; several groups name what one of them names. -/
theorem C46_meaning (w h : Nat) (hw : 0 < w) (hh : 0 < h) (sep nsep : List Char) (hs : SepOk sep) (hn : NumSepOk nsep)
    (gs : List Group) (h0 : gs ≠ []) (hg : ∀ g ∈ gs, Proper w h g) :
    ∃ l, decode (text sep (between w h nsep) gs) w h sep nsep = .ok l ∧ SortedFields l fun a => ∃ g ∈ gs, Named w h g a :=
  decode_text hw hh hs hn h0 hg

example : Proper 3 3 [(.b, [1]), (.r, [1, 2])] ∧ text [','] (between 3 3 []) [[(.b, [1]), (.r, [1, 2])], [(.c, [9])]] = "b1r12,c9".toList := by
  refine ⟨⟨by simp, by simp, by simp, ?_⟩, by decide +kernel⟩
  intro q hq k hk
  simp only [List.mem_cons, List.not_mem_nil, or_false] at hq
  rcases hq with rfl | rfl <;> simp at hk <;> omega

/-- **C46** A character that is no digit, none of the four letters and in no separator makes `decode` raise — blanks
included, although the code means to remove them (only the text made up of all six whitespace characters is removed). -/
theorem C46_illegal (s sep nsep : List Char) (w h : Nat) (ch : Char) (hm : ch ∈ s) (h1 : ¬ Special ch) (h2 : ch ∉ sep)
    (h3 : ch ∉ between w h nsep) (hw : ch ∉ Py.whitespace ∨ ¬ Py.whitespace <:+: s) :
    ∃ e, decode s w h sep nsep = .error e := decode_illegal hm h1 h2 h3 hw

/-- **C46** Blanks are not removed. -/
theorem C46_blank : decode "r1c1 ".toList 3 3 [','] [] = .error .ValueError ∧
    decode "r1c1, r2c2".toList 3 3 [','] [] = .error .ValueError ∧
    decode ("r1c1".toList ++ Py.whitespace) 3 3 [','] [] = .ok [(0, 0)] := by decide +kernel

/-- **C46** A letter repeated at once replaces the first one silently, repeated later it is an error. -/
theorem C46_repeated : decode "r1r2c3".toList 3 3 [','] [] = .ok [(1, 2)] ∧
    decode "r1c3r2".toList 3 3 [','] [] = .error .ValueError := by decide +kernel

/-- **C46** A letter without numbers: `TypeError` if it is alone, ignored as the last one, `ValueError` otherwise. -/
theorem C46_no_number : decode "r".toList 3 3 [','] [] = .error .TypeError ∧
    decode "r1c".toList 3 3 [','] [] = decode "r1".toList 3 3 [','] [] ∧
    decode "rc1".toList 3 3 [','] [] = .error .ValueError ∧
    decode "r".toList 3 3 [','] [','] = .error .ValueError := by decide +kernel

example : ¬ Special ' ' ∧ ' ' ∉ between 3 3 [] ∧ ¬ Py.whitespace <:+: "r1c1 r2".toList := by
  refine ⟨by unfold Special; decide, by decide, ?_⟩
  intro h
  have : '\t' ∈ "r1c1 r2".toList := h.subset (by decide)
  exact absurd this (by decide)

end Props
