import Verif.LanguageSpec
import Verif.Model.Notation
import Verif.Proofs.Strings

set_option autoImplicit false

/-! # Splitting a text into its groups -/

open Spec Spec.Text

namespace Notation

/-- The reader passes over `x` without finding the separator. -/
theorem splitGo_scan {sc : List Char} (x rest acc : List Char)
    (h : ∀ y z, x = y ++ z → z ≠ [] → ¬ sc <+: z ++ rest) :
    Py.splitGo sc (x ++ rest) 0 acc = Py.splitGo sc rest 0 (x.reverse ++ acc) := by
  induction x generalizing acc with
  | nil => rfl
  | cons c x ih =>
    rw [List.cons_append, Py.splitGo, if_neg, ih]
    · simp
    · intro y z hyz hz
      exact h (c :: y) z (by rw [hyz]; rfl) hz
    · rw [List.isPrefixOf_iff_prefix]
      exact h [] (c :: x) rfl (by simp)

/-- Every letter `c` is at the very beginning or follows a digit. -/
def Tame (c : Char) (x : List Char) : Prop :=
  ∀ y z, x = y ++ c :: z → y = [] ∨ ∃ ch, y.getLast? = some ch ∧ Py.isDigit ch = true

theorem Tame.suffix {c : Char} {y z : List Char} (h : Tame c (y ++ z)) : Tame c z := by
  intro u v huv
  rcases h (y ++ u) v (by rw [huv, List.append_assoc]) with h' | ⟨ch, h1, h2⟩
  · exact .inl (List.append_eq_nil_iff.1 h').2
  · rcases List.eq_nil_or_concat u with rfl | ⟨u', d, rfl⟩
    · exact .inl rfl
    · right
      rw [List.getLast?_append] at h1
      simp at h1
      exact ⟨ch, by simp [h1], h2⟩

theorem Tame.append {c : Char} {x sep : List Char} (h : Tame c x) (hs : c ∉ sep) : Tame c (x ++ sep) := by
  intro u v huv
  rcases List.append_eq_append_iff.1 huv with ⟨a', h1, h2⟩ | ⟨b', h1, h2⟩
  · exfalso
    apply hs
    rw [h2]; simp
  · cases b' with
    | nil =>
      exfalso; apply hs
      rw [List.nil_append] at h2
      rw [← h2]; exact List.mem_cons_self
    | cons d b' =>
      rw [List.cons_append] at h2
      have h3 := List.cons.inj h2
      exact h u b' (by rw [h1, h3.1])

theorem not_infix {c : Char} {sep : List Char} (hs : ∃ ch, sep.getLast? = some ch ∧ Py.isDigit ch = false) {x : List Char} (h : Tame c x) :
    ¬ (sep ++ [c]) <+: x := by
  rintro ⟨t, ht⟩
  obtain ⟨ch, h1, h2⟩ := hs
  rcases h sep t (by rw [← ht]; simp) with h' | ⟨d, h3, h4⟩
  · rw [h'] at h1; simp at h1
  · rw [h1] at h3
    cases h3
    rw [h2] at h4
    cases h4

theorem prefix_left {α : Type} {s a b : List α} (h : s <+: a ++ b) (hl : s.length ≤ a.length) : s <+: a :=
  List.prefix_of_prefix_length_le h (List.prefix_append a b) hl

/-- The separator is nowhere followed by `c`. -/
def Clear (sep : List Char) (c : Char) (x : List Char) : Prop := ¬ (sep ++ [c]) <:+: x

theorem Clear.suffix {sep : List Char} {c : Char} {y z : List Char} (h : Clear sep c (y ++ z)) : Clear sep c z :=
  fun hz => h (hz.trans (List.suffix_append y z).isInfix)

theorem Tame.clear {c : Char} {sep : List Char} (hs : ∃ ch, sep.getLast? = some ch ∧ Py.isDigit ch = false) {x : List Char}
    (h : Tame c x) : Clear sep c x := by
  rintro ⟨y, z, hyz⟩
  rw [List.append_assoc] at hyz
  exact not_infix hs (Tame.suffix (hyz ▸ h)) (List.prefix_append _ _)

theorem Clear.not_prefix {c : Char} {sep : List Char} (hc : c ∉ sep) {x : List Char} (h : Clear sep c x) :
    ¬ (sep ++ [c]) <+: x ++ sep := by
  rintro ⟨t, ht⟩
  by_cases hlen : x.length ≤ sep.length
  · apply hc
    have h1 : (sep ++ [c] ++ t)[sep.length]? = some c := by simp
    rw [ht, List.getElem?_append_right hlen] at h1
    exact List.mem_of_getElem? h1
  · exact h (prefix_left ⟨t, ht⟩ (by simp; omega)).isInfix

/-- No separator begins inside a group. -/
theorem scan_group {c : Char} {sep : List Char} (hc : c ∉ sep) {g : List Char} (hg : Clear sep c g) (rest acc : List Char) :
    Py.splitGo (sep ++ [c]) (g ++ (sep ++ rest)) 0 acc = Py.splitGo (sep ++ [c]) (sep ++ rest) 0 (g.reverse ++ acc) := by
  apply splitGo_scan
  intro y z hyz hz hp
  rw [← List.append_assoc] at hp
  have hp' := prefix_left hp (by
    have : 0 < z.length := List.length_pos_iff.2 hz
    simp; omega)
  exact Clear.not_prefix hc (Clear.suffix (hyz ▸ hg)) hp'

theorem scan_last {c : Char} {sep : List Char} {g : List Char} (hg : Clear sep c g) (acc : List Char) :
    Py.splitGo (sep ++ [c]) g 0 acc = [acc.reverse ++ g] := by
  have := splitGo_scan (sc := sep ++ [c]) g [] acc (by
    intro y z hyz _ hp
    rw [List.append_nil] at hp
    exact Clear.suffix (hyz ▸ hg) hp.isInfix)
  rw [List.append_nil] at this
  rw [this, Py.splitGo]
  simp

/-- No separator for `c` where a group beginning with another letter follows. -/
theorem scan_sep {c d : Char} {sep : List Char} (hd : d ∉ sep) (hcd : d ≠ c) (rest acc : List Char) :
    Py.splitGo (sep ++ [c]) (sep ++ (d :: rest)) 0 acc = Py.splitGo (sep ++ [c]) (d :: rest) 0 (sep.reverse ++ acc) := by
  apply splitGo_scan
  rintro y z hyz hz ⟨t, ht⟩
  cases y with
  | nil =>
    rw [List.nil_append] at hyz
    rw [← hyz, List.append_assoc] at ht
    have := List.append_cancel_left ht
    simp at this
    exact hcd this.1.symm
  | cons e y =>
    apply hd
    have hlen : z.length < sep.length := by rw [hyz]; simp; omega
    have h1 : (sep ++ [c] ++ t)[z.length]? = some d := by rw [ht]; simp
    rw [List.append_assoc, List.getElem?_append_left hlen] at h1
    exact List.mem_of_getElem? h1

/-- Where a group beginning with `c` follows. -/
theorem scan_break {c : Char} {sep : List Char} (rest acc : List Char) :
    Py.splitGo (sep ++ [c]) (sep ++ (c :: rest)) 0 acc = acc.reverse :: Py.splitGo (sep ++ [c]) rest 0 [] := by
  have := Py.splitGo_sep (sep := sep ++ [c]) (by simp) rest acc
  simpa using this

/-- Take together the groups that do not satisfy `P` with the one before. -/
def segs {α : Type} (P : α → Bool) : List α → List (List α)
  | [] => []
  | [g] => [[g]]
  | g :: g' :: gs =>
    if P g' then [g] :: segs P (g' :: gs)
    else match segs P (g' :: gs) with
      | [] => [[g]]
      | s :: ss => (g :: s) :: ss

theorem segs_cons {α : Type} (P : α → Bool) (g : α) (gs : List α) : ∃ s ss, segs P (g :: gs) = (g :: s) :: ss := by
  cases gs with
  | nil => exact ⟨[], [], rfl⟩
  | cons g' gs =>
    rw [segs]
    split
    · exact ⟨[], _, rfl⟩
    · split
      · exact ⟨[], [], rfl⟩
      · exact ⟨_, _, rfl⟩

theorem segs_flatMap {α : Type} (P Q : α → Bool) (gs : List α) :
    (segs P gs).flatMap (segs Q) = segs (fun g => P g || Q g) gs := by
  induction gs with
  | nil => rfl
  | cons g gs ih =>
    cases gs with
    | nil => rfl
    | cons g' gs =>
      obtain ⟨s, ss, hs⟩ := segs_cons P g' gs
      obtain ⟨s', ss', hs'⟩ := segs_cons Q g' s
      rw [segs, segs]
      rw [hs] at ih ⊢
      simp only [List.flatMap_cons] at ih
      cases hP : P g'
      · simp only [Bool.false_eq_true, ↓reduceIte, Bool.false_or, List.flatMap_cons]
        rw [← ih, segs, hs']
        cases hQ : Q g' <;> simp
      · simp only [↓reduceIte, Bool.true_or, List.flatMap_cons]
        rw [← ih]
        rfl

theorem segs_all {α : Type} (P : α → Bool) (gs : List α) (h : ∀ g ∈ gs, P g = true) : segs P gs = gs.map fun g => [g] := by
  induction gs with
  | nil => rfl
  | cons g gs ih =>
    cases gs with
    | nil => rfl
    | cons g' gs =>
      rw [segs, if_pos (h g' (by simp)), ih fun x hx => h x (List.mem_cons_of_mem _ hx)]
      rfl

theorem segs_mem {α : Type} (P : α → Bool) (gs : List α) : ∀ s ∈ segs P gs, s ≠ [] ∧ ∀ g ∈ s, g ∈ gs := by
  induction gs with
  | nil => simp [segs]
  | cons g gs ih =>
    cases gs with
    | nil => intro s hs; simp [segs] at hs; subst hs; simp
    | cons g' gs =>
      obtain ⟨u, us, hu⟩ := segs_cons P g' gs
      intro s hs
      rw [segs, hu] at hs
      rw [hu] at ih
      by_cases hP : P g' = true
      · rw [if_pos hP] at hs
        rcases List.mem_cons.1 hs with rfl | hs
        · simp
        · obtain ⟨h1, h2⟩ := ih s hs
          exact ⟨h1, fun x hx => List.mem_cons_of_mem _ (h2 x hx)⟩
      · rw [if_neg hP] at hs
        rcases List.mem_cons.1 hs with rfl | hs
        · refine ⟨by simp, fun x hx => ?_⟩
          rcases List.mem_cons.1 hx with rfl | hx
          · simp
          · exact List.mem_cons_of_mem _ ((ih _ List.mem_cons_self).2 x hx)
        · obtain ⟨h1, h2⟩ := ih s (List.mem_cons_of_mem _ hs)
          exact ⟨h1, fun x hx => List.mem_cons_of_mem _ (h2 x hx)⟩

/-- A group: begins with a letter, other letters follow digits. -/
structure GroupLike (sep : List Char) (g : List Char) : Prop where
  first : ∃ d x, g = d :: x ∧ d ∉ sep
  tame : ∀ l : Letter, Tame l.char g

/-- The group begins with `c`. -/
def starts (c : Char) (g : List Char) : Bool := g.head? == some c

/-- The group begins with a character that is not in the separator. -/
def Begins (sep g : List Char) : Prop := ∃ d x, g = d :: x ∧ d ∉ sep

theorem clear_tail {sep : List Char} {c d : Char} {x : List Char} (h : Clear sep c (d :: x)) : Clear sep c x := Clear.suffix (y := [d]) h

/-- The loop of `split`, where `y` is what remains of the first group. -/
theorem splitGo_groups {sep : List Char} (hsep : ∀ l : Letter, l.char ∉ sep) (l : Letter) (gs : List (List Char))
    (hgs : ∀ g ∈ gs, Begins sep g ∧ Clear sep l.char g)
    (y acc : List Char) (hy : Clear sep l.char y) (pre : List Char) (hpre : acc.reverse = pre) :
    ∃ t ts, segs (starts l.char) ((pre ++ y) :: gs) = t :: ts ∧
      Py.splitGo (sep ++ [l.char]) (Py.join sep (y :: gs)) 0 acc =
        Py.join sep t :: ts.map fun u => (Py.join sep u).tail := by
  induction gs generalizing y acc pre with
  | nil => exact ⟨_, _, rfl, by rw [Py.join, scan_last hy, hpre]; rfl⟩
  | cons g gs ih =>
    have hg := hgs g (by simp)
    obtain ⟨d, x, rfl, hd⟩ := hg.1
    rw [Py.join_cons _ _ (by simp), List.append_assoc, scan_group (hsep l) hy]
    have hgs' : ∀ g ∈ gs, Begins sep g ∧ Clear sep l.char g := fun g hg => hgs g (List.mem_cons_of_mem _ hg)
    have hj : ∀ z, Py.join sep ((d :: z) :: gs) = d :: Py.join sep (z :: gs) := by
      intro z
      by_cases hgs0 : gs = []
      · subst hgs0; rfl
      · rw [Py.join_cons _ _ hgs0, Py.join_cons _ _ hgs0]; rfl
    by_cases hdc : d = l.char
    · subst hdc
      rw [hj, scan_break]
      obtain ⟨t, ts, h1, h2⟩ := ih hgs' x [] (clear_tail hg.2) [] rfl
      rw [h2]
      rw [List.nil_append] at h1
      have h3 : segs (starts l.char) ((l.char :: x) :: gs) = match segs (starts l.char) (x :: gs) with
          | [] => []
          | u :: us => match u with
            | [] => []
            | v :: vs => ((l.char :: v) :: vs) :: us := by
        cases gs with
        | nil => rfl
        | cons g' gs' =>
          rw [segs, segs]
          obtain ⟨u, us, hu⟩ := segs_cons (starts l.char) g' gs'
          rw [hu]
          split <;> rfl
      obtain ⟨u, us, hu⟩ := segs_cons (starts l.char) x gs
      rw [hu] at h1
      obtain ⟨rfl, rfl⟩ := List.cons.inj h1
      rw [hu] at h3
      refine ⟨_, _, by rw [segs, if_pos (by simp [starts]), h3], ?_⟩
      simp only [List.map_cons]
      congr 1
      · simp [Py.join, hpre]
      · congr 1
        by_cases hu0 : u = []
        · subst hu0; rfl
        · rw [Py.join_cons _ _ hu0, Py.join_cons _ _ hu0]; rfl
    · have hs : starts l.char (d :: x) = false := by
        simp [starts, hdc]
      rw [hj, scan_sep hd hdc, ← hj]
      obtain ⟨t, ts, h1, h2⟩ := ih hgs' (d :: x) (sep.reverse ++ (y.reverse ++ acc)) hg.2 (pre ++ y ++ sep) (by simp [hpre])
      have h4 : ∃ u us, segs (starts l.char) ((d :: x) :: gs) = ((d :: x) :: u) :: us ∧
          segs (starts l.char) ((pre ++ y ++ sep ++ (d :: x)) :: gs) = ((pre ++ y ++ sep ++ (d :: x)) :: u) :: us := by
        cases gs with
        | nil => exact ⟨[], [], rfl, rfl⟩
        | cons g' gs' =>
          rw [segs, segs]
          obtain ⟨u, us, hu⟩ := segs_cons (starts l.char) g' gs'
          rw [hu]
          split
          · exact ⟨_, _, rfl, rfl⟩
          · exact ⟨_, _, rfl, rfl⟩
      obtain ⟨u, us, h5, h6⟩ := h4
      rw [h6] at h1
      obtain ⟨rfl, rfl⟩ := List.cons.inj h1
      refine ⟨_, _, by rw [segs, hs, h5]; rfl, ?_⟩
      rw [h2]
      congr 1
      rw [Py.join_cons _ (pre ++ y) (by simp)]
      by_cases hu0 : u = []
      · subst hu0; simp [Py.join]
      · rw [Py.join_cons _ _ hu0, Py.join_cons _ _ hu0]; simp

theorem segs_tail_starts {α : Type} (P : α → Bool) (gs : List α) {t : List α} {ts : List (List α)} (h : segs P gs = t :: ts) :
    ∀ u ∈ ts, ∃ g v, u = g :: v ∧ P g = true := by
  induction gs generalizing t ts with
  | nil => simp [segs] at h
  | cons g gs ih =>
    cases gs with
    | nil => simp [segs] at h; rw [h.2]; simp
    | cons g' gs =>
      obtain ⟨u, us, hu⟩ := segs_cons P g' gs
      rw [segs, hu] at h
      by_cases hP : P g' = true
      · rw [if_pos hP] at h
        obtain ⟨_, rfl⟩ := List.cons.inj h
        intro v hv
        rcases List.mem_cons.1 hv with rfl | hv
        · exact ⟨_, _, rfl, hP⟩
        · exact ih hu v hv
      · rw [if_neg hP] at h
        obtain ⟨_, rfl⟩ := List.cons.inj h
        exact ih hu

theorem splitGroup_join {sep : List Char} (hsep : ∀ l : Letter, l.char ∉ sep) (l : Letter) {gs : List (List Char)} (h0 : gs ≠ [])
    (hgs : ∀ g ∈ gs.tail, Begins sep g) (hcl : ∀ g ∈ gs, Clear sep l.char g) :
    splitGroup sep l.char (Py.join sep gs) = (segs (starts l.char) gs).map (Py.join sep) := by
  cases gs with
  | nil => exact absurd rfl h0
  | cons g gs =>
    obtain ⟨t, ts, h1, h2⟩ := splitGo_groups hsep l gs (fun x hx => ⟨hgs x hx, hcl x (List.mem_cons_of_mem _ hx)⟩) g []
      (hcl g (by simp)) [] rfl
    rw [List.nil_append] at h1
    unfold splitGroup
    rw [h2, h1, List.map_cons]
    simp only [List.map_map]
    congr 1
    apply List.map_congr_left
    intro u hu
    obtain ⟨g', v, rfl, hs⟩ := segs_tail_starts _ _ h1 u hu
    unfold starts at hs
    cases g' with
    | nil => simp at hs
    | cons e x =>
      simp at hs
      subst hs
      show l.char :: (Py.join sep _).tail = Py.join sep _
      by_cases hv : v = []
      · subst hv; rfl
      · rw [Py.join_cons _ _ hv]; rfl

theorem segs_mem_tail {α : Type} (P : α → Bool) (gs : List α) : ∀ s ∈ segs P gs, ∀ g ∈ s.tail, g ∈ gs.tail := by
  induction gs with
  | nil => simp [segs]
  | cons g gs ih =>
    cases gs with
    | nil => intro s hs; simp [segs] at hs; subst hs; simp
    | cons g' gs =>
      obtain ⟨u, us, hu⟩ := segs_cons P g' gs
      have hm := segs_mem P (g' :: gs)
      intro s hs x hx
      rw [segs, hu] at hs
      rw [hu] at ih hm
      have sub : ∀ t ∈ (g' :: u) :: us, x ∈ t.tail → x ∈ (g :: g' :: gs).tail := fun t ht hx =>
        List.mem_cons_of_mem _ (ih t ht x hx)
      by_cases hP : P g' = true
      · rw [if_pos hP] at hs
        rcases List.mem_cons.1 hs with rfl | hs
        · simp at hx
        · exact sub s hs hx
      · rw [if_neg hP] at hs
        rcases List.mem_cons.1 hs with rfl | hs
        · exact (hm _ List.mem_cons_self).2 x hx
        · exact sub s (List.mem_cons_of_mem _ hs) hx

theorem splitGroups_step {sep : List Char} (hsep : ∀ l : Letter, l.char ∉ sep) (l : Letter) {gs : List (List Char)}
    (hgs : ∀ g ∈ gs.tail, Begins sep g) (hcl : ∀ g ∈ gs, Clear sep l.char g) (P : List Char → Bool) :
    ((segs P gs).map (Py.join sep)).flatMap (splitGroup sep l.char) =
      (segs (fun g => P g || starts l.char g) gs).map (Py.join sep) := by
  rw [← segs_flatMap, List.flatMap_map, List.map_flatMap]
  apply List.flatMap_congr
  intro s hs
  obtain ⟨h1, h2⟩ := segs_mem _ _ s hs
  exact splitGroup_join hsep l h1 (fun g hg => hgs g (segs_mem_tail _ _ s hs g hg)) fun g hg => hcl g (h2 g hg)

theorem segs_none {α : Type} (gs : List α) (h0 : gs ≠ []) : segs (fun _ => false) gs = [gs] := by
  induction gs with
  | nil => exact absurd rfl h0
  | cons g gs ih =>
    cases gs with
    | nil => rfl
    | cons g' gs => rw [segs, ih (by simp)]; rfl

theorem segs_tail_all {α : Type} (P : α → Bool) (gs : List α) (h : ∀ g ∈ gs.tail, P g = true) : segs P gs = gs.map fun g => [g] := by
  induction gs with
  | nil => rfl
  | cons g gs ih =>
    cases gs with
    | nil => rfl
    | cons g' gs =>
      rw [segs, if_pos (h g' (by simp)), ih fun x hx => h x (List.mem_cons_of_mem _ hx)]
      rfl

/-- `decode` finds the groups. -/
theorem splitGroups_groups {sep : List Char} (hsep : ∀ l : Letter, l.char ∉ sep) {gs : List (List Char)} (hg : Groups sep gs) :
    splitGroups sep (Py.join sep gs) = gs := by
  have hb : ∀ g ∈ gs.tail, Begins sep g := fun g h => by
    obtain ⟨l, x, rfl⟩ := hg.first g h
    exact ⟨_, _, rfl, hsep l⟩
  unfold splitGroups
  have h1 : [Py.join sep gs] = (segs (fun _ => false) gs).map (Py.join sep) := by rw [segs_none gs hg.nonempty]; rfl
  rw [h1]
  simp only [List.foldl_cons, List.foldl_nil]
  change List.flatMap (splitGroup sep Letter.p.char) (List.flatMap (splitGroup sep Letter.b.char)
    (List.flatMap (splitGroup sep Letter.c.char) (List.flatMap (splitGroup sep Letter.r.char) _))) = gs
  rw [splitGroups_step hsep .r hb fun g h => hg.clear g h .r, splitGroups_step hsep .c hb fun g h => hg.clear g h .c,
    splitGroups_step hsep .b hb fun g h => hg.clear g h .b, splitGroups_step hsep .p hb fun g h => hg.clear g h .p, segs_tail_all]
  · rw [List.map_map]
    exact List.map_id gs
  · intro g h
    obtain ⟨l, x, rfl⟩ := hg.first g h
    unfold starts
    cases l <;> simp [Letter.char]

/-- Every text has groups. -/
theorem exists_groups {sep : List Char} (h0 : sep ≠ []) (s : List Char) : ∃ gs, s = Py.join sep gs ∧ Groups sep gs := by
  induction s with
  | nil =>
    refine ⟨[[]], rfl, by simp, by simp, ?_⟩
    intro g hg l h
    rw [List.mem_singleton] at hg
    subst hg
    have := h.length_le
    simp at this
  | cons c s ih =>
    obtain ⟨gs, rfl, hg⟩ := ih
    rcases gs with _ | ⟨p, ps⟩
    · exact absurd rfl hg.nonempty
    have hj : ∀ c p, c :: Py.join sep (p :: ps) = Py.join sep ((c :: p) :: ps) := by
      intro c p
      by_cases hps : ps = []
      · subst hps; rfl
      · rw [Py.join_cons _ _ hps, Py.join_cons _ _ hps]; rfl
    by_cases hc : ∃ (l : Letter) (x : List Char), c :: p = sep ++ l.char :: x
    · obtain ⟨l, x, hx⟩ := hc
      refine ⟨[] :: (l.char :: x) :: ps, ?_, by simp, ?_, ?_⟩
      · rw [hj, hx]
        rw [Py.join_cons sep [] (by simp), List.nil_append]
        by_cases hps : ps = []
        · subst hps; rfl
        · rw [Py.join_cons _ _ hps, Py.join_cons _ _ hps]; simp
      · intro g h
        rcases List.mem_cons.1 h with rfl | h
        · exact ⟨l, x, rfl⟩
        · exact hg.first g h
      · intro g h m
        rcases List.mem_cons.1 h with rfl | h
        · intro h
          have := h.length_le
          simp at this
        · rcases List.mem_cons.1 h with rfl | h
          · have hp : Clear sep m.char p := hg.clear p (by simp) m
            rcases sep with _ | ⟨d, sep⟩
            · exact absurd rfl h0
            · obtain ⟨-, rfl⟩ := List.cons.inj hx
              exact Clear.suffix hp
          · exact hg.clear g (List.mem_cons_of_mem _ h) m
    · refine ⟨(c :: p) :: ps, hj c p, by simp, hg.first, ?_⟩
      intro g h m
      rcases List.mem_cons.1 h with rfl | h
      · intro h
        rcases List.infix_cons_iff.1 h with h | h
        · obtain ⟨t, ht⟩ := h
          exact hc ⟨m, t, by rw [← ht]; simp⟩
        · exact hg.clear p (by simp) m h
      · exact hg.clear g (List.mem_cons_of_mem _ h) m

/-- `decode` finds the groups again. -/
theorem splitGroups_join {sep : List Char} (hsep : SepOk sep) {gs : List (List Char)} (h0 : gs ≠ [])
    (hgs : ∀ g ∈ gs, GroupLike sep g) (hl : ∀ g ∈ gs, ∃ l : Letter, g.head? = some l.char) :
    splitGroups sep (Py.join sep gs) = gs := by
  apply splitGroups_groups hsep.letters
  refine ⟨h0, fun g hg => ?_, fun g hg l => ((hgs g hg).tame l).clear hsep.last⟩
  obtain ⟨l, h⟩ := hl g (List.mem_of_mem_tail hg)
  cases g with
  | nil => simp at h
  | cons d x =>
    simp at h
    exact ⟨l, x, by rw [h]⟩

end Notation
