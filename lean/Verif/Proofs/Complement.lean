import Verif.Proofs.RateRun

set_option autoImplicit false

/-! Helper lemmas: a tuple (fish) of half of the open fields (rows) leaves the other half, which is a tuple (fish), too. -/

open Spec

namespace Solvers

theorem nil_of_idle {s : Sudoku} {k : Kind} (hk : k ≠ .calculateCandidates) (hb : k ≠ .bruteforce) {L : List Step} (hc : Complete s k L)
    (hi : Idle s k) : L = [] := by
  cases L with
  | nil => rfl
  | cons st L =>
    exfalso
    cases k with
    | calculateCandidates => exact hk rfl
    | bruteforce => exact hb rfl
    | nakedSingle =>
      obtain ⟨a, v, h1, h2, h3, -⟩ := (hc.2 st).1 (by simp)
      exact hi a v h1 h2 h3
    | hiddenSingle =>
      obtain ⟨a, k, v, h1, h2, h3, -⟩ := hc.2.1 st (by simp)
      exact hi a k v h1 h2 h3
    | nakedTuple n =>
      obtain ⟨k, e, F, h1, h2, h3, -⟩ := (hc.2 st).1 (by simp)
      exact hi k e F h1 h2 h3
    | hiddenTuple n =>
      obtain ⟨k, e, V, h1, h2, h3, -⟩ := (hc.1 st).1 (by simp)
      exact hi k e V h1 h2 h3
    | pointingTuple n =>
      obtain ⟨k, k', e, f, v, h1, h2, -⟩ := (hc.2 st).1 (by simp)
      exact hi k k' e f v h1 h2
    | basicFish n =>
      obtain ⟨b, v, I, h1, -⟩ := (hc.2 st).1 (by simp)
      exact hi b v I h1

/-- `solve` finds nothing with a class that has no pattern. -/
theorem silent_of_idle {π : Orders Run} (hπ : π.Ok) (fuel : Nat) {k : Kind} (hks : k ∈ solvers) (hk : k ≠ .calculateCandidates)
    (hb : k ≠ .bruteforce) {w w' : Run} (h : find Prod.fst consume π fuel k w = .ok w') (hi : Idle w.1 k) : w' = w := by
  let π₂ : Orders Watch := ⟨fun _ => π.hidden w, fun _ => π.fish w, fun _ => π.dlx w⟩
  have hπ₂ : π₂.Ok := ⟨fun _ => hπ.hidden w, fun _ => hπ.fish w, fun _ => hπ.dlx w⟩
  obtain ⟨y₁, y₂, e1, e2, e3⟩ := find_out (v₁ := Prod.fst) (v₂ := Prod.fst) (κ₁ := consume) (κ₂ := watch leave) (π₁ := π) (π₂ := π₂)
    (x₁ := w) (x₂ := (w.1, [])) (D₁ := fun y => w.2.length < y.2.length) (D₂ := fun y => y.2 ≠ []) rfl rfl rfl
    (by
      rintro x st (rfl | hx)
      · exact consume_longer _ _
      · exact lt_trans hx (consume_longer _ _))
    (by intro x st _; simp [watch]) fuel 0 hk hb
  rw [h] at e1
  cases e1
  rcases e3 with ⟨e3, -⟩ | ⟨-, e3⟩
  · exact e3
  · exfalso
    obtain ⟨L, h1, h2⟩ := complete_find hπ₂ w.1 [] k hb (solvers_pointing k hks)
    rw [nil_of_idle hk hb h2 hi, e2] at h1
    have := congrArg (fun x : Except PyErr Watch => (x.toOption.map fun y => y.2)) h1
    simp only [Except.toOption, Option.map_some, List.nil_append, Option.some.injEq] at this
    exact e3 (by simpa using this)

/-- There is a sudoku between `s` and its solutions where class `k` finds something and the classes before `k` find nothing. -/
def Used (s : Sudoku) (k : Kind) : Prop :=
  ∃ g T, Neat g T ∧ Below T s ∧ (∀ j, Earlier k j → Idle T j) ∧ ¬ Idle T k

theorem used_loop {π : Orders Run} (hπ : π.Ok) {fuel : Nat} {s : Sudoku} (hf : s.empty.length < fuel) :
    ∀ {rounds : Nat} {w w' : Run}, Past s w → (∀ st ∈ w.2, st.kind = .calculateCandidates ∨ st.kind = .bruteforce ∨ Used s st.kind) →
      loop π fuel rounds w = .ok (some w') → ∀ st ∈ w'.2, st.kind = .calculateCandidates ∨ st.kind = .bruteforce ∨ Used s st.kind := by
  intro rounds
  induction rounds with
  | zero => intro w w' _ _ h; simp [loop] at h
  | succ r ih =>
    intro w w' hw hu h
    rw [loop] at h
    split at h
    · exact absurd h (by simp)
    · cases h; exact hu
    · rename_i w₁ hr
      refine ih (past_step hπ hf hw hr) ?_ h
      obtain ⟨k, hks, hidle, h1, hlen⟩ := round_idle hπ hr
      obtain ⟨L, hL, hLk⟩ := find_log' hπ h1
      intro st hst
      rw [hL] at hst
      rcases List.mem_append.1 hst with hst | hst
      · exact hu st hst
      · rw [hLk st hst]
        by_cases hk : k = .calculateCandidates
        · exact Or.inl hk
        by_cases hb : k = .bruteforce
        · exact Or.inr (Or.inl hb)
        refine Or.inr (Or.inr ?_)
        rcases hw.state with ⟨hbel, ⟨g, hg⟩, hall⟩ | ⟨g, hn, he⟩
        · refine ⟨g, w.1, hall g hg, hbel, hidle, fun hi => ?_⟩
          rw [silent_of_idle hπ fuel hks hk hb h1 hi] at hlen
          omega
        · have := find_full hπ (by omega) hn he h1
          rw [this] at hlen
          omega

/-- Every class that reports something was needed and had a pattern. -/
theorem solve_used {π : Orders Run} (hπ : π.Ok) {fuel rounds : Nat} {s : Sudoku} (hs : Solvable s.bw s.bh s.num)
    (hf : s.empty.length < fuel) {w : Run} (h : solve π fuel rounds s = .ok (some w)) :
    ∀ st ∈ w.2, st.kind = .calculateCandidates ∨ st.kind = .bruteforce ∨ Used (Solve.initCandidates s false) st.kind := by
  obtain ⟨r, w₁, h1, h2, h3⟩ := solve_split h
  obtain ⟨g, hg⟩ := hs
  refine used_loop hπ (s := Solve.initCandidates s false) (by rw [init_empty]; exact hf) ⟨fun st hst => Or.inl (h3 st hst), Or.inl ⟨h2.below, ?_, fun g hg => ?_⟩⟩
    (fun st hst => Or.inl (h3 st hst)) h1
  · exact ⟨g, (h2.neat (neat_init hg)).cons.1⟩
  · refine h2.neat (neat_init ⟨fun a ha h0 => ?_, ?_, ?_⟩)
    · have e := h2.num a (by rw [(init_dims s).1, (init_dims s).2.1]; exact ha)
      rw [(init_dims s).2.2] at e
      rw [← e] at h0 ⊢
      exact hg.keeps a (by rw [h2.bw, h2.bh, (init_dims s).1, (init_dims s).2.1]; exact ha) h0
    · have := hg.full
      rw [h2.bw, h2.bh, (init_dims s).1, (init_dims s).2.1] at this
      exact this
    · have := hg.valid
      rw [h2.bw, h2.bh, (init_dims s).1, (init_dims s).2.1] at this
      exact this

section
variable {g : Grid} {t : Sudoku}

/-- The empty fields of the unit. -/
def openFields (t : Sudoku) (k : Line) (e : Cell) : Finset Cell := (unitFields t k e).filter fun a => t.num a = 0

theorem mem_open {k : Line} {e a : Cell} : a ∈ openFields t k e ↔ a ∈ unitFields t k e ∧ t.num a = 0 := Finset.mem_filter

theorem open_image_card (hn : Neat g t) {k : Line} {e : Cell} {A : Finset Cell} (hA : A ⊆ unitFields t k e) : (A.image g).card = A.card :=
  Finset.card_image_of_injOn fun _ ha _ hb e' => line_inj hn.cons (hA ha) (hA hb) e'

theorem filled_of_two (hn : Neat g t) {a : Cell} (ha : InGrid t.bw t.bh a) (h2 : 1 < (t.cand a).card) : t.num a = 0 := by
  by_contra h0
  rw [hn.filled a ha h0, Finset.card_singleton] at h2
  omega

/-- Numbers among the candidates of an empty field are solutions of empty fields of each of its units. -/
theorem cand_open (hn : Neat g t) {k : Line} {e a : Cell} (ha : a ∈ unitFields t k e) (h0 : t.num a = 0) {v : Int} (hv : v ∈ t.cand a)
    (hv' : IsNumber t.bw t.bh v) : ∃ b ∈ openFields t k e, g b = v := by
  obtain ⟨p, hp, e'⟩ := line_surj (k := k) hn.cons (inGrid_of_unit ha) hv'
  have hp' : p ∈ unitFields t k e := by
    have := (mem_places.1 hp).1
    rwa [unit_eq_of_mem ha] at this
  refine ⟨p, mem_open.2 ⟨hp', ?_⟩, e'⟩
  by_contra hp0
  have hne : p ≠ a := by rintro rfl; exact hp0 h0
  refine hn.peers p a (inGrid_of_unit hp') (inGrid_of_unit ha) (peer_of_unit hp' ha hne) hp0 ?_
  rw [hn.num (inGrid_of_unit hp') hp0, e']
  exact hv

theorem naked_complement (hn : Neat g t) (h2 : Idle t .hiddenSingle) {n : Nat} (hidle : ∀ m, 2 ≤ m → m + 1 ≤ n → Idle t (.hiddenTuple m))
    {k : Line} {e : Cell} {F : Finset Cell} (he : InGrid t.bw t.bh e) (hp : NakedPattern t n k e F) :
    2 * n ≤ (openFields t k e).card := by
  by_contra hlt
  set E := openFields t k e with hE
  have hEu : E ⊆ unitFields t k e := Finset.filter_subset _ _
  have hFE : F ⊆ E := fun a ha => mem_open.2 ⟨hp.sub ha, filled_of_two hn (inGrid_of_unit (hp.sub ha)) (hp.each a ha).1⟩
  set U := F.biUnion t.getCandidates with hU
  have himg : F.image g ⊆ U := by
    intro u hu
    obtain ⟨a, ha, rfl⟩ := Finset.mem_image.1 hu
    exact Finset.mem_biUnion.2 ⟨a, ha, hn.cons.2 a (inGrid_of_unit (hp.sub ha))⟩
  have hUeq : F.image g = U := Finset.eq_of_subset_of_card_le himg (by
    rw [open_image_card hn hp.sub, hp.card]; exact hp.all)
  have hMc : (E \ F).card + n = E.card := by
    have := Finset.card_sdiff_add_card_eq_card hFE
    rw [hp.card] at this
    exact this
  have hMu : E \ F ⊆ unitFields t k e := Finset.sdiff_subset.trans hEu
  have hdis : ∀ v, v ∈ (E \ F).image g → v ∉ U := by
    intro v hv hvU
    rw [← hUeq] at hvU
    obtain ⟨b, hb, rfl⟩ := Finset.mem_image.1 hv
    obtain ⟨c, hc, e'⟩ := Finset.mem_image.1 hvU
    have := line_inj hn.cons (hp.sub hc) (hMu hb) e'
    exact (Finset.mem_sdiff.1 hb).2 (this ▸ hc)
  obtain ⟨b, hb⟩ := hp.useful
  rw [nakedTargets, Finset.mem_filter] at hb
  obtain ⟨hbu, hbF, u, hu⟩ := hb
  rw [Finset.mem_inter] at hu
  have hb0 : t.num b = 0 := by
    by_contra h0
    have hub : u ∈ t.cand b := hu.2
    rw [hn.filled b (inGrid_of_unit hbu) h0, Finset.mem_singleton, hn.num (inGrid_of_unit hbu) h0] at hub
    have := hu.1
    rw [← hU, ← hUeq, hub] at this
    obtain ⟨c, hc, e'⟩ := Finset.mem_image.1 this
    exact hbF (line_inj hn.cons (hp.sub hc) hbu e' ▸ hc)
  have hbM : b ∈ E \ F := Finset.mem_sdiff.2 ⟨mem_open.2 ⟨hbu, hb0⟩, hbF⟩
  have := hidden_mono hn h2 (n := n - 1) (fun m h3 h4 => hidle m h3 (by omega)) (k := k) he (V := (E \ F).image g) (M := E \ F)
    (by
      intro v hv
      obtain ⟨c, hc, rfl⟩ := Finset.mem_image.1 hv
      exact hn.cons.1.full c (inGrid_of_unit (hMu hc)))
    (by rw [open_image_card hn hMu]; omega) (by rw [open_image_card hn hMu])
    (by
      intro v hv a ha
      obtain ⟨hau, hva⟩ := mem_places.1 ha
      have hva : v ∈ t.cand a := hva
      have ha0 : t.num a = 0 := by
        by_contra h0
        rw [hn.filled a (inGrid_of_unit hau) h0, Finset.mem_singleton, hn.num (inGrid_of_unit hau) h0] at hva
        obtain ⟨c, hc, e'⟩ := Finset.mem_image.1 hv
        have := line_inj hn.cons (hMu hc) hau (e'.trans hva)
        rw [← this] at h0
        exact h0 (mem_open.1 (Finset.mem_sdiff.1 hc).1).2
      exact Finset.mem_sdiff.2 ⟨mem_open.2 ⟨hau, ha0⟩, fun haF => hdis v hv (Finset.mem_biUnion.2 ⟨a, haF, hva⟩)⟩) hbM
  exact hdis u (this hu.2) hu.1

theorem hidden_complement (hn : Neat g t) (h1 : Idle t .nakedSingle) {n : Nat} (hidle : ∀ m, 2 ≤ m → m ≤ n → Idle t (.nakedTuple m))
    (hnum : ∀ a, InGrid t.bw t.bh a → ∀ v ∈ t.cand a, IsNumber t.bw t.bh v) {k : Line} {e : Cell} {V : Finset Int} (he : InGrid t.bw t.bh e)
    (hp : HiddenPattern t n k e V) : 2 * n + 1 ≤ (openFields t k e).card := by
  by_contra hlt
  set E := openFields t k e with hE
  have hEu : E ⊆ unitFields t k e := Finset.filter_subset _ _
  set P := V.biUnion (places t k e) with hP
  -- the places are empty
  have hPE : P ⊆ E := by
    intro a ha
    obtain ⟨v, hv, hva⟩ := Finset.mem_biUnion.1 ha
    obtain ⟨hau, hva'⟩ := mem_places.1 hva
    have hva' : v ∈ t.cand a := hva'
    refine mem_open.2 ⟨hau, ?_⟩
    by_contra h0
    rw [hn.filled a (inGrid_of_unit hau) h0, Finset.mem_singleton] at hva'
    obtain ⟨b, hb, hne⟩ := Finset.exists_mem_ne (hp.each v hv).2.1 a
    obtain ⟨hbu, hvb⟩ := mem_places.1 hb
    refine hn.peers a b (inGrid_of_unit hau) (inGrid_of_unit hbu) (peer_of_unit hau hbu hne.symm) h0 ?_
    rw [← hva']; exact hvb
  have hPu := hPE.trans hEu
  have hVP : V ⊆ P.image g := by
    intro v hv
    obtain ⟨p, hp1, e'⟩ := line_surj hn.cons (k := k) he (hp.each v hv).1
    exact Finset.mem_image.2 ⟨p, Finset.mem_biUnion.2 ⟨v, hv, hp1⟩, e'⟩
  have hVeq : V = P.image g := Finset.eq_of_subset_of_card_le hVP (by
    rw [open_image_card hn hPu, hp.card]; exact hp.all)
  have hPc : P.card = n := by rw [← open_image_card hn hPu, ← hVeq, hp.card]
  have hMc : (E \ P).card + n = E.card := by
    have := Finset.card_sdiff_add_card_eq_card hPE
    rw [hPc] at this
    exact this
  have hMu : E \ P ⊆ unitFields t k e := Finset.sdiff_subset.trans hEu
  obtain ⟨b, hb⟩ := hp.useful
  rw [hiddenTargets, Finset.mem_filter] at hb
  obtain ⟨hbP, w, hw⟩ := hb
  rw [Finset.mem_sdiff] at hw
  have hother : ∀ a ∈ E, ∀ u ∈ t.cand a, u ∉ V → u ∈ (E \ P).image g := by
    intro a ha u hu huV
    obtain ⟨c, hc, rfl⟩ := cand_open hn (hEu ha) (mem_open.1 ha).2 hu (hnum a (inGrid_of_unit (hEu ha)) u hu)
    refine Finset.mem_image_of_mem _ (Finset.mem_sdiff.2 ⟨hc, fun h => huV ?_⟩)
    rw [hVeq]; exact Finset.mem_image_of_mem _ h
  refine naked_mono hn h1 hidle (k := k) (e := e) (F := E \ P) (U := (E \ P).image g) hMu (by omega) (by rw [open_image_card hn hMu])
    (fun a ha u hu => ?_) (b := b) (hPu hbP) (fun h => (Finset.mem_sdiff.1 h).2 hbP) (hother b (hPE hbP) w hw.1 hw.2) hw.1
  have ha' := Finset.mem_sdiff.1 ha
  refine hother a ha'.1 u hu fun huV => ha'.2 (Finset.mem_biUnion.2 ⟨u, huV, mem_places.2 ⟨hEu ha'.1, hu⟩⟩)

/-- The rows (columns) without the number. -/
def openRows (t : Sudoku) (byRow : Bool) (v : Int) : Finset Nat :=
  (Finset.range (t.bw * t.bh)).filter fun i => ∀ a ∈ unitFields t (along byRow) (i, i), t.num a ≠ v

theorem fish_complement (hn : Neat g t) (h2 : Idle t .hiddenSingle) {n : Nat} (hidle : ∀ m, 2 ≤ m → m + 1 ≤ n → Idle t (.basicFish m))
    {byRow : Bool} {v : Int} {I : Finset Nat} (hp : FishPattern t n byRow v I) : 2 * n ≤ (openRows t byRow v).card := by
  by_contra hlt
  set R := openRows t byRow v with hR
  have hv := hp.number
  have hv0 : v ≠ 0 := by have := hv.1; omega
  have hRN : ∀ i ∈ R, i < t.bw * t.bh := fun i hi => Finset.mem_range.1 (Finset.mem_filter.1 hi).1
  have hset : ∀ a, InGrid t.bw t.bh a → across (!byRow) a ∉ R →
      ∃ c, InGrid t.bw t.bh c ∧ across (!byRow) c = across (!byRow) a ∧ t.num c = v ∧ v ∈ t.cand c := by
    intro a ha hna
    have hai : across (!byRow) a < t.bw * t.bh := by cases byRow <;> [exact ha.2; exact ha.1]
    rw [hR, openRows, Finset.mem_filter] at hna
    push Not at hna
    obtain ⟨c, hc, e⟩ := hna (Finset.mem_range.2 hai)
    have hvc : v ∈ t.cand c := by rw [hn.filled c (inGrid_of_unit hc) (by rw [e]; exact hv0), e]; simp
    have := mem_along.1 (mem_places.2 ⟨hc, hvc⟩)
    exact ⟨c, this.1, this.2.1, e, hvc⟩
  have hclear : ∀ a c, InGrid t.bw t.bh a → InGrid t.bw t.bh c → Peer t.bw t.bh c a → t.num c = v → v ∉ t.cand a := by
    intro a c ha hc hpe e
    have := hn.peers c a hc ha hpe (by rw [e]; exact hv0)
    rwa [e] at this
  -- the rows of the fish are open
  have hIR : I ⊆ R := by
    intro i hi
    rw [hR, openRows, Finset.mem_filter]
    refine ⟨Finset.mem_range.2 (hp.sub i hi), fun c hc e => ?_⟩
    obtain ⟨d, hd, hne⟩ := Finset.exists_mem_ne (show 1 < _ from (hp.each i hi).1) c
    obtain ⟨hdu, hvd⟩ := mem_places.1 hd
    exact hclear d c (inGrid_of_unit hdu) (inGrid_of_unit hc) (peer_of_unit hc hdu hne.symm) e hvd
  -- the fields of the solution
  have hpos : ∀ i ∈ R, ∃ p ∈ places t (along byRow) (i, i) v, g p = v := fun i hi => line_surj hn.cons ⟨hRN i hi, hRN i hi⟩ hv
  classical
  let pos : Nat → Cell := fun i => if hi : i ∈ R then (hpos i hi).choose else (0, 0)
  have hp1 : ∀ i ∈ R, InGrid t.bw t.bh (pos i) ∧ across (!byRow) (pos i) = i ∧ v ∈ t.cand (pos i) := by
    intro i hi; simp only [pos, dif_pos hi]; exact mem_along.1 (hpos i hi).choose_spec.1
  have hp2 : ∀ i ∈ R, g (pos i) = v := by
    intro i hi; simp only [pos, dif_pos hi]; exact (hpos i hi).choose_spec.2
  let col : Nat → Nat := fun i => across byRow (pos i)
  have hsame : ∀ i ∈ R, ∀ a, InGrid t.bw t.bh a → g a = v → across byRow a = col i → a = pos i := by
    intro i hi a ha e1 e2
    by_contra hne
    refine hn.cons.1.valid a (pos i) ha (hp1 i hi).1 (peer_across e2 hne) ?_ (e1.trans (hp2 i hi).symm)
    rw [e1]; exact hv0
  have hinj : ∀ i ∈ R, ∀ j ∈ R, col i = col j → i = j := by
    intro i hi j hj e
    have := hsame j hj (pos i) (hp1 i hi).1 (hp2 i hi) e
    rw [← (hp1 i hi).2.1, ← (hp1 j hj).2.1, this]
  have hcolc : ∀ A ⊆ R, (A.image col).card = A.card := fun A hA =>
    Finset.card_image_of_injOn fun i hi j hj e => hinj i (hA hi) j (hA hj) e
  set B := fishBase t byRow v I with hB
  have hmemB : ∀ a, a ∈ B ↔ InGrid t.bw t.bh a ∧ across (!byRow) a ∈ I ∧ v ∈ t.cand a := by
    intro a
    rw [hB, fishBase, Finset.mem_biUnion]
    constructor
    · rintro ⟨i, hi, ha⟩
      obtain ⟨h1, h2, h3⟩ := mem_along.1 ha
      exact ⟨h1, h2 ▸ hi, h3⟩
    · rintro ⟨h1, h2, h3⟩
      exact ⟨_, h2, mem_along.2 ⟨h1, rfl, h3⟩⟩
  have hCsub : I.image col ⊆ B.image (across byRow) := by
    intro x hx
    obtain ⟨i, hi, rfl⟩ := Finset.mem_image.1 hx
    obtain ⟨h1, h2, h3⟩ := hp1 i (hIR hi)
    exact Finset.mem_image_of_mem _ ((hmemB _).2 ⟨h1, by rw [h2]; exact hi, h3⟩)
  have hCeq : I.image col = B.image (across byRow) := Finset.eq_of_subset_of_card_le hCsub (by
    rw [hcolc I hIR, hp.card]; exact hp.cover)
  have hMc : (R \ I).card + n = R.card := by
    have := Finset.card_sdiff_add_card_eq_card hIR
    rw [hp.card] at this
    exact this
  have hMR : R \ I ⊆ R := Finset.sdiff_subset
  have hdis : ∀ x, x ∈ (R \ I).image col → x ∉ B.image (across byRow) := by
    intro x hx hxB
    rw [← hCeq] at hxB
    obtain ⟨i, hi, rfl⟩ := Finset.mem_image.1 hx
    obtain ⟨j, hj, e⟩ := Finset.mem_image.1 hxB
    exact (Finset.mem_sdiff.1 hi).2 (hinj j (hIR hj) i (hMR hi) e ▸ hj)
  obtain ⟨b, hb⟩ := hp.useful
  rw [fishTargets, Finset.mem_filter, mem_fields, ← hB] at hb
  obtain ⟨hbg, hbC, hbB, hvb⟩ := hb
  have hvb : v ∈ t.cand b := hvb
  have hbI : across (!byRow) b ∉ I := fun h => hbB ((hmemB b).2 ⟨hbg, h, hvb⟩)
  have hbR : across (!byRow) b ∈ R := by
    by_contra hbR
    obtain ⟨c, hc, e1, e2, -⟩ := hset b hbg hbR
    have hcb : c = b := by
      by_contra hne
      exact hclear b c hbg hc (peer_across e1 hne) e2 hvb
    subst hcb
    obtain ⟨a, ha, e3⟩ := Finset.mem_image.1 hbC
    obtain ⟨ha1, ha2, ha3⟩ := (hmemB a).1 ha
    have hne : c ≠ a := by rintro rfl; exact hbB ha
    exact hclear a c ha1 hc (peer_across e3.symm hne) e2 ha3
  refine fish_mono hn h2 (n := n - 1) (fun m h3 h4 => hidle m h3 (by omega)) (byRow := !byRow) hv (I := (R \ I).image col) (C := R \ I)
    (by rw [hcolc _ hMR]; omega) ?_ (by rw [hcolc _ hMR]) ?_ hbg (Finset.mem_sdiff.2 ⟨hbR, hbI⟩) ?_ hvb
  · intro x hx
    obtain ⟨i, hi, rfl⟩ := Finset.mem_image.1 hx
    have := (hp1 i (hMR hi)).1
    show across byRow (pos i) < _
    cases byRow <;> [exact this.1; exact this.2]
  · intro a ha hax hva
    rw [Bool.not_not] at hax
    have haI : across (!byRow) a ∉ I := fun h => hdis _ hax (Finset.mem_image_of_mem _ ((hmemB a).2 ⟨ha, h, hva⟩))
    refine Finset.mem_sdiff.2 ⟨?_, haI⟩
    by_contra haR
    obtain ⟨c, hc, e1, e2, -⟩ := hset a ha haR
    have hca : c = a := by
      by_contra hne
      exact hclear a c ha hc (peer_across e1 hne) e2 hva
    subst hca
    obtain ⟨i, hi, e3⟩ := Finset.mem_image.1 hax
    have := hsame i (hMR hi) c hc ((hn.num hc (by rw [e2]; exact hv0)).symm.trans e2) e3.symm
    rw [this, (hp1 i (hMR hi)).2.1] at haR
    exact haR (hMR hi)
  · rw [Bool.not_not]
    exact fun h => hdis _ h hbC

/-- The fields common to a box and a row or column. -/
theorem pointing_size {n : Nat} {k k' : Line} {e f : Cell} {v : Int} (hkk : k = .box ∧ k' ≠ .box ∨ k ≠ .box ∧ k' = .box)
    (hp : PointingPattern t n k k' e f v) : n ≤ max t.bw t.bh := by
  have key : ∀ (l : Line), l ≠ .box → (∀ a ∈ places t k e v, ∀ b ∈ places t k e v, Share t.bw t.bh l a b ∧ SameBox t.bw t.bh a b) →
      n ≤ max t.bw t.bh := by
    intro l hl hall
    rw [← hp.card]
    have hwh : ∀ a ∈ places t k e v, 0 < t.bw * t.bh := fun a ha => by
      have := inGrid_of_unit (mem_places.1 ha).1
      exact lt_of_le_of_lt (Nat.zero_le _) this.1
    cases l with
    | box => exact absurd rfl hl
    | row =>
      refine le_trans ?_ (le_max_left _ _)
      conv_rhs => rw [← Finset.card_range t.bw]
      refine Finset.card_le_card_of_injOn (fun a => a.2 % t.bw) (fun a ha => ?_) (fun a ha b hb e' => ?_)
      · rw [Finset.mem_coe, Finset.mem_range]
        exact Nat.mod_lt _ (Nat.pos_of_mul_pos_right (hwh a ha))
      · obtain ⟨h1, h2, h3⟩ := hall a ha b hb
        refine Prod.ext h1 ?_
        have e'' : a.2 % t.bw = b.2 % t.bw := e'
        rw [← Nat.div_add_mod a.2 t.bw, h3, e'', Nat.div_add_mod]
    | column =>
      refine le_trans ?_ (le_max_right _ _)
      conv_rhs => rw [← Finset.card_range t.bh]
      refine Finset.card_le_card_of_injOn (fun a => a.1 % t.bh) (fun a ha => ?_) (fun a ha b hb e' => ?_)
      · rw [Finset.mem_coe, Finset.mem_range]
        exact Nat.mod_lt _ (Nat.pos_of_mul_pos_left (hwh a ha))
      · obtain ⟨h1, h2, h3⟩ := hall a ha b hb
        refine Prod.ext ?_ h1
        have e'' : a.1 % t.bh = b.1 % t.bh := e'
        rw [← Nat.div_add_mod a.1 t.bh, h2, e'', Nat.div_add_mod]
  have h1 : ∀ a ∈ places t k e v, ∀ b ∈ places t k e v, Share t.bw t.bh k a b := fun a ha b hb =>
    share_both (mem_places.1 ha).1 (mem_places.1 hb).1
  have h2 : ∀ a ∈ places t k e v, ∀ b ∈ places t k e v, Share t.bw t.bh k' a b := fun a ha b hb => share_both (hp.sub ha) (hp.sub hb)
  rcases hkk with ⟨rfl, h⟩ | ⟨h, rfl⟩
  · exact key k' h fun a ha b hb => ⟨h2 a ha b hb, h1 a ha b hb⟩
  · exact key k h fun a ha b hb => ⟨h1 a ha b hb, h2 a ha b hb⟩

end

end Solvers
