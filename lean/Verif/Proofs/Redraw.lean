import Verif.Proofs.RateRun
import Verif.RedrawSpec

set_option autoImplicit false

/-! Helper lemmas: redrawn sudokus. -/

open Spec Solvers

namespace Redraw

variable {w h w' h' : Nat} {σ : Redrawing w h w' h'} {s t : Sudoku}

theorem Shows.symm (hs : σ.Shows s t) : σ.symm.Shows t s := by
  refine ⟨hs.bw', hs.bh', hs.bw, hs.bh, fun a ha => ?_⟩
  have ha' : InGrid w h (σ.field.symm a) := by rw [← σ.inGrid, Equiv.apply_symm_apply]; exact ha
  have := hs.get _ ha'
  rw [Equiv.apply_symm_apply] at this
  show s.get (σ.field.symm a) = σ.number.symm (t.get a)
  rw [this, Equiv.symm_apply_apply]

theorem zero_iff (σ : Redrawing w h w' h') {v : Int} : σ.number v = 0 ↔ v = 0 := by
  constructor
  · intro e; rw [← σ.zero] at e; exact σ.number.injective e
  · rintro rfl; exact σ.zero

theorem peer (σ : Redrawing w h w' h') {a b : Cell} (ha : InGrid w h a) (hb : InGrid w h b) :
    Peer w' h' (σ.field a) (σ.field b) ↔ Peer w h a b := by
  have e : ∀ (w h : Nat) (f : Bool) (a b : Cell), (SameRow a b ∨ SameCol a b ∨ SameBox w h a b) ↔ ∃ k : Line, Share w h (k.turn f) a b := by
    intro w h f a b
    constructor
    · rintro (h1 | h1 | h1)
      · exact ⟨Line.row.turn f, by cases f <;> exact h1⟩
      · exact ⟨Line.column.turn f, by cases f <;> exact h1⟩
      · exact ⟨.box, h1⟩
    · rintro ⟨k, hk⟩
      cases k <;> cases f <;> simp only [Line.turn, Share, Bool.false_eq_true, if_false, if_true] at hk <;> tauto
  unfold Peer
  rw [σ.field.injective.ne_iff, e w' h' σ.flip, e w h false]
  refine and_congr_right fun _ => exists_congr fun k => ?_
  rw [σ.share k a b ha hb]
  cases k <;> rfl

/-- The grid, redrawn. -/
def grid (σ : Redrawing w h w' h') (g : Grid) : Grid := fun b => σ.number (g (σ.field.symm b))

theorem noConflict (σ : Redrawing w h w' h') {g g' : Grid} (hg : ∀ a, InGrid w h a → g' (σ.field a) = σ.number (g a)) :
    NoConflict w' h' g' ↔ NoConflict w h g := by
  constructor
  · intro hn a b ha hb hp h0 e
    refine hn (σ.field a) (σ.field b) ((σ.inGrid a).2 ha) ((σ.inGrid b).2 hb) ((peer σ ha hb).2 hp) ?_ ?_
    · rw [hg a ha]; exact fun e => h0 ((zero_iff σ).1 e)
    · rw [hg a ha, hg b hb, e]
  · intro hn a b ha hb hp h0 e
    obtain ⟨a, rfl⟩ := σ.field.surjective a
    obtain ⟨b, rfl⟩ := σ.field.surjective b
    rw [σ.inGrid] at ha hb
    rw [peer σ ha hb] at hp
    rw [hg a ha] at h0 e
    rw [hg b hb] at e
    exact hn a b ha hb hp (fun e => h0 ((zero_iff σ).2 e)) (σ.number.injective e)

theorem isSolution (hs : σ.Shows s t) {g g' : Grid} (hg : ∀ a, InGrid w h a → g' (σ.field a) = σ.number (g a)) :
    IsSolution w' h' t.get g' ↔ IsSolution w h s.get g := by
  constructor
  · rintro ⟨h1, h2, h3⟩
    refine ⟨fun a ha h0 => ?_, fun a ha => ?_, (noConflict σ hg).1 h3⟩
    · have := h1 (σ.field a) ((σ.inGrid a).2 ha) (by rw [hs.get a ha]; exact fun e => h0 ((zero_iff σ).1 e))
      rw [hg a ha, hs.get a ha] at this
      exact σ.number.injective this
    · have := h2 (σ.field a) ((σ.inGrid a).2 ha)
      rw [hg a ha, σ.isNumber] at this
      exact this
  · rintro ⟨h1, h2, h3⟩
    refine ⟨fun a ha h0 => ?_, fun a ha => ?_, (noConflict σ hg).2 h3⟩
    · obtain ⟨a, rfl⟩ := σ.field.surjective a
      rw [σ.inGrid] at ha
      rw [hs.get a ha] at h0 ⊢
      rw [hg a ha, h1 a ha (fun e => h0 ((zero_iff σ).2 e))]
    · obtain ⟨a, rfl⟩ := σ.field.surjective a
      rw [σ.inGrid] at ha
      rw [hg a ha, σ.isNumber]
      exact h2 a ha

theorem isCompletion (hs : σ.Shows s t) {g g' : Grid} (hg : ∀ a, InGrid w h a → g' (σ.field a) = σ.number (g a)) :
    IsCompletion w' h' t.get g' ↔ IsCompletion w h s.get g := by
  constructor
  · rintro ⟨h1, h2, h3⟩
    refine ⟨fun a ha h0 => ?_, fun a ha h0 => ?_, (noConflict σ hg).1 h3⟩
    · have := h1 (σ.field a) ((σ.inGrid a).2 ha) (by rw [hs.get a ha]; exact fun e => h0 ((zero_iff σ).1 e))
      rw [hg a ha, hs.get a ha] at this
      exact σ.number.injective this
    · have := h2 (σ.field a) ((σ.inGrid a).2 ha) (by rw [hs.get a ha, h0, σ.zero])
      rw [hg a ha, σ.isNumber] at this
      exact this
  · rintro ⟨h1, h2, h3⟩
    refine ⟨fun a ha h0 => ?_, fun a ha h0 => ?_, (noConflict σ hg).2 h3⟩
    · obtain ⟨a, rfl⟩ := σ.field.surjective a
      rw [σ.inGrid] at ha
      rw [hs.get a ha] at h0 ⊢
      rw [hg a ha, h1 a ha (fun e => h0 ((zero_iff σ).2 e))]
    · obtain ⟨a, rfl⟩ := σ.field.surjective a
      rw [σ.inGrid] at ha
      rw [hs.get a ha, zero_iff] at h0
      rw [hg a ha, σ.isNumber]
      exact h2 a ha h0

theorem grid_field (σ : Redrawing w h w' h') (g : Grid) (a : Cell) : grid σ g (σ.field a) = σ.number (g a) := by
  unfold grid; rw [Equiv.symm_apply_apply]

theorem solvable (hs : σ.Shows s t) (h1 : Solvable w h s.get) : Solvable w' h' t.get := by
  obtain ⟨g, hg⟩ := h1
  exact ⟨grid σ g, (isSolution hs fun a _ => grid_field σ g a).2 hg⟩

/-! ### patterns -/

/-- Also the candidates are redrawn. -/
structure ShowsAll (σ : Redrawing w h w' h') (s t : Sudoku) : Prop where
  shows' : σ.Shows s t
  cand : ∀ a, InGrid w h a → t.cand (σ.field a) = (s.cand a).image σ.number

section
variable (hs : ShowsAll σ s t)
include hs

theorem mem_cand {a : Cell} (ha : InGrid w h a) {v : Int} : σ.number v ∈ t.getCandidates (σ.field a) ↔ v ∈ s.getCandidates a := by
  show σ.number v ∈ t.cand (σ.field a) ↔ v ∈ s.cand a
  rw [hs.cand a ha, σ.number.injective.mem_finset_image]

theorem card_cand {a : Cell} (ha : InGrid w h a) : (t.getCandidates (σ.field a)).card = (s.getCandidates a).card := by
  show (t.cand (σ.field a)).card = (s.cand a).card
  rw [hs.cand a ha, Finset.card_image_of_injective _ σ.number.injective]

theorem unit_image {k : Line} {e : Cell} (he : InGrid w h e) :
    unitFields t (k.turn σ.flip) (σ.field e) = (unitFields s k e).image σ.field := by
  ext b
  obtain ⟨a, rfl⟩ := σ.field.surjective b
  rw [σ.field.injective.mem_finset_image, mem_unitFields, mem_unitFields, hs.shows'.bw, hs.shows'.bh, hs.shows'.bw', hs.shows'.bh', σ.inGrid]
  exact and_congr_right fun ha => σ.share k e a he ha

theorem places_image {k : Line} {e : Cell} (he : InGrid w h e) (v : Int) :
    places t (k.turn σ.flip) (σ.field e) (σ.number v) = (places s k e v).image σ.field := by
  ext b
  obtain ⟨a, rfl⟩ := σ.field.surjective b
  rw [σ.field.injective.mem_finset_image, mem_places, mem_places, unit_image hs he, σ.field.injective.mem_finset_image]
  refine and_congr_right fun ha => ?_
  have := inGrid_of_unit ha
  rw [hs.shows'.bw, hs.shows'.bh] at this
  exact mem_cand hs this

theorem card_places {k : Line} {e : Cell} (he : InGrid w h e) (v : Int) :
    (places t (k.turn σ.flip) (σ.field e) (σ.number v)).card = (places s k e v).card := by
  rw [places_image hs he, Finset.card_image_of_injective _ σ.field.injective]

theorem onlyPlace_image {k : Line} {a : Cell} {v : Int} (ha : InGrid w h a) (hp : OnlyPlace s k a v) :
    OnlyPlace t (k.turn σ.flip) (σ.field a) (σ.number v) := by
  obtain ⟨h1, h2⟩ := hp
  rw [hs.shows'.bw, hs.shows'.bh] at h1
  refine ⟨by rw [hs.shows'.bw', hs.shows'.bh', σ.isNumber]; exact h1, fun b hb hne hv => ?_⟩
  rw [unit_image hs ha] at hb
  obtain ⟨b, hb', rfl⟩ := Finset.mem_image.1 hb
  have hbg := inGrid_of_unit hb'
  rw [hs.shows'.bw, hs.shows'.bh] at hbg
  exact h2 b hb' (fun e => hne (by rw [e])) ((mem_cand hs hbg).1 hv)

theorem biUnion_cand {F : Finset Cell} (hF : ∀ a ∈ F, InGrid w h a) :
    (F.image σ.field).biUnion t.getCandidates = (F.biUnion s.getCandidates).image σ.number := by
  ext u
  obtain ⟨v, rfl⟩ := σ.number.surjective u
  rw [σ.number.injective.mem_finset_image, Finset.mem_biUnion, Finset.mem_biUnion]
  constructor
  · rintro ⟨b, hb, hv⟩
    obtain ⟨a, ha, rfl⟩ := Finset.mem_image.1 hb
    exact ⟨a, ha, (mem_cand hs (hF a ha)).1 hv⟩
  · rintro ⟨a, ha, hv⟩
    exact ⟨σ.field a, Finset.mem_image_of_mem _ ha, (mem_cand hs (hF a ha)).2 hv⟩

theorem biUnion_places {k : Line} {e : Cell} (he : InGrid w h e) (V : Finset Int) :
    (V.image σ.number).biUnion (places t (k.turn σ.flip) (σ.field e)) = (V.biUnion (places s k e)).image σ.field := by
  ext b
  rw [Finset.mem_biUnion, Finset.mem_image]
  constructor
  · rintro ⟨u, hu, hb⟩
    obtain ⟨v, hv, rfl⟩ := Finset.mem_image.1 hu
    rw [places_image hs he] at hb
    obtain ⟨a, ha, rfl⟩ := Finset.mem_image.1 hb
    exact ⟨a, Finset.mem_biUnion.2 ⟨v, hv, ha⟩, rfl⟩
  · rintro ⟨a, ha, rfl⟩
    obtain ⟨v, hv, ha⟩ := Finset.mem_biUnion.1 ha
    exact ⟨σ.number v, Finset.mem_image_of_mem _ hv, by rw [places_image hs he]; exact Finset.mem_image_of_mem _ ha⟩

theorem naked_image {n : Nat} {k : Line} {e : Cell} {F : Finset Cell} (he : InGrid w h e) (hp : NakedPattern s n k e F) :
    NakedPattern t n (k.turn σ.flip) (σ.field e) (F.image σ.field) := by
  have hFg : ∀ a ∈ F, InGrid w h a := by
    intro a ha
    have := inGrid_of_unit (hp.sub ha)
    rw [hs.shows'.bw, hs.shows'.bh] at this
    exact this
  refine ⟨?_, ?_, ?_, ?_, ?_⟩
  · rw [unit_image hs he]; exact Finset.image_subset_image hp.sub
  · rw [Finset.card_image_of_injective _ σ.field.injective]; exact hp.card
  · intro b hb
    obtain ⟨a, ha, rfl⟩ := Finset.mem_image.1 hb
    rw [card_cand hs (hFg a ha)]
    exact hp.each a ha
  · rw [biUnion_cand hs hFg, Finset.card_image_of_injective _ σ.number.injective]; exact hp.all
  · obtain ⟨b, hb⟩ := hp.useful
    unfold nakedTargets at hb
    rw [Finset.mem_filter] at hb
    obtain ⟨h1, h2, v, hv⟩ := hb
    rw [Finset.mem_inter] at hv
    have hbg := inGrid_of_unit h1
    rw [hs.shows'.bw, hs.shows'.bh] at hbg
    refine ⟨σ.field b, ?_⟩
    unfold nakedTargets
    rw [Finset.mem_filter, unit_image hs he, biUnion_cand hs hFg, σ.field.injective.mem_finset_image, σ.field.injective.mem_finset_image]
    refine ⟨h1, h2, σ.number v, ?_⟩
    rw [Finset.mem_inter, σ.number.injective.mem_finset_image]
    exact ⟨hv.1, (mem_cand hs hbg).2 hv.2⟩

theorem hidden_image {n : Nat} {k : Line} {e : Cell} {V : Finset Int} (he : InGrid w h e) (hp : HiddenPattern s n k e V) :
    HiddenPattern t n (k.turn σ.flip) (σ.field e) (V.image σ.number) := by
  refine ⟨?_, ?_, ?_, ?_⟩
  · rw [Finset.card_image_of_injective _ σ.number.injective]; exact hp.card
  · intro u hu
    obtain ⟨v, hv, rfl⟩ := Finset.mem_image.1 hu
    rw [card_places hs he, hs.shows'.bw', hs.shows'.bh', σ.isNumber]
    have := hp.each v hv
    rw [hs.shows'.bw, hs.shows'.bh] at this
    exact this
  · rw [biUnion_places hs he, Finset.card_image_of_injective _ σ.field.injective]; exact hp.all
  · obtain ⟨b, hb⟩ := hp.useful
    unfold hiddenTargets at hb
    rw [Finset.mem_filter] at hb
    obtain ⟨h1, v, hv⟩ := hb
    rw [Finset.mem_sdiff] at hv
    obtain ⟨u, -, h2⟩ := Finset.mem_biUnion.1 h1
    have hbg := inGrid_of_unit (mem_places.1 h2).1
    rw [hs.shows'.bw, hs.shows'.bh] at hbg
    refine ⟨σ.field b, ?_⟩
    unfold hiddenTargets
    rw [Finset.mem_filter, biUnion_places hs he, σ.field.injective.mem_finset_image]
    refine ⟨h1, σ.number v, ?_⟩
    rw [Finset.mem_sdiff, σ.number.injective.mem_finset_image]
    exact ⟨(mem_cand hs hbg).2 hv.1, hv.2⟩

theorem pointing_image {n : Nat} {k k' : Line} {e f : Cell} {v : Int} (hp : PointingPattern s n k k' e f v) :
    PointingPattern t n (k.turn σ.flip) (k'.turn σ.flip) (σ.field f) (σ.field f) (σ.number v) := by
  have hfe := (mem_places.1 hp.mem).1
  have hf := inGrid_of_unit hfe
  rw [hs.shows'.bw, hs.shows'.bh] at hf
  have e1 := places_eq_of_mem hfe v
  have hcard := hp.card
  have hmem := hp.mem
  have hsub := hp.sub
  have hus := hp.useful
  have hnum := hp.number
  rw [hs.shows'.bw, hs.shows'.bh] at hnum
  rw [← e1] at hcard hmem hsub hus
  refine ⟨?_, ?_, ?_, ?_, ?_⟩
  · rw [hs.shows'.bw', hs.shows'.bh', σ.isNumber]; exact hnum
  · rw [card_places hs hf]; exact hcard
  · rw [places_image hs hf, σ.field.injective.mem_finset_image]; exact hmem
  · rw [places_image hs hf, unit_image hs hf]; exact Finset.image_subset_image hsub
  · obtain ⟨b, hb⟩ := hus
    unfold pointingTargets at hb ⊢
    rw [Finset.mem_sdiff] at hb
    refine ⟨σ.field b, ?_⟩
    rw [Finset.mem_sdiff, places_image hs hf, places_image hs hf, σ.field.injective.mem_finset_image, σ.field.injective.mem_finset_image]
    exact hb

/-- The redrawn row (column). -/
theorem index_image (d : Bool) {a : Cell} (ha : InGrid w h a) :
    across (xor d σ.flip) (σ.field a) = across (xor d σ.flip) (σ.field (across d a, across d a)) := by
  have hag : InGrid w h (across d a, across d a) := by
    cases d
    · exact ⟨ha.1, ha.1⟩
    · exact ⟨ha.2, ha.2⟩
  have := (σ.share (along (!d)) a _ ha hag).2 (by cases d <;> rfl)
  clear hs
  revert this
  cases d <;> cases σ.flip <;> exact id

theorem index_inj {d : Bool} {i j : Nat} (hi : i < w * h) (hj : j < w * h)
    (e : across (xor d σ.flip) (σ.field (i, i)) = across (xor d σ.flip) (σ.field (j, j))) : i = j := by
  have := (σ.share (along (!d)) (i, i) (j, j) ⟨hi, hi⟩ ⟨hj, hj⟩).1 (by
    revert e
    cases d <;> cases σ.flip <;> exact id)
  cases d <;> exact this

theorem fish_image {n : Nat} {byRow : Bool} {v : Int} {I : Finset Nat} (hp : FishPattern s n byRow v I) :
    FishPattern t n (xor byRow σ.flip) (σ.number v) (I.image fun i => across (!(xor byRow σ.flip)) (σ.field (i, i))) := by
  have hI : ∀ i ∈ I, i < w * h := by
    intro i hi
    have := hp.sub i hi
    rw [hs.shows'.bw, hs.shows'.bh] at this
    exact this
  have hpl : ∀ i ∈ I, places t (along (xor byRow σ.flip)) (across (!(xor byRow σ.flip)) (σ.field (i, i)), across (!(xor byRow σ.flip)) (σ.field (i, i))) (σ.number v)
      = (places s (along byRow) (i, i) v).image σ.field := by
    intro i hi
    rw [← places_image hs (k := along byRow) (e := (i, i)) ⟨hI i hi, hI i hi⟩]
    rw [show (along byRow).turn σ.flip = along (xor byRow σ.flip) by cases byRow <;> cases σ.flip <;> rfl]
    refine places_eq ?_ _
    cases (xor byRow σ.flip) <;> rfl
  have hbase : fishBase t (xor byRow σ.flip) (σ.number v) (I.image fun i => across (!(xor byRow σ.flip)) (σ.field (i, i))) =
      (fishBase s byRow v I).image σ.field := by
    unfold fishBase
    ext b
    rw [Finset.mem_biUnion, Finset.mem_image]
    constructor
    · rintro ⟨j, hj, hb⟩
      obtain ⟨i, hi, rfl⟩ := Finset.mem_image.1 hj
      rw [hpl i hi] at hb
      obtain ⟨a, ha, rfl⟩ := Finset.mem_image.1 hb
      exact ⟨a, Finset.mem_biUnion.2 ⟨i, hi, ha⟩, rfl⟩
    · rintro ⟨a, ha, rfl⟩
      obtain ⟨i, hi, ha⟩ := Finset.mem_biUnion.1 ha
      exact ⟨_, Finset.mem_image_of_mem _ hi, by rw [hpl i hi]; exact Finset.mem_image_of_mem _ ha⟩
  have hbg : ∀ a ∈ fishBase s byRow v I, InGrid w h a := by
    intro a ha
    obtain ⟨i, -, ha⟩ := Finset.mem_biUnion.1 ha
    have := inGrid_of_unit (mem_places.1 ha).1
    rw [hs.shows'.bw, hs.shows'.bh] at this
    exact this
  have hcols : ((fishBase s byRow v I).image σ.field).image (across (xor byRow σ.flip)) =
      ((fishBase s byRow v I).image (across byRow)).image fun x => across (xor byRow σ.flip) (σ.field (x, x)) := by
    rw [Finset.image_image, Finset.image_image]
    refine Finset.image_congr fun a ha => ?_
    exact index_image hs byRow (hbg a ha)
  refine ⟨?_, ?_, ?_, ?_, ?_, ?_, ?_⟩
  · rw [hs.shows'.bw', hs.shows'.bh', σ.isNumber]
    have := hp.number
    rw [hs.shows'.bw, hs.shows'.bh] at this
    exact this
  · intro j hj
    obtain ⟨i, hi, rfl⟩ := Finset.mem_image.1 hj
    have := (σ.inGrid (i, i)).2 ⟨hI i hi, hI i hi⟩
    rw [hs.shows'.bw', hs.shows'.bh']
    cases (xor byRow σ.flip)
    · exact this.2
    · exact this.1
  · rw [Finset.card_image_of_injOn]
    · exact hp.card
    · intro i hi j hj e
      refine index_inj hs (d := !byRow) (hI i hi) (hI j hj) ?_
      rw [Bool.not_xor]
      exact e
  · intro j hj
    obtain ⟨i, hi, rfl⟩ := Finset.mem_image.1 hj
    rw [hpl i hi, Finset.card_image_of_injective _ σ.field.injective]
    exact hp.each i hi
  · rw [hbase, hcols]
    exact le_trans Finset.card_image_le hp.cover
  · rw [hbase, hcols]
    intro y hy
    obtain ⟨x, hx, rfl⟩ := Finset.mem_image.1 hy
    refine le_trans (hp.twice x hx) ?_
    rw [← Finset.card_image_of_injective _ σ.field.injective]
    refine Finset.card_le_card fun b hb => ?_
    obtain ⟨a, ha, rfl⟩ := Finset.mem_image.1 hb
    rw [Finset.mem_filter] at ha ⊢
    refine ⟨Finset.mem_image_of_mem _ ha.1, ?_⟩
    have := index_image hs byRow (hbg a ha.1)
    rw [ha.2] at this
    exact this
  · obtain ⟨b, hb⟩ := hp.useful
    unfold fishTargets at hb
    rw [Finset.mem_filter, mem_fields, hs.shows'.bw, hs.shows'.bh] at hb
    obtain ⟨h1, h2, h3, h4⟩ := hb
    refine ⟨σ.field b, ?_⟩
    unfold fishTargets
    rw [hbase, hcols, Finset.mem_filter, mem_fields, hs.shows'.bw', hs.shows'.bh', σ.inGrid, σ.field.injective.mem_finset_image]
    refine ⟨h1, ?_, h3, (mem_cand hs h1).2 h4⟩
    rw [index_image hs byRow h1]
    exact Finset.mem_image_of_mem _ h2

theorem num_image {a : Cell} (ha : InGrid w h a) (h0 : s.num a = 0) : t.num (σ.field a) = 0 := by
  have := hs.shows'.get a ha
  rw [Sudoku.get, Sudoku.get, h0, σ.zero] at this
  exact this

theorem idle_image {k : Kind} (hi : Idle t k) : Idle s k := by
  have hg : ∀ a, InGrid s.bw s.bh a ↔ InGrid w h a := fun a => by rw [hs.shows'.bw, hs.shows'.bh]
  have hg' : ∀ a, InGrid w h a → InGrid t.bw t.bh (σ.field a) := fun a ha => by rw [hs.shows'.bw', hs.shows'.bh']; exact (σ.inGrid a).2 ha
  cases k with
  | calculateCandidates => trivial
  | bruteforce => trivial
  | nakedSingle =>
    intro a v ha h0 e
    rw [hg] at ha
    refine hi (σ.field a) (σ.number v) (hg' a ha) (num_image hs ha h0) ?_
    rw [hs.cand a ha, e, Finset.image_singleton]
  | hiddenSingle =>
    intro a k v ha h0 hp
    rw [hg] at ha
    exact hi (σ.field a) (k.turn σ.flip) (σ.number v) (hg' a ha) (num_image hs ha h0) (onlyPlace_image hs ha hp)
  | nakedTuple n =>
    intro k e F he h0 hp
    rw [hg] at he
    exact hi (k.turn σ.flip) (σ.field e) _ (hg' e he) (num_image hs he h0) (naked_image hs he hp)
  | hiddenTuple n =>
    intro k e V he h0 hp
    rw [hg] at he
    exact hi (k.turn σ.flip) (σ.field e) _ (hg' e he) (num_image hs he h0) (hidden_image hs he hp)
  | pointingTuple n =>
    intro k k' e f v hkk hp
    refine hi (k.turn σ.flip) (k'.turn σ.flip) _ _ _ ?_ (pointing_image hs hp)
    have : ∀ j : Line, j.turn σ.flip = .box ↔ j = .box := by intro j; cases j <;> cases σ.flip <;> decide
    rw [this, ne_eq, ne_eq, this, this]
    exact hkk
  | basicFish n =>
    intro byRow v I hp
    exact hi _ _ _ (fish_image hs hp)

end

/-! ### certificates -/

theorem mem_calc_image (hs : σ.Shows s t) {a : Cell} (ha : InGrid w h a) (v : Int) :
    σ.number v ∈ Solve.calcCandidates t (σ.field a) ↔ v ∈ Solve.calcCandidates s a := by
  have hag : InGrid s.bw s.bh a := by rw [hs.bw, hs.bh]; exact ha
  have hag' : InGrid t.bw t.bh (σ.field a) := by rw [hs.bw', hs.bh']; exact (σ.inGrid a).2 ha
  have e := hs.get a ha
  by_cases h0 : s.num a = 0
  · have h0' : t.num (σ.field a) = 0 := by rw [Sudoku.get, Sudoku.get, h0, σ.zero] at e; exact e
    rw [Solve.mem_calc_empty hag' h0', Solve.mem_calc_empty hag h0]
    unfold Solve.Admissible
    rw [hs.bw, hs.bh, hs.bw', hs.bh', σ.isNumber]
    refine and_congr_right fun _ => ⟨fun H b hb hp e => ?_, fun H b hb hp e => ?_⟩
    · refine H (σ.field b) ((σ.inGrid b).2 hb) ((peer σ ha hb).2 hp) ?_
      have := hs.get b hb
      rw [Sudoku.get, Sudoku.get, e] at this
      exact this
    · obtain ⟨b, rfl⟩ := σ.field.surjective b
      rw [σ.inGrid] at hb
      have := hs.get b hb
      rw [Sudoku.get, Sudoku.get, e] at this
      exact H b hb ((peer σ ha hb).1 hp) (σ.number.injective this).symm
  · have h0' : t.num (σ.field a) ≠ 0 := by
      rw [Sudoku.get, Sudoku.get] at e
      rw [e]; exact fun e => h0 ((zero_iff σ).1 e)
    rw [Solve.calc_filled h0', Solve.calc_filled h0, Finset.mem_singleton, Finset.mem_singleton]
    rw [Sudoku.get, Sudoku.get] at e
    rw [e]
    exact σ.number.injective.eq_iff

theorem showsAll_init (hs : σ.Shows s t) : ShowsAll σ (Solve.initCandidates s false) (Solve.initCandidates t false) := by
  refine ⟨⟨?_, ?_, ?_, ?_, ?_⟩, ?_⟩
  · rw [(init_dims s).1]; exact hs.bw
  · rw [(init_dims s).2.1]; exact hs.bh
  · rw [(init_dims t).1]; exact hs.bw'
  · rw [(init_dims t).2.1]; exact hs.bh'
  · intro a ha
    rw [Sudoku.get, Sudoku.get, (init_dims s).2.2, (init_dims t).2.2]
    exact hs.get a ha
  · intro a ha
    have hag : InGrid s.bw s.bh a := by rw [hs.bw, hs.bh]; exact ha
    have hag' : InGrid t.bw t.bh (σ.field a) := by rw [hs.bw', hs.bh']; exact (σ.inGrid a).2 ha
    rw [Solve.initCandidates_eq, Solve.initCandidates_eq]
    simp only [hag, hag', true_and, true_or, if_true]
    ext u
    obtain ⟨v, rfl⟩ := σ.number.surjective u
    rw [σ.number.injective.mem_finset_image, mem_calc_image hs ha]

/-- Drawn back. -/
def back (σ : Redrawing w h w' h') (t : Sudoku) : Sudoku :=
  ⟨w, h, fun a => σ.number.symm (t.num (σ.field a)), fun a => (t.cand (σ.field a)).image σ.number.symm⟩

theorem back_shows (hw : t.bw = w') (hh : t.bh = h') : ShowsAll σ (back σ t) t := by
  refine ⟨⟨rfl, rfl, hw, hh, fun a _ => ?_⟩, fun a _ => ?_⟩
  · simp [back, Sudoku.get]
  · simp only [back, Finset.image_image, Equiv.self_comp_symm, Finset.image_id]

theorem neat_image (hs : ShowsAll σ s t) {g : Grid} (hn : Neat g t) : Neat (fun a => σ.number.symm (g (σ.field a))) s := by
  have hg : ∀ a, InGrid s.bw s.bh a ↔ InGrid w h a := fun a => by rw [hs.shows'.bw, hs.shows'.bh]
  have hg' : ∀ a, InGrid w h a → InGrid t.bw t.bh (σ.field a) := fun a ha => by rw [hs.shows'.bw', hs.shows'.bh']; exact (σ.inGrid a).2 ha
  refine ⟨⟨?_, fun a ha => ?_⟩, fun a ha h0 => ?_, fun a b ha hb hp h0 => ?_⟩
  · have h1 := hn.cons.1
    rw [hs.shows'.bw', hs.shows'.bh'] at h1
    rw [hs.shows'.bw, hs.shows'.bh]
    exact (isSolution hs.shows' (g := fun a => σ.number.symm (g (σ.field a))) fun a _ => by simp).1 h1
  · rw [hg] at ha
    have := hn.cons.2 _ (hg' a ha)
    rw [hs.cand a ha] at this
    obtain ⟨v, hv, e⟩ := Finset.mem_image.1 this
    show σ.number.symm (g (σ.field a)) ∈ s.cand a
    rw [← e, Equiv.symm_apply_apply]
    exact hv
  · rw [hg] at ha
    have e : t.num (σ.field a) = σ.number (s.num a) := hs.shows'.get a ha
    have := hn.filled _ (hg' a ha) (by rw [e]; exact fun e => h0 ((zero_iff σ).1 e))
    rw [hs.cand a ha, e, ← Finset.image_singleton] at this
    exact Finset.image_injective σ.number.injective this
  · rw [hg] at ha hb
    rw [hs.shows'.bw, hs.shows'.bh] at hp
    have e : t.num (σ.field a) = σ.number (s.num a) := hs.shows'.get a ha
    have := hn.peers _ _ (hg' a ha) (hg' b hb) (by rw [hs.shows'.bw', hs.shows'.bh', peer σ ha hb]; exact hp)
      (by rw [e]; exact fun e => h0 ((zero_iff σ).1 e))
    rw [hs.cand b hb, e, σ.number.injective.mem_finset_image] at this
    exact this

theorem below_image {T T' : Sudoku} (hT : ShowsAll σ T T') (hs : ShowsAll σ s t) (hb : Below T' t) : Below T s := by
  have hg' : ∀ a, InGrid w h a → InGrid t.bw t.bh (σ.field a) := fun a ha => by rw [hs.shows'.bw', hs.shows'.bh']; exact (σ.inGrid a).2 ha
  refine ⟨hT.shows'.bw.trans hs.shows'.bw.symm, hT.shows'.bh.trans hs.shows'.bh.symm, fun a ha h0 => ?_, fun a ha v hv => ?_⟩
  · rw [hs.shows'.bw, hs.shows'.bh] at ha
    have e1 : t.num (σ.field a) = σ.number (s.num a) := hs.shows'.get a ha
    have e2 : T'.num (σ.field a) = σ.number (T.num a) := hT.shows'.get a ha
    have := hb.num _ (hg' a ha) (by rw [e1]; exact fun e => h0 ((zero_iff σ).1 e))
    rw [e1, e2] at this
    exact σ.number.injective this
  · rw [hs.shows'.bw, hs.shows'.bh] at ha
    exact (mem_cand hs ha).1 (hb.cand _ (hg' a ha) ((mem_cand hT ha).2 hv))

theorem empty_image (hs : σ.Shows s t) (he : t.empty ≠ []) : s.empty ≠ [] := by
  intro e
  apply he
  refine empty_full fun b hb => ?_
  obtain ⟨a, rfl⟩ := σ.field.surjective b
  rw [hs.bw', hs.bh', σ.inGrid] at hb
  have e1 : t.num (σ.field a) = σ.number (s.num a) := hs.get a hb
  rw [e1]
  exact fun e' => full_num e (by rw [hs.bw, hs.bh]; exact hb) ((zero_iff σ).1 e')

theorem blocked_image (hs : σ.Shows s t) {k : Kind} (hb : Blocked (Solve.initCandidates t false) k) : Blocked (Solve.initCandidates s false) k := by
  obtain ⟨g, T, h1, h2, h3, h4⟩ := hb
  have hT : ShowsAll σ (back σ T) T := back_shows (by rw [h2.bw, (init_dims t).1, hs.bw']) (by rw [h2.bh, (init_dims t).2.1, hs.bh'])
  exact ⟨_, back σ T, neat_image hT h1, below_image hT (showsAll_init hs) h2, empty_image hT.shows' h3, fun j hj => idle_image hT (h4 j hj)⟩

/-- Each of `A` has a partner in `B`, different ones have different partners. -/
theorem length_le {α β : Type} {A : List α} {B : List β} {E : α → α → Prop} {S : α → β → Prop} (hA : A.Pairwise fun x x' => ¬ E x x')
    (hAB : ∀ x ∈ A, ∃ y ∈ B, S x y) (hS : ∀ x ∈ A, ∀ x' ∈ A, ∀ y, S x y → S x' y → E x x') : A.length ≤ B.length := by
  classical
  induction A generalizing B with
  | nil => simp
  | cons x A ih =>
    obtain ⟨y, hy, hxy⟩ := hAB x (by simp)
    rw [List.pairwise_cons] at hA
    have := ih (B := B.erase y) hA.2 (fun x' hx' => ?_) (fun a ha b hb => hS a (by simp [ha]) b (by simp [hb]))
    · rw [List.length_erase_of_mem hy] at this
      have := List.length_pos_of_mem hy
      simp only [List.length_cons]
      omega
    · obtain ⟨y', hy', hxy'⟩ := hAB x' (by simp [hx'])
      refine ⟨y', ?_, hxy'⟩
      rw [List.mem_erase_of_ne]
      · exact hy'
      · rintro rfl
        exact hA.1 x' hx' (hS x (by simp) x' (by simp [hx']) y' hxy hxy')

end Redraw
