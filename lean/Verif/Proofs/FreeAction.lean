import Verif.Proofs.Clues
import Mathlib.GroupTheory.GroupAction.Quotient
import Mathlib.Data.List.NodupEquivFin
import Mathlib.SetTheory.Cardinal.Finite
import Mathlib.Data.Fintype.Perm
import Mathlib.Data.Fintype.BigOperators
import Mathlib.Algebra.Group.End
import Mathlib.Algebra.Group.Pi.Basic

set_option autoImplicit false

/-! # Counting by free actions: a group acting freely on a list of different things has an order that divides the length -/

open Spec Equiv

namespace FreeAction

theorem dvd {α G : Type} [Group G] (X : List α) (hX : X.Nodup) (act : G → α → α) (hmem : ∀ g, ∀ t ∈ X, act g t ∈ X)
    (h1 : ∀ t ∈ X, act 1 t = t) (hmul : ∀ g k, ∀ t ∈ X, act (g * k) t = act g (act k t)) (hfree : ∀ g, ∀ t ∈ X, act g t = t → g = 1) :
    Nat.card G ∣ X.length := by
  classical
  let _ : MulAction G {t // t ∈ X} :=
    { smul := fun g t => ⟨act g t.1, hmem g t.1 t.2⟩
      one_smul := fun t => Subtype.ext (h1 t.1 t.2)
      mul_smul := fun g k t => Subtype.ext (hmul g k t.1 t.2) }
  have hst : ∀ t : {t // t ∈ X}, MulAction.stabilizer G t = ⊥ := by
    intro t
    rw [Subgroup.eq_bot_iff_forall]
    intro g hg
    exact hfree g t.1 t.2 (congrArg Subtype.val (MulAction.mem_stabilizer_iff.1 hg))
  have hc := Nat.card_congr (MulAction.selfEquivOrbitsQuotientProd hst)
  rw [Nat.card_prod, ← Nat.card_congr (List.Nodup.getEquiv X hX), Nat.card_fin] at hc
  exact ⟨_, hc.trans (Nat.mul_comm _ _)⟩

variable {w h : Nat} {s : Grid}

/-- The permutations of some numbers, of which none is a clue. -/
theorem numbers {g : Grid} (hg : IsSolution w h s g) {p : Int → Prop} [DecidablePred p] (hp : ∀ v, p v → IsNumber w h v ∧ ∀ a, InGrid w h a → s a ≠ v)
    (σ : Perm (Subtype p)) : IsSolution w h s fun a => Perm.ofSubtype σ (g a) := by
  refine Clues.renumber hg _ (Equiv.injective _) (fun v hv => ?_) (fun a ha _ => ?_)
  · by_cases h : p v
    · exact (hp _ ((Perm.ofSubtype_apply_mem_iff_mem σ v).2 h)).1
    · rwa [Perm.ofSubtype_apply_of_not_mem σ h]
  · exact Perm.ofSubtype_apply_of_not_mem σ fun h => (hp _ h).2 a ha rfl

theorem numbers_free {g : Grid} (hg : IsSolution w h s g) {p : Int → Prop} [DecidablePred p] (hp : ∀ v, p v → IsNumber w h v)
    (σ : Perm (Subtype p)) (he : ∀ a, InGrid w h a → Perm.ofSubtype σ (g a) = g a) : σ = 1 := by
  refine Equiv.ext fun v => Subtype.ext ?_
  obtain ⟨a, ha, hv⟩ := Clues.occurs hg (hp _ v.2)
  have := he a ha
  rw [hv, Perm.ofSubtype_apply_coe] at this
  exact this

/-- Rows and columns moved together with their boxes; filled fields stay. -/
structure Moves (w h : Nat) (s : Grid) (σ τ : Nat → Nat) : Prop where
  rowInj : Function.Injective σ
  colInj : Function.Injective τ
  rowIn : ∀ r, r < w * h → σ r < w * h
  colIn : ∀ r, r < w * h → τ r < w * h
  rowBox : ∀ r r', r / h = r' / h → σ r / h = σ r' / h
  colBox : ∀ r r', r / w = r' / w → τ r / w = τ r' / w
  stay : ∀ a, InGrid w h a → s a ≠ 0 → σ a.1 = a.1 ∧ τ a.2 = a.2

theorem Moves.solution {g : Grid} {σ τ : Nat → Nat} (m : Moves w h s σ τ) (hg : IsSolution w h s g) : IsSolution w h s fun a => g (σ a.1, τ a.2) := by
  refine Clues.move hg (fun a => (σ a.1, τ a.2)) (fun a ha => ⟨m.rowIn _ ha.1, m.colIn _ ha.2⟩) (fun a b ⟨hne, hp⟩ => ⟨fun e => hne ?_, ?_⟩)
    (fun a ha h0 => Prod.ext (m.stay a ha h0).1 (m.stay a ha h0).2)
  · rw [Prod.mk.injEq] at e
    exact Prod.ext (m.rowInj e.1) (m.colInj e.2)
  · rcases hp with h | h | h
    · exact Or.inl (congrArg σ h)
    · exact Or.inr (Or.inl (congrArg τ h))
    · exact Or.inr (Or.inr ⟨m.rowBox _ _ h.1, m.colBox _ _ h.2⟩)

/-- In a solution two rows differ in each column, ... -/
theorem row_eq {g : Grid} (hg : IsSolution w h s g) {r r' c : Nat} (hr : r < w * h) (hr' : r' < w * h) (hc : c < w * h) (e : g (r, c) = g (r', c)) : r = r' := by
  by_contra hne
  have := hg.full (r, c) ⟨hr, hc⟩
  unfold IsNumber at this
  exact hg.valid (r, c) (r', c) ⟨hr, hc⟩ ⟨hr', hc⟩ ⟨fun e => hne (congrArg Prod.fst e), Or.inr (Or.inl rfl)⟩ (by omega) e

/-- ... and two columns in each row. -/
theorem col_eq {g : Grid} (hg : IsSolution w h s g) {r c c' : Nat} (hr : r < w * h) (hc : c < w * h) (hc' : c' < w * h) (e : g (r, c) = g (r, c')) : c = c' := by
  by_contra hne
  have := hg.full (r, c) ⟨hr, hc⟩
  unfold IsNumber at this
  exact hg.valid (r, c) (r, c') ⟨hr, hc⟩ ⟨hr, hc'⟩ ⟨fun e => hne (congrArg Prod.snd e), Or.inl rfl⟩ (by omega) e

/-- Permutations within each group of things: `p i` is the set of the things in group `i`. -/
abbrev Groups (n : Nat) (p : Nat → Nat → Prop) := ∀ i : Fin n, Perm {r // p i r}

section
variable {n k : Nat} {p : Nat → Nat → Prop} [∀ i, DecidablePred (p i)]

/-- The permutation of group `i`. -/
def Groups.at (g : Groups n p) (i : Nat) : Perm Nat := if hi : i < n then Perm.ofSubtype (g ⟨i, hi⟩) else 1

/-- All of them together, the group of `r` being `r / k`. -/
def Groups.map (k : Nat) (g : Groups n p) (r : Nat) : Nat := g.at (r / k) r

theorem Groups.at_one (i : Nat) : Groups.at (1 : Groups n p) i = 1 := by
  unfold Groups.at
  split
  · exact map_one _
  · rfl

theorem Groups.at_mul (g g' : Groups n p) (i : Nat) : Groups.at (g * g') i = g.at i * g'.at i := by
  unfold Groups.at
  split
  · exact map_mul _ _ _
  · rfl

theorem Groups.at_or (g : Groups n p) (i r : Nat) : g.at i r = r ∨ (i < n ∧ p i r ∧ p i (g.at i r)) := by
  unfold Groups.at
  split
  · rename_i hi
    by_cases hr : p i r
    · exact Or.inr ⟨hi, hr, (Perm.ofSubtype_apply_mem_iff_mem (g ⟨i, hi⟩) r).2 hr⟩
    · exact Or.inl (Perm.ofSubtype_apply_of_not_mem (g ⟨i, hi⟩) hr)
  · exact Or.inl rfl

theorem Groups.at_div (hp : ∀ i r, p i r → r / k = i) (g : Groups n p) {i r : Nat} (hr : r / k = i) : g.at i r / k = i := by
  rcases g.at_or i r with h | h
  · rw [h, hr]
  · exact hp _ _ h.2.2

theorem Groups.map_div (hp : ∀ i r, p i r → r / k = i) (g : Groups n p) (r : Nat) : g.map k r / k = r / k := g.at_div hp rfl

theorem Groups.map_one (r : Nat) : Groups.map k (1 : Groups n p) r = r := by
  unfold Groups.map
  rw [Groups.at_one]
  rfl

theorem Groups.map_mul (hp : ∀ i r, p i r → r / k = i) (g g' : Groups n p) (r : Nat) : Groups.map k (g * g') r = g.map k (g'.map k r) := by
  unfold Groups.map
  rw [Groups.at_mul, g'.at_div hp rfl]
  rfl

theorem Groups.map_inj (hp : ∀ i r, p i r → r / k = i) (g : Groups n p) : Function.Injective (g.map k) := by
  intro r r' e
  have h1 := congrArg (Groups.map k g⁻¹) e
  rwa [← Groups.map_mul hp, ← Groups.map_mul hp, inv_mul_cancel, Groups.map_one, Groups.map_one] at h1

theorem Groups.map_or (g : Groups n p) (r : Nat) : g.map k r = r ∨ (r / k < n ∧ p (r / k) r ∧ p (r / k) (g.map k r)) := g.at_or _ _

theorem Groups.eq_one (hp : ∀ i r, p i r → r / k = i) (g : Groups n p) (hg : ∀ i r, p i r → g.map k r = r) : g = 1 := by
  funext i
  refine Equiv.ext fun r => Subtype.ext ?_
  have := hg i r.1 r.2
  unfold Groups.map at this
  rw [hp _ _ r.2] at this
  unfold Groups.at at this
  rw [dif_pos i.2, Perm.ofSubtype_apply_coe] at this
  exact this

theorem Groups.card (F : Nat → Finset Nat) : Nat.card (Groups n fun i r => r ∈ F i) = ∏ i ∈ Finset.range n, (F i).card.factorial := by
  rw [Nat.card_eq_fintype_card, Fintype.card_pi, ← Fin.prod_univ_eq_prod_range (fun i => (F i).card.factorial)]
  refine Finset.prod_congr rfl fun i _ => ?_
  rw [Fintype.card_perm]
  simp
end

/-- Permutations of whole groups. -/
def blocks (k : Nat) (σ : Perm Nat) (r : Nat) : Nat := σ (r / k) * k + r % k

theorem blocks_div {k : Nat} (hk : 0 < k) (σ : Perm Nat) (r : Nat) : blocks k σ r / k = σ (r / k) := by
  unfold blocks
  rw [Nat.mul_comm, Nat.mul_add_div hk, Nat.div_eq_of_lt (Nat.mod_lt _ hk), Nat.add_zero]

theorem blocks_mod (k : Nat) (σ : Perm Nat) (r : Nat) : blocks k σ r % k = r % k := by
  unfold blocks
  rw [Nat.mul_comm, Nat.mul_add_mod, Nat.mod_mod]

theorem blocks_mul {k : Nat} (hk : 0 < k) (σ τ : Perm Nat) (r : Nat) : blocks k (σ * τ) r = blocks k σ (blocks k τ r) := by
  show σ (τ (r / k)) * k + r % k = σ (blocks k τ r / k) * k + blocks k τ r % k
  rw [blocks_div hk, blocks_mod]

theorem blocks_one (k r : Nat) : blocks k 1 r = r := Nat.div_add_mod' r k

theorem blocks_fix {k : Nat} {σ : Perm Nat} {r : Nat} (h : σ (r / k) = r / k) : blocks k σ r = r := by
  unfold blocks
  rw [h, Nat.div_add_mod']

theorem blocks_inj {k : Nat} (hk : 0 < k) (σ : Perm Nat) : Function.Injective (blocks k σ) := by
  intro r r' e
  have h1 := congrArg (blocks k σ⁻¹) e
  rwa [← blocks_mul hk, ← blocks_mul hk, inv_mul_cancel, blocks_one, blocks_one] at h1

end FreeAction
