import Verif.Spec
import Mathlib.Data.Nat.Notation

set_option autoImplicit false

/-! Deciding the notions of the specification for concrete grids. -/

namespace Spec

instance (w h : Nat) (v : Int) : Decidable (IsNumber w h v) := inferInstanceAs (Decidable (_ ∧ _))

theorem forall_inGrid {w h : Nat} {P : Cell → Prop} :
    (∀ a, InGrid w h a → P a) ↔ ∀ r < w * h, ∀ c < w * h, P (r, c) :=
  ⟨fun H r hr c hc => H (r, c) ⟨hr, hc⟩, fun H a ha => H a.1 ha.1 a.2 ha.2⟩

instance {w h : Nat} {P : Cell → Prop} [DecidablePred P] : Decidable (∀ a, InGrid w h a → P a) :=
  decidable_of_iff _ forall_inGrid.symm

instance (w h : Nat) (s g : Grid) : Decidable (Extends w h s g) :=
  inferInstanceAs (Decidable (∀ a, InGrid w h a → s a ≠ 0 → g a = s a))

instance (w h : Nat) (g : Grid) : Decidable (NoConflict w h g) :=
  decidable_of_iff (∀ a, InGrid w h a → ∀ b, InGrid w h b → Peer w h a b → g a ≠ 0 → g a ≠ g b)
    ⟨fun H a b ha hb => H a ha b hb, fun H a ha b hb => H a b ha hb⟩

instance (w h : Nat) (s g : Grid) : Decidable (IsSolution w h s g) :=
  decidable_of_iff (Extends w h s g ∧ (∀ a, InGrid w h a → IsNumber w h (g a)) ∧ NoConflict w h g)
    ⟨fun H => ⟨H.1, H.2.1, H.2.2⟩, fun H => ⟨H.1, H.2, H.3⟩⟩

instance (w h : Nat) (s g : Grid) : Decidable (IsCompletion w h s g) :=
  decidable_of_iff (Extends w h s g ∧ (∀ a, InGrid w h a → s a = 0 → IsNumber w h (g a)) ∧ NoConflict w h g)
    ⟨fun H => ⟨H.1, H.2.1, H.2.2⟩, fun H => ⟨H.1, H.2, H.3⟩⟩

instance (w h : Nat) (s : Grid) : Decidable (LegalClues w h s) :=
  inferInstanceAs (Decidable (∀ a, InGrid w h a → s a ≠ 0 → IsNumber w h (s a)))

instance (w h : Nat) (s g : Grid) : Decidable (SameGrid w h s g) :=
  inferInstanceAs (Decidable (∀ a, InGrid w h a → s a = g a))

end Spec
