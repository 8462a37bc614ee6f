import Mathlib.Algebra.BigOperators.Group.List.Basic
import Verif.Spec.Card
import Verif.Spec.Match

/-! Phases of the fermion fields and conserved charges. -/

set_option autoImplicit false

namespace Verif.Spec

/-- The multiplet of the SMEFT to which a fermion belongs. -/
def WSlot.slot (s : WSlot) : Slot where
  fld := match s.fld, s.left with
    | .n, _ => .l
    | .e, true => .l
    | .e, false => .e
    | .u, true => .q
    | .u, false => .u
    | .d, true => .q
    | .d, false => .d
  bar := s.bar

/-- Factor of a field if every multiplet and generation is multiplied by `φ`. -/
noncomputable def Slot.phase (φ : Fld → Fin 3 → ℂ) (s : Slot) (i : Fin 3) : ℂ :=
  if s.bar then starRingEnd ℂ (φ s.fld i) else φ s.fld i

/-- Factor of a coefficient. -/
noncomputable def weight (φ : Fld → Fin 3 → ℂ) : List Slot → List (Fin 3) → ℂ
  | s :: ss, i :: is => s.phase φ i * weight φ ss is
  | _, _ => 1

/-- Charge of a coefficient. -/
def chargeOf (c : Fld → Fin 3 → ℤ) : List Slot → List (Fin 3) → ℤ
  | s :: ss, i :: is => (if s.bar then -c s.fld i else c s.fld i) + chargeOf c ss is
  | _, _ => 0

/-- Phases, equal for the three generations of the quark doublet, which the weak interaction mixes. -/
structure Phases (φ : Fld → Fin 3 → ℂ) : Prop where
  unit : ∀ f i, starRingEnd ℂ (φ f i) * φ f i = 1
  doublet : ∀ i j, φ .q i = φ .q j

/-- Lepton number of one generation. -/
def leptonNumber (g : Fin 3) : Fld → Fin 3 → ℤ := fun f i => if (f = .l ∨ f = .e) ∧ i = g then 1 else 0

/-- Three times the baryon number. -/
def quarkNumber : Fld → Fin 3 → ℤ := fun f _ => if f = .l ∨ f = .e then 0 else 1

end Verif.Spec
