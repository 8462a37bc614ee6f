import Verif.Model.Match

/-! Complex conjugation of coefficients together with the sign of the CKM phase (the transformation CP). -/

set_option autoImplicit false

namespace Verif.Spec

open Verif

/-- All values conjugated. -/
noncomputable def conjValues (d : Dict String ℂ) : Dict String ℂ := d.map fun p => (p.1, starRingEnd ℂ p.2)

/-- A standard parametrisation of the CKM matrix: the phase `gamma` is the only source of complex entries, so that
changing its sign conjugates the matrix. -/
def PhaseOnly (ckm : ℝ → ℝ → ℝ → ℝ → M3) : Prop :=
  ∀ a b c g i j, ckm a b c (-g) i j = starRingEnd ℂ (ckm a b c g i j)

/-- The two arguments give the same parameters except for the sign of `gamma`. -/
def FlipsPhase (default : Par) (par par' : Option Par) : Prop :=
  (∀ k, k ≠ "gamma" → Dict.find (withPar default par') k = Dict.find (withPar default par) k) ∧
  Dict.find (withPar default par') "gamma" = (Dict.find (withPar default par) "gamma").map Neg.neg

end Verif.Spec
