import Mathlib.Analysis.SpecialFunctions.Trigonometric.Basic
import Verif.Py.Dict
import Verif.Spec.Smeft

/-!
Vocabulary for the matching of the SMEFT onto the WET, from the physics (arXiv:1709.04486), not from the code.
-/

set_option autoImplicit false

namespace Verif.Spec

/-- Electroweak input parameters with a real and non-zero weak mixing angle: `sin^2 = pi alpha / (sqrt 2 G_F m_W^2) < 1`. -/
structure PhysicalEW (p : Dict String ℝ) (GF mW mZ alpha : ℝ) : Prop where
  GF_eq : Dict.find p "GF" = some GF
  mW_eq : Dict.find p "m_W" = some mW
  mZ_eq : Dict.find p "m_Z" = some mZ
  alpha_eq : Dict.find p "alpha_e" = some alpha
  GF_pos : 0 < GF
  alpha_pos : 0 < alpha
  mW_pos : 0 < mW
  mZ_pos : 0 < mZ
  angle : Real.pi * alpha < Real.sqrt 2 * GF * mW ^ 2

/-! ### Operators of the WET -/

/-- Fermions below the electroweak scale. -/
inductive WFld where
  | n | e | u | d
  deriving DecidableEq, Repr

/-- A flavour index of a coefficient: the fermion, whether it is left-handed, whether it is barred. -/
structure WSlot where
  fld : WFld
  left : Bool
  bar : Bool
  deriving DecidableEq, Repr

/-- left-handed neutrino. -/
abbrev nL : WSlot := ⟨.n, true, false⟩
/-- Barred left-handed neutrino. -/
abbrev nLb : WSlot := ⟨.n, true, true⟩
/-- left-handed charged lepton. -/
abbrev eL : WSlot := ⟨.e, true, false⟩
/-- Barred left-handed charged lepton. -/
abbrev eLb : WSlot := ⟨.e, true, true⟩
/-- right-handed charged lepton. -/
abbrev eR : WSlot := ⟨.e, false, false⟩
/-- Barred right-handed charged lepton. -/
abbrev eRb : WSlot := ⟨.e, false, true⟩
/-- left-handed up quark. -/
abbrev uL : WSlot := ⟨.u, true, false⟩
/-- Barred left-handed up quark. -/
abbrev uLb : WSlot := ⟨.u, true, true⟩
/-- right-handed up quark. -/
abbrev uR : WSlot := ⟨.u, false, false⟩
/-- Barred right-handed up quark. -/
abbrev uRb : WSlot := ⟨.u, false, true⟩
/-- left-handed down quark. -/
abbrev dL : WSlot := ⟨.d, true, false⟩
/-- Barred left-handed down quark. -/
abbrev dLb : WSlot := ⟨.d, true, true⟩
/-- right-handed down quark. -/
abbrev dR : WSlot := ⟨.d, false, false⟩
/-- Barred right-handed down quark. -/
abbrev dRb : WSlot := ⟨.d, false, true⟩

/-- Operators by field content, in the order of the flavour indices. This is the field content that
the names of the JMS operators (arXiv:1709.04486) stand for; it is written down here independently of
the code under study. -/
def wetTable : List (List WSlot × List String) := [
  ([nL, nL], ["nu", "nugamma"]),
  ([eLb, eR], ["egamma"]),
  ([uLb, uR], ["ugamma", "uG"]),
  ([dLb, dR], ["dgamma", "dG"]),
  ([], ["G", "Gtilde"]),
  ([nLb, nL, nLb, nL], ["VnunuLL"]),
  ([eLb, eL, eLb, eL], ["VeeLL"]),
  ([nLb, nL, eLb, eL], ["VnueLL"]),
  ([nLb, nL, uLb, uL], ["VnuuLL"]),
  ([nLb, nL, dLb, dL], ["VnudLL"]),
  ([eLb, eL, uLb, uL], ["VeuLL"]),
  ([eLb, eL, dLb, dL], ["VedLL"]),
  ([nLb, eL, dLb, uL], ["VnueduLL"]),
  ([uLb, uL, uLb, uL], ["VuuLL"]),
  ([dLb, dL, dLb, dL], ["VddLL"]),
  ([uLb, uL, dLb, dL], ["V1udLL", "V8udLL"]),
  ([eRb, eR, eRb, eR], ["VeeRR"]),
  ([eRb, eR, uRb, uR], ["VeuRR"]),
  ([eRb, eR, dRb, dR], ["VedRR"]),
  ([uRb, uR, uRb, uR], ["VuuRR"]),
  ([dRb, dR, dRb, dR], ["VddRR"]),
  ([uRb, uR, dRb, dR], ["V1udRR", "V8udRR"]),
  ([nLb, nL, eRb, eR], ["VnueLR"]),
  ([eLb, eL, eRb, eR], ["VeeLR"]),
  ([nLb, nL, uRb, uR], ["VnuuLR"]),
  ([nLb, nL, dRb, dR], ["VnudLR"]),
  ([eLb, eL, uRb, uR], ["VeuLR"]),
  ([eLb, eL, dRb, dR], ["VedLR"]),
  ([uLb, uL, eRb, eR], ["VueLR"]),
  ([dLb, dL, eRb, eR], ["VdeLR"]),
  ([nLb, eL, dRb, uR], ["VnueduLR"]),
  ([uLb, uL, uRb, uR], ["V1uuLR", "V8uuLR"]),
  ([uLb, uL, dRb, dR], ["V1udLR", "V8udLR"]),
  ([dLb, dL, uRb, uR], ["V1duLR", "V8duLR"]),
  ([dLb, dL, dRb, dR], ["V1ddLR", "V8ddLR"]),
  ([uLb, dL, dRb, uR], ["V1udduLR", "V8udduLR"]),
  ([eLb, eR, uRb, uL], ["SeuRL"]),
  ([eLb, eR, dRb, dL], ["SedRL"]),
  ([nLb, eR, dRb, uL], ["SnueduRL"]),
  ([eLb, eR, eLb, eR], ["SeeRR"]),
  ([eLb, eR, uLb, uR], ["SeuRR", "TeuRR"]),
  ([eLb, eR, dLb, dR], ["SedRR", "TedRR"]),
  ([nLb, eR, dLb, uR], ["SnueduRR", "TnueduRR"]),
  ([uLb, uR, uLb, uR], ["S1uuRR", "S8uuRR"]),
  ([uLb, uR, dLb, dR], ["S1udRR", "S8udRR"]),
  ([dLb, dR, dLb, dR], ["S1ddRR", "S8ddRR"]),
  ([uLb, dR, dLb, uR], ["S1udduRR", "S8udduRR"]),
  ([nL, nL, nL, nL], ["SnunuLL"]),
  ([nL, nL, eRb, eL], ["SnueLL", "TnueLL"]),
  ([nL, nL, eLb, eR], ["SnueLR"]),
  ([nL, nL, uRb, uL], ["SnuuLL", "TnuuLL"]),
  ([nL, nL, uLb, uR], ["SnuuLR"]),
  ([nL, nL, dRb, dL], ["SnudLL", "TnudLL"]),
  ([nL, nL, dLb, dR], ["SnudLR"]),
  ([nL, eL, dRb, uL], ["SnueduLL", "TnueduLL"]),
  ([nL, eL, dLb, uR], ["SnueduLR"]),
  ([nL, eR, dLb, uL], ["VnueduRL"]),
  ([nL, eR, dRb, uR], ["VnueduRR"]),
  ([uL, dL, dL, nL], ["SuddLL"]),
  ([dL, uL, uL, eL], ["SduuLL"]),
  ([uL, uL, dR, eR], ["SuudLR"]),
  ([dL, uL, uR, eR], ["SduuLR"]),
  ([uR, uR, dL, eL], ["SuudRL"]),
  ([dR, uR, uL, eL], ["SduuRL"]),
  ([dR, uR, dL, nL], ["SdudRL"]),
  ([dR, dR, uL, nL], ["SdduRL"]),
  ([dR, uR, uR, eR], ["SduuRR"]),
  ([dL, dL, eRb, dL], ["SdddLL"]),
  ([uL, dL, nLb, dR], ["SuddLR"]),
  ([dL, dL, nLb, uR], ["SdduLR"]),
  ([dL, dL, eLb, dR], ["SdddLR"]),
  ([dR, dR, eRb, dL], ["SdddRL"]),
  ([uR, dR, nLb, dR], ["SuddRR"]),
  ([dR, dR, eLb, dR], ["SdddRR"])]

/-- `IsWet k ss`: the flavour indices of the coefficient `k` belong to the fields `ss`. -/
def IsWet (k : String) (ss : List WSlot) : Prop := ∃ ks, (ss, ks) ∈ wetTable ∧ k ∈ ks

/-- The matrix that goes with an index when the left-handed down quarks are rotated by `V`. -/
def WSlot.mat (V : Matrix (Fin 3) (Fin 3) ℂ) (s : WSlot) : Matrix (Fin 3) (Fin 3) ℂ :=
  if s.fld = .d ∧ s.left then (if s.bar then V.map (starRingEnd ℂ) else V) else 1

/-- Rotation of all indices of a WET coefficient: each index of a left-handed down quark is contracted with `V`,
or with its complex conjugate if the field is barred; the other indices are left alone. -/
noncomputable def rotW (V : Matrix (Fin 3) (Fin 3) ℂ) : List WSlot → (List (Fin 3) → ℂ) → List (Fin 3) → ℂ
  | s :: ss, f, i :: is => ∑ p, s.mat V p i * rotW V ss (fun js => f (p :: js)) is
  | _, f, is => f is

/-- The operator involves fermions but no up-type quark. -/
def NoUp (k : String) : Prop := ∃ ss, IsWet k ss ∧ ss ≠ [] ∧ ∀ s ∈ ss, s.fld ≠ .u

end Verif.Spec
