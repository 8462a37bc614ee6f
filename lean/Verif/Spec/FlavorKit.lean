import Verif.Spec.Wet
import Verif.Model.FlavorKitData

/-! Names and parameters for the FlavorKit translations. -/

set_option autoImplicit false

namespace Verif

/-- Non-zero electric charge and lepton masses. -/
structure FkParams (p : WPar) : Prop where
  alpha_e : 0 < p.alpha_e
  m_e : p.m_e ≠ 0
  m_mu : p.m_mu ≠ 0
  m_tau : p.m_tau ≠ 0

namespace Spec

/-- A FlavorKit coefficient with a counterpart in the JMS basis, and the name of the latter: the rows of the two data
files, two more vector coefficients and the photon dipoles `K2R_ij` of leptons (transposed). -/
inductive FkLink : String → String → Prop
  | plain (k k' : String) : (k, k') ∈ fkJms → FkLink k k'
  | conj (k k' : String) : (k, k') ∈ fkJmsConj → FkLink k k'
  | avll : FkLink "AVLL_2231" "VeeLL_1223"
  | avrr : FkLink "AVRR_2231" "VeeRR_1223"
  | dipole (i j : Fin 3) : FkLink (label "K2R" [i, j]) (label "egamma" [j, i])

/-- A coefficient of the FlavorKit basis: the dipoles are the flavour-changing ones. -/
def FkName (k : String) : Prop := (∃ k', FkLink k k') ∧ ∀ i : Fin 3, k ≠ label "K2R" [i, i]

/-- A name that can occur in a JMS coefficient set: if the operator is `egamma`, there are two flavour indices. -/
def JmsName (k : String) : Prop := k = "egamma" ∨ "egamma_".toList <+: k.toList → ∃ i j, k = label "egamma" [i, j]

/-- A JMS coefficient with a counterpart in the FlavorKit basis. -/
def JmsShared (k' : String) : Prop := ∃ k, FkLink k k' ∧ FkName k

/-- How the indices of a FlavorKit coefficient are arranged in the JMS coefficient: each bilinear transposed; all indices
reversed (bilinears transposed and exchanged); bilinears exchanged, for the conjugate coefficient; transposed. -/
inductive FkOrder where
  | swap | rev | bar | two

/-- An operator of FlavorKit and of JMS. -/
structure FkOp where
  fk : String
  jms : String
  order : FkOrder

/-- The operators with tables. -/
def fkOps : List FkOp :=
  [⟨"ASRR", "SeeRR", .swap⟩, ⟨"AVLL", "VeeLL", .swap⟩, ⟨"AVLR", "VeeLR", .swap⟩, ⟨"AVRR", "VeeRR", .swap⟩, ⟨"BSRL", "SedRL", .swap⟩,
   ⟨"BSRR", "SedRR", .swap⟩, ⟨"BTRR", "TedRR", .swap⟩, ⟨"BVLL", "VedLL", .swap⟩, ⟨"BVLR", "VedLR", .swap⟩, ⟨"BVRR", "VedRR", .swap⟩,
   ⟨"CSRL", "SeuRL", .swap⟩, ⟨"CSRR", "SeuRR", .swap⟩, ⟨"CTRR", "TeuRR", .swap⟩, ⟨"CVLL", "VeuLL", .swap⟩, ⟨"CVLR", "VeuLR", .swap⟩,
   ⟨"CVRR", "VeuRR", .swap⟩, ⟨"DSRR", "S1ddRR", .swap⟩, ⟨"DVLL", "VddLL", .swap⟩, ⟨"DVLR", "V1ddLR", .swap⟩,
   ⟨"DVRL", "V1ddLR", .rev⟩, ⟨"DVRR", "VddRR", .swap⟩, ⟨"ESLR", "SedRL", .rev⟩, ⟨"ESRR", "SedRR", .rev⟩, ⟨"ETRR", "TedRR", .rev⟩,
   ⟨"EVLL", "VedLL", .rev⟩, ⟨"EVLR", "VdeLR", .swap⟩, ⟨"EVRL", "VedLR", .rev⟩, ⟨"EVRR", "VedRR", .rev⟩, ⟨"FVLL", "VnudLL", .rev⟩,
   ⟨"FVRL", "VnudLR", .rev⟩, ⟨"GSLL", "SnueduRR", .bar⟩, ⟨"GSRL", "SnueduRL", .bar⟩, ⟨"GVLL", "VnueduLL", .bar⟩,
   ⟨"GVRL", "VnueduLR", .bar⟩, ⟨"Q1R", "dgamma", .two⟩, ⟨"Q2R", "dG", .two⟩]

/-- The entry of the JMS tensor for FlavorKit indices, and whether it is the conjugate of the coefficient. -/
def FkOrder.target : FkOrder → List (Fin 3) → Bool × List (Fin 3)
  | .swap, [a, b, c, d] => (false, [b, a, d, c])
  | .rev, [a, b, c, d] => (false, [d, c, b, a])
  | .bar, [a, b, c, d] => (true, [c, d, a, b])
  | .two, [a, b] => (false, [b, a])
  | _, i => (false, i)

/-- Operators with Hermitian bilinears, `C[p, r, s, t] = conj C[r, p, t, s]`. -/
def opHerm : List String :=
  ["V1ddLR", "VddLL", "VddRR", "VdeLR", "VedLL", "VedLR", "VedRR", "VeeLL", "VeeLR", "VeeRR", "VeuLL", "VeuLR", "VeuRR", "VnudLL", "VnudLR"]

/-- Operators with two equal bilinears, `C[p, r, s, t] = C[s, t, p, r]`. -/
def opExch : List String := ["S1ddRR", "SeeRR", "VddLL", "VddRR", "VeeLL", "VeeRR"]

/-- Operators with a Fierz identity, `C[p, r, s, t] = C[p, t, s, r]`. -/
def opFierz : List String := ["VeeLL", "VeeRR"]

/-- Tensors of JMS coefficients with all symmetries of the operators. -/
structure JmsTensor (T : String → List (Fin 3) → ℂ) : Prop where
  herm : ∀ n ∈ opHerm, ∀ p r s t, T n [p, r, s, t] = starRingEnd ℂ (T n [r, p, t, s])
  exch : ∀ n ∈ opExch, ∀ p r s t, T n [p, r, s, t] = T n [s, t, p, r]
  fierz : ∀ n ∈ opFierz, ∀ p r s t, T n [p, r, s, t] = T n [p, t, s, r]

end Spec

end Verif
