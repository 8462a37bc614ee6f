import Verif.Spec.LagFormFlavor

/-! Dipole couplings of up quarks and charged leptons in the JMS and FormFlavor bases (C71). -/

set_option autoImplicit false

namespace Verif.Spec

/-- Name of the JMS operators `psibar sigma^{mu nu} P_R psi X_{mu nu}`; leptons do not couple to gluons. -/
def dipoleName : Boson → Kind → Option String
  | .photon, .d => some "dgamma"
  | .photon, .u => some "ugamma"
  | .photon, .e => some "egamma"
  | .gluon, .d => some "dG"
  | .gluon, .u => some "uG"
  | _, _ => none

/-- Coefficient of `psibar_p sigma^{mu nu} P_A psi_q X_{mu nu}` in the JMS basis. -/
noncomputable def jmsDipoleOf (J : JSrc → ℂ) (f : Kind) (X : Boson) (A : Chir) (p q : Fin 3) : ℂ :=
  match dipoleName X f, A with
  | none, _ => 0
  | some k, .R => J (k, [p, q])
  | some k, .L => starRingEnd ℂ (J (k, [q, p]))

/-- Flavour in the names of the FormFlavor dipole coefficients. -/
def ffFlavour : Kind × Fin 3 → String
  | (.e, g) => ["e", "m", "t"].getD g ""
  | f => qname f

/-- Coefficient of `psibar_p sigma^{mu nu} P_A psi_q X_{mu nu}` in the FormFlavor basis; the operators contain the coupling of
the boson. -/
noncomputable def ffDipoleOf (alphaE alphaS : ℝ) (c : String → ℂ) (f : Kind) (X : Boson) (A : Chir) (p q : Fin 3) : ℂ :=
  let y := ffFlavour (f, p) ++ ffFlavour (f, q)
  match dipoleName X f, X, A with
  | none, _, _ => 0
  | _, .photon, .R => (Real.sqrt (4 * Real.pi * alphaE) : ℂ) * c ("CAR_" ++ y)
  | _, .photon, .L => (Real.sqrt (4 * Real.pi * alphaE) : ℂ) * c ("CAL_" ++ y)
  | _, .gluon, .R => (Real.sqrt (4 * Real.pi * alphaS) : ℂ) * c ("CGR_" ++ y)
  | _, .gluon, .L => (Real.sqrt (4 * Real.pi * alphaS) : ℂ) * c ("CGL_" ++ y)

end Verif.Spec
