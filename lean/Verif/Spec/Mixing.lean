import Verif.Spec.MatchLag

/-!
Photon and Z boson for an operator `phiWB` of any size, without expansion. The neutral gauge bosons have the kinetic terms
`-1/4 W3 W3 - 1/4 B B - ε/2 W3 B`, `ε = v^2 C_phiWB`, and the mass term `v^2/8 (g2 W3 - g1 B)^2`.
-/

set_option autoImplicit false

namespace Verif.Spec

/-- Kinetic term, as a product of two directions `(W3, B)`. -/
def kin (ε : ℝ) (x y : ℝ × ℝ) : ℝ := x.1 * y.1 + x.2 * y.2 + ε * (x.1 * y.2 + x.2 * y.1)

/-- Photon `A` and Z boson `Z`: canonical kinetic terms, no mass term for the photon, and the charge `e`. -/
structure Mixing (e g2 ε g1 : ℝ) (A Z : ℝ × ℝ) : Prop where
  g1_pos : 0 < g1
  photon : kin ε A A = 1
  z : kin ε Z Z = 1
  orth : kin ε A Z = 0
  massless : g2 * A.1 - g1 * A.2 = 0
  charge : g2 * A.1 = e

/-- Coupling of a fermion to the Z: `g2 T3` along `W3`, `g1 (Q - T3)` along `B`, and the shift by the operators, in which the Higgs current
couples to `g2 W3 - g1 B`. -/
noncomputable def zDirect (S : JSrc → ℂ) (v g2 g1 : ℝ) (Z : ℝ × ℝ) (x : Chir × Kind) (i : Fin 3 × Fin 3) : ℂ :=
  ((g2 * isospin x * Z.1 + g1 * (charge x.2 - isospin x) * Z.2 : ℝ) : ℂ) * (if i.1 = i.2 then 1 else 0)
    + ((g2 * Z.1 - g1 * Z.2 : ℝ) : ℂ) *
      (((isospin x * v ^ 2 : ℝ) : ℂ) * shift S (zNames x).2 i - ((v ^ 2 / 2 : ℝ) : ℂ) * shift S (zNames x).1 i)

/-- Z exchange: `- 1 / (2 mZ^2) J J`. -/
noncomputable def zDirectLag (S : JSrc → ℂ) (v mZ g2 g1 : ℝ) (Z : ℝ × ℝ) : Four := fun p q r s =>
  -((1 / (2 * mZ ^ 2) : ℝ) : ℂ) * (chirals.map fun x => (chirals.map fun y =>
    mono x.2 x.2 y.2 y.2 (.g 1 x.1 y.1) .one
      (fun i => zDirect S v g2 g1 Z x (i.1, i.2.1) * zDirect S v g2 g1 Z y (i.2.2.1, i.2.2.2)) p q r s).sum).sum

/-- The effective Lagrangian at tree level with the Z boson `Z`. -/
noncomputable def directLag (S : JSrc → ℂ) (c : Couplings) (g1 : ℝ) (Z : ℝ × ℝ) : Four := fun p q r s =>
  contactLag S p q r s + zDirectLag S c.v c.mZ c.g2 g1 Z p q r s + wLag S c p q r s

/-- The coefficients with another value of `phiWB`. -/
noncomputable def withWB (S : JSrc → ℂ) (x : ℝ) : JSrc → ℂ := fun k => if k = ("phiWB", []) then (x : ℂ) else S k

end Verif.Spec
