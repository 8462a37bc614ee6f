import Verif.Spec.LagFlavio

/-! Effective Lagrangian of the basis WET FormFlavor, written from the definition of its operators (see `Spec/Lagrangian.lean`). -/

set_option autoImplicit false

namespace Verif.Spec

/-- `Delta F = 2`; `y` is "bs" etc. The tensor operators are `t (sigma P) (sigma P)`. -/
noncomputable def ffI (t : ℂ) (y : String) : List NOp :=
  [⟨"CVLL_" ++ (y ++ y), 1, [(1, .g 1 .L .L)]⟩, ⟨"CVRR_" ++ (y ++ y), 1, [(1, .g 1 .R .R)]⟩,
   ⟨"CVLR_" ++ (y ++ y), 1, [(1, .g 1 .L .R)]⟩, ⟨"CSLL_" ++ (y ++ y), 1, [(1, .g 0 .L .L)]⟩,
   ⟨"CSRR_" ++ (y ++ y), 1, [(1, .g 0 .R .R)]⟩, ⟨"CSLR_" ++ (y ++ y), 1, [(1, .g 0 .L .R)]⟩,
   ⟨"CTLL_" ++ (y ++ y), t, [(1, .sg .L .L)]⟩, ⟨"CTRR_" ++ (y ++ y), t, [(1, .sg .R .R)]⟩]

/-- `(qbar ... P_A b) (mubar ... P_B mu)`. -/
noncomputable def ffLep (y : String) : List NOp :=
  [⟨"CVLL_" ++ y ++ "mm", 1, [(1, .g 1 .L .L)]⟩, ⟨"CVRR_" ++ y ++ "mm", 1, [(1, .g 1 .R .R)]⟩,
   ⟨"CVLR_" ++ y ++ "mm", 1, [(1, .g 1 .L .R)]⟩, ⟨"CVRL_" ++ y ++ "mm", 1, [(1, .g 1 .R .L)]⟩,
   ⟨"CSLL_" ++ y ++ "mm", 1, [(1, .g 0 .L .L)]⟩, ⟨"CSRR_" ++ y ++ "mm", 1, [(1, .g 0 .R .R)]⟩,
   ⟨"CSLR_" ++ y ++ "mm", 1, [(1, .g 0 .L .R)]⟩, ⟨"CSRL_" ++ y ++ "mm", 1, [(1, .g 0 .R .L)]⟩,
   ⟨"CTLL_" ++ y ++ "mm", 1, [(1, .sg .L .L)]⟩, ⟨"CTRR_" ++ y ++ "mm", 1, [(1, .sg .R .R)]⟩]

/-- Sectors of the FormFlavor basis, except `s -> d nu nu`. -/
noncomputable def ffSectors (t : ℂ) : List NSector :=
  (ddPairs.map fun x => ⟨(.d, x.1), (.d, x.2), (.d, x.1), (.d, x.2), ffI t (qname (.d, x.2) ++ qname (.d, x.1))⟩) ++
  [⟨(.u, 0), (.u, 1), (.u, 0), (.u, 1), ffI t "cu"⟩] ++
  ([(1, 2), (0, 2)].map fun x => ⟨(.d, x.1), (.d, x.2), (.e, 1), (.e, 1), ffLep (qname (.d, x.2) ++ qname (.d, x.1))⟩)

/-- Coefficient of `dbar_p sigma^{mu nu} P_A d_q X_{mu nu}` in the FormFlavor basis; the operators contain the coupling. -/
noncomputable def ffDipole (alphaE alphaS : ℝ) (c : String → ℂ) (X : Boson) (A : Chir) (x : Fin 3 × Fin 3) : ℂ :=
  let y := qname (.d, x.1) ++ qname (.d, x.2)
  match X, A with
  | .photon, .R => (Real.sqrt (4 * Real.pi * alphaE) : ℂ) * c ("CAR_" ++ y)
  | .photon, .L => (Real.sqrt (4 * Real.pi * alphaE) : ℂ) * c ("CAL_" ++ y)
  | .gluon, .R => (Real.sqrt (4 * Real.pi * alphaS) : ℂ) * c ("CGR_" ++ y)
  | .gluon, .L => (Real.sqrt (4 * Real.pi * alphaS) : ℂ) * c ("CGL_" ++ y)

end Verif.Spec
