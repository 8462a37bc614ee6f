import Verif.Spec.LagFlavio

/-! Effective Lagrangian of the basis WET EOS, written from the definition of its operators (see `Spec/Lagrangian.lean`). -/

set_option autoImplicit false

namespace Verif.Spec

/-! ### Leptons -/

/-- `(sbar gamma P b) (lbar gamma l)`, `(sbar gamma P b) (lbar gamma gamma_5 l)`, `(sbar P b) (lbar l)`, `(sbar P b) (lbar gamma_5 l)`,
`(sbar sigma b) (lbar sigma l)`, `(sbar sigma b) (lbar sigma gamma_5 l)`. -/
noncomputable def eosLep (N : ℂ) (y : String) : List NOp :=
  [⟨y ++ "::c9", N, [(1, .g 1 .L .L), (1, .g 1 .L .R)]⟩, ⟨y ++ "::c9'", N, [(1, .g 1 .R .L), (1, .g 1 .R .R)]⟩,
   ⟨y ++ "::c10", N, [(-1, .g 1 .L .L), (1, .g 1 .L .R)]⟩, ⟨y ++ "::c10'", N, [(-1, .g 1 .R .L), (1, .g 1 .R .R)]⟩,
   ⟨y ++ "::cS", N, [(1, .g 0 .R .L), (1, .g 0 .R .R)]⟩, ⟨y ++ "::cS'", N, [(1, .g 0 .L .L), (1, .g 0 .L .R)]⟩,
   ⟨y ++ "::cP", N, [(-1, .g 0 .R .L), (1, .g 0 .R .R)]⟩, ⟨y ++ "::cP'", N, [(-1, .g 0 .L .L), (1, .g 0 .L .R)]⟩,
   ⟨y ++ "::cT", N, [(1, .sg .L .L), (1, .sg .L .R), (1, .sg .R .L), (1, .sg .R .R)]⟩,
   ⟨y ++ "::cT5", N, [(-1, .sg .L .L), (1, .sg .L .R), (-1, .sg .R .L), (1, .sg .R .R)]⟩]

/-- Charged currents `(ubar b) (lbar nu)`. -/
noncomputable def eosII (N : ℂ) (y : String) : List NOp :=
  [⟨y ++ "::cVL", N, [(1, .g 1 .L .L)]⟩, ⟨y ++ "::cVR", N, [(1, .g 1 .R .L)]⟩, ⟨y ++ "::cSR", N, [(1, .g 0 .R .L)]⟩,
   ⟨y ++ "::cSL", N, [(1, .g 0 .L .L)]⟩, ⟨y ++ "::cT", N, [(1, .sg .L .L)]⟩]

/-- Semileptonic sectors of the EOS basis; electrons and muons. -/
noncomputable def eosLepSectors (GF alpha : ℝ) (V : M3) : List NSector :=
  ([0, 1].map fun l => ⟨(.d, 1), (.d, 2), (.e, l), (.e, l), eosLep (normLoop GF alpha V (1, 2)) ("b->s" ++ (qname (.e, l) ++ qname (.e, l)))⟩) ++
  ([0, 1].map fun l => ⟨(.u, 0), (.d, 2), (.e, l), (.nu, l), eosII (-((4 * GF / Real.sqrt 2 : ℝ) : ℂ) * V 0 2)
    ("b->u" ++ (qname (.e, l) ++ ("nu" ++ qname (.nu, l))))⟩)

/-! ### Four quarks -/

/-- An operator with four quarks: name of the coefficient, normalisation, Dirac structure, colour structure. -/
structure QOp where
  name : String
  norm : ℂ
  dirs : List Dir
  col : Col

/-- The operators `(fbar_1 ... f_2) (fbar_3 ... f_4)` with fixed flavours. -/
structure QSector where
  f1 : Kind × Fin 3
  f2 : Kind × Fin 3
  f3 : Kind × Fin 3
  f4 : Kind × Fin 3
  ops : List QOp

/-- Contribution of a sector with the coefficients `c`. -/
noncomputable def QSector.term (c : String → ℂ) (x : QSector) : Four := fun p q r s =>
  if p.flav = x.f1 ∧ q.flav = x.f2 ∧ r.flav = x.f3 ∧ s.flav = x.f4 then
    (x.ops.map fun o => o.norm * c o.name * (o.dirs.map fun D => D.val p.spin q.spin r.spin s.spin).sum *
      o.col.val p.col q.col r.col s.col).sum
  else 0

/-- The Lagrangian `sum of C O + h.c.`. -/
noncomputable def qLag (l : List QSector) (c : String → ℂ) : Four := fun p q r s =>
  (l.map fun x => x.term c p q r s + (x.term c).adj p q r s).sum

/-- `(sbar gamma T^A P_L q) (qbar gamma T^A P_L b)` and the same without colour matrices. -/
def eosCurrent (N : ℂ) : List QOp := [⟨"b->s::c1", N, [.g 1 .L .L], .oct⟩, ⟨"b->s::c2", N, [.g 1 .L .L], .one⟩]

/-- `(sbar gamma P_L b) (qbar gamma q)`, with colour matrices, with three gamma matrices, and with both. -/
def eosPenguin (N : ℂ) : List QOp :=
  [⟨"b->s::c3", N, [.g 1 .L .L, .g 1 .L .R], .one⟩, ⟨"b->s::c4", N, [.g 1 .L .L, .g 1 .L .R], .oct⟩,
   ⟨"b->s::c5", N, [.g 3 .L .L, .g 3 .L .R], .one⟩, ⟨"b->s::c6", N, [.g 3 .L .L, .g 3 .L .R], .oct⟩]

/-- Four-quark sectors of the EOS basis. The current-current operators are summed over the up and the charm quark with the weights
`wu` and `wc`, the penguin operators over all five quarks. -/
noncomputable def eosQuark (GF : ℝ) (V : M3) (wu wc : ℂ) : List QSector :=
  let N : ℂ := ((4 * GF / Real.sqrt 2 : ℝ) : ℂ) * ckmTop V (1, 2)
  [⟨(.d, 1), (.u, 0), (.u, 0), (.d, 2), eosCurrent (N * wu)⟩, ⟨(.d, 1), (.u, 1), (.u, 1), (.d, 2), eosCurrent (N * wc)⟩,
   ⟨(.d, 1), (.d, 2), (.u, 0), (.u, 0), eosPenguin N⟩, ⟨(.d, 1), (.d, 2), (.u, 1), (.u, 1), eosPenguin N⟩,
   ⟨(.d, 1), (.d, 2), (.d, 0), (.d, 0), eosPenguin N⟩, ⟨(.d, 1), (.d, 2), (.d, 1), (.d, 1), eosPenguin N⟩,
   ⟨(.d, 1), (.d, 2), (.d, 2), (.d, 2), eosPenguin N⟩]

/-! ### Dipole operators -/

/-- Coefficient of `sbar sigma^{mu nu} P_A b X_{mu nu}` in the EOS basis, with operators
`4 G_F / sqrt 2 V_tb V_ts^* e / (16 pi^2) sbar sigma (m_b P_R + m_s P_L) b F`, the primed ones with exchanged projectors, and the
same with `g_s` for gluons. -/
noncomputable def eosDipole (GF alphaE alphaS mb ms : ℝ) (V : M3) (c : String → ℂ) (X : Boson) (A : Chir) : ℂ :=
  let N (g : ℝ) : ℂ := ((4 * GF / Real.sqrt 2 : ℝ) : ℂ) * ckmTop V (1, 2) * ((g / (16 * Real.pi ^ 2) : ℝ) : ℂ)
  match X, A with
  | .photon, .R => N (Real.sqrt (4 * Real.pi * alphaE)) * (mb * c "b->s::c7" + ms * c "b->s::c7'")
  | .photon, .L => N (Real.sqrt (4 * Real.pi * alphaE)) * (ms * c "b->s::c7" + mb * c "b->s::c7'")
  | .gluon, .R => N (Real.sqrt (4 * Real.pi * alphaS)) * (mb * c "b->s::c8" + ms * c "b->s::c8'")
  | .gluon, .L => N (Real.sqrt (4 * Real.pi * alphaS)) * (ms * c "b->s::c8" + mb * c "b->s::c8'")

end Verif.Spec
