import Verif.Spec.Lagrangian

/-! Effective Lagrangian of the basis WET flavio, written from the definition of its operators (see `Spec/Lagrangian.lean`). -/

set_option autoImplicit false

namespace Verif.Spec

/-- An operator with colour-singlet bilinears: name of the coefficient, normalisation, Dirac structure. -/
structure NOp where
  name : String
  norm : ℂ
  dirs : List (ℤ × Dir)

/-- The operators `(fbar_1 ... f_2) (fbar_3 ... f_4)` with fixed flavours. -/
structure NSector where
  f1 : Kind × Fin 3
  f2 : Kind × Fin 3
  f3 : Kind × Fin 3
  f4 : Kind × Fin 3
  ops : List NOp

/-- Contribution of a sector with the coefficients `c`. -/
noncomputable def NSector.term (c : String → ℂ) (x : NSector) : Four := fun p q r s =>
  if p.flav = x.f1 ∧ q.flav = x.f2 ∧ r.flav = x.f3 ∧ s.flav = x.f4 then
    (x.ops.map fun o => o.norm * c o.name * (o.dirs.map fun D => (D.1 : ℂ) * D.2.val p.spin q.spin r.spin s.spin).sum).sum *
      Col.one.val p.col q.col r.col s.col
  else 0

/-- The Lagrangian `sum of C O + h.c.`. -/
noncomputable def nLag (l : List NSector) (c : String → ℂ) : Four := fun p q r s =>
  (l.map fun x => x.term c p q r s + (x.term c).adj p q r s).sum

/-- The fields are those of a sector, in any order. -/
def NSector.Has (x : NSector) (p q r s : Leg) : Prop :=
  ((p.flav = x.f1 ∧ r.flav = x.f3) ∨ (p.flav = x.f3 ∧ r.flav = x.f1)) ∧
  ((q.flav = x.f2 ∧ s.flav = x.f4) ∨ (q.flav = x.f4 ∧ s.flav = x.f2))

/-- The fields of a process that is described by the sectors: those of a sector or of its conjugate, in any order. -/
def NCovered (l : List NSector) (p q r s : Leg) : Prop := ∃ x ∈ l, x.Has p q r s ∨ x.Has q p s r

/-! ### flavio -/

/-- `Delta F = 2`; `y` is "bs" etc. -/
noncomputable def flavioI (y : String) : List NOp :=
  [⟨"CVLL_" ++ (y ++ y), 1, [(1, .g 1 .L .L)]⟩, ⟨"CVRR_" ++ (y ++ y), 1, [(1, .g 1 .R .R)]⟩,
   ⟨"CVLR_" ++ (y ++ y), 1, [(1, .g 1 .L .R)]⟩, ⟨"CSLL_" ++ (y ++ y), 1, [(1, .g 0 .L .L)]⟩,
   ⟨"CSRR_" ++ (y ++ y), 1, [(1, .g 0 .R .R)]⟩, ⟨"CSLR_" ++ (y ++ y), 1, [(1, .g 0 .L .R)]⟩,
   ⟨"CTLL_" ++ (y ++ y), 1, [(1, .sg .L .L)]⟩, ⟨"CTRR_" ++ (y ++ y), 1, [(1, .sg .R .R)]⟩]

/-- Charged currents `(ubar d) (lbar nu)`; `N` is `-4 G_F / sqrt 2 V`. -/
noncomputable def flavioII (N : ℂ) (y : String) : List NOp :=
  [⟨"CVL_" ++ y, N, [(1, .g 1 .L .L)]⟩, ⟨"CVR_" ++ y, N, [(1, .g 1 .R .L)]⟩, ⟨"CSR_" ++ y, N, [(1, .g 0 .R .L)]⟩,
   ⟨"CSL_" ++ y, N, [(1, .g 0 .L .L)]⟩, ⟨"CT_" ++ y, N, [(1, .sg .L .L)]⟩]

/-- `(qbar gamma P b) (lbar gamma l)`, `(qbar gamma P b) (lbar gamma gamma_5 l)`, `m_b (qbar P b) (lbar l)`,
`m_b (qbar P b) (lbar gamma_5 l)`; `N` is `4 G_F / sqrt 2 V V^* e^2 / (16 pi^2)`. -/
noncomputable def flavioLep (N : ℂ) (mb : ℝ) (y : String) : List NOp :=
  [⟨"C9_" ++ y, N, [(1, .g 1 .L .L), (1, .g 1 .L .R)]⟩, ⟨"C9p_" ++ y, N, [(1, .g 1 .R .L), (1, .g 1 .R .R)]⟩,
   ⟨"C10_" ++ y, N, [(-1, .g 1 .L .L), (1, .g 1 .L .R)]⟩, ⟨"C10p_" ++ y, N, [(-1, .g 1 .R .L), (1, .g 1 .R .R)]⟩,
   ⟨"CS_" ++ y, N * mb, [(1, .g 0 .R .L), (1, .g 0 .R .R)]⟩, ⟨"CSp_" ++ y, N * mb, [(1, .g 0 .L .L), (1, .g 0 .L .R)]⟩,
   ⟨"CP_" ++ y, N * mb, [(-1, .g 0 .R .L), (1, .g 0 .R .R)]⟩, ⟨"CPp_" ++ y, N * mb, [(-1, .g 0 .L .L), (1, .g 0 .L .R)]⟩]

/-- `(qbar gamma P b) (nubar gamma (1 - gamma_5) nu)`, with the same `N`. -/
noncomputable def flavioNu (N : ℂ) (y : String) : List NOp :=
  [⟨"CL_" ++ y, N, [(2, .g 1 .L .L)]⟩, ⟨"CR_" ++ y, N, [(2, .g 1 .R .L)]⟩]

/-- `V_tb V_ts^*` for `(s, b)` etc. -/
noncomputable def ckmTop (V : M3) (x : Fin 3 × Fin 3) : ℂ := V 2 x.2 * starRingEnd ℂ (V 2 x.1)

/-- `4 G_F / sqrt 2 V_tb V_ts^* e^2 / (16 pi^2)`; `e^2 = 4 pi alpha`. -/
noncomputable def normLoop (GF alpha : ℝ) (V : M3) (x : Fin 3 × Fin 3) : ℂ :=
  ((4 * GF / Real.sqrt 2 : ℝ) : ℂ) * ckmTop V x * ((4 * Real.pi * alpha / (16 * Real.pi ^ 2) : ℝ) : ℂ)

/-- Sectors of the flavio basis. -/
noncomputable def flavioSectors (GF alpha mb : ℝ) (V : M3) : List NSector :=
  (ddPairs.map fun x => ⟨(.d, x.1), (.d, x.2), (.d, x.1), (.d, x.2), flavioI (qname (.d, x.2) ++ qname (.d, x.1))⟩) ++
  ([0, 1].flatMap fun u => [0, 1, 2].flatMap fun d => [0, 1, 2].flatMap fun l => [0, 1, 2].map fun n =>
    ⟨(.u, u), (.d, d), (.e, l), (.nu, n), flavioII (-((4 * GF / Real.sqrt 2 : ℝ) : ℂ) * V u d)
      (qname (.d, d) ++ (qname (.u, u) ++ (qname (.e, l) ++ ("nu" ++ qname (.nu, n)))))⟩) ++
  ([(1, 2), (0, 2)].flatMap fun x => [0, 1, 2].flatMap fun l => [0, 1, 2].map fun l' =>
    ⟨(.d, x.1), (.d, x.2), (.e, l), (.e, l'), flavioLep (normLoop GF alpha V x) mb
      (qname (.d, x.2) ++ (qname (.d, x.1) ++ (qname (.e, l) ++ qname (.e, l'))))⟩) ++
  (ddPairs.flatMap fun x => [0, 1, 2].flatMap fun l => [0, 1, 2].map fun l' =>
    ⟨(.d, x.1), (.d, x.2), (.nu, l), (.nu, l'), flavioNu (normLoop GF alpha V x)
      (qname (.d, x.2) ++ (qname (.d, x.1) ++ ("nu" ++ (qname (.nu, l) ++ ("nu" ++ qname (.nu, l'))))))⟩)

/-- Coefficient of `dbar_p sigma^{mu nu} P_A d_q X_{mu nu}` in the flavio basis, with operators
`4 G_F / sqrt 2 V_tb V_ts^* e / (16 pi^2) m_b (...) F` and the same with `g_s` for gluons. -/
noncomputable def flavioDipole (GF alphaE alphaS mb : ℝ) (V : M3) (c : String → ℂ) (X : Boson) (A : Chir)
    (x : Fin 3 × Fin 3) : ℂ :=
  let y := qname (.d, x.2) ++ qname (.d, x.1)
  let N (g : ℝ) : ℂ := ((4 * GF / Real.sqrt 2 : ℝ) : ℂ) * ckmTop V x * ((g / (16 * Real.pi ^ 2) * mb : ℝ) : ℂ)
  match X, A with
  | .photon, .R => N (Real.sqrt (4 * Real.pi * alphaE)) * c ("C7_" ++ y)
  | .photon, .L => N (Real.sqrt (4 * Real.pi * alphaE)) * c ("C7p_" ++ y)
  | .gluon, .R => N (Real.sqrt (4 * Real.pi * alphaS)) * c ("C8_" ++ y)
  | .gluon, .L => N (Real.sqrt (4 * Real.pi * alphaS)) * c ("C8p_" ++ y)

/-- Coefficients without those of an operator. -/
noncomputable def dropOp (k : String) (J : JSrc → ℂ) : JSrc → ℂ := fun s => if s.1 = k then 0 else J s

end Verif.Spec
