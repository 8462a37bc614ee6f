import Verif.Spec.MatchLag
import Mathlib.GroupTheory.Perm.Sign
import Mathlib.GroupTheory.Perm.Fin

/-!
Operators that violate baryon number, in the Warsaw basis and in the JMS basis, written from their definition.

An operator of three quarks and a lepton, `(psi_p^T C psi_q) (psi_r^T C psi_s)` with the colours of the quarks contracted to a
singlet, is given by its coefficient tensor. The fields anticommute, so that two tensors describe the same operator if they agree
after antisymmetrisation in all four fields (`Four.alt`).
-/

set_option autoImplicit false

namespace Verif.Spec

/-- Charge conjugation, `C = i gamma^2 gamma^0`. -/
def chargeConj : Matrix (Fin 4) (Fin 4) GaussianInt := gI • (gam 2 * gam 0)

/-- `C gamma^mu = - gamma^mu^T C`, and `C` is antisymmetric. -/
theorem chargeConj_gam : (∀ μ, chargeConj * gam μ = -((gam μ).transpose * chargeConj)) ∧ chargeConj.transpose = -chargeConj := by
  decide +kernel

/-- The antisymmetric tensor of three colours. -/
def levi (a b c : Fin 3) : ℤ :=
  if (a, b, c) ∈ [(0, 1, 2), (1, 2, 0), (2, 0, 1)] then 1 else if (a, b, c) ∈ [(0, 2, 1), (2, 1, 0), (1, 0, 2)] then -1 else 0

/-- Spinor and colour indices of `ε (psi^T C P_A psi) (psi^T C P_B psi)`; the lepton is the last field. -/
def bnvEnt (A B : Chir) (p q r s : Leg) : GaussianInt :=
  (chargeConj * proj A) p.spin q.spin * (chargeConj * proj B) r.spin s.spin * (levi p.col q.col r.col : GaussianInt)

/-- `ε (k_1^T C P_A k_2) (k_3^T C P_B k_4)` with the coefficients `f` for all generations. -/
noncomputable def bnvMono (k1 k2 k3 k4 : Kind) (A B : Chir) (f : Fin 3 × Fin 3 × Fin 3 × Fin 3 → ℂ) : Four := fun p q r s =>
  if p.kind = k1 ∧ q.kind = k2 ∧ r.kind = k3 ∧ s.kind = k4 then
    f (p.gen, q.gen, r.gen, s.gen) * GaussianInt.toComplex (bnvEnt A B p q r s)
  else 0

/-- Antisymmetrisation in all four fields. -/
noncomputable def Four.alt (T : Four) (x : Fin 4 → Leg) : ℂ :=
  ∑ σ : Equiv.Perm (Fin 4), ((Equiv.Perm.sign σ : ℤ) : ℂ) * T (x (σ 0)) (x (σ 1)) (x (σ 2)) (x (σ 3))

/-- A Lagrangian of four unbarred fields after the rotation `d_L -> V d_L`. -/
noncomputable def Four.rotU (V : Matrix (Fin 3) (Fin 3) ℂ) (T : Four) : Four := fun p q r s => ∑ g : Fin 4 → Fin 3,
  rotUn V p (g 0) * rotUn V q (g 1) * rotUn V r (g 2) * rotUn V s (g 3) *
    T { p with gen := g 0 } { q with gen := g 1 } { r with gen := g 2 } { s with gen := g 3 }

/-! ### The WET in the JMS basis -/

/-- An operator of three quarks and a lepton. -/
structure BvOp where
  name : String
  k1 : Kind
  k2 : Kind
  k3 : Kind
  k4 : Kind
  c1 : Chir
  c2 : Chir

/-- Operators of the JMS basis that change baryon and lepton number by one (table 20 of arXiv:1709.04486). -/
def bnvOps : List BvOp :=
  [⟨"SuddLL", .u, .d, .d, .nu, .L, .L⟩, ⟨"SduuLL", .d, .u, .u, .e, .L, .L⟩, ⟨"SuudLR", .u, .u, .d, .e, .L, .R⟩,
   ⟨"SduuLR", .d, .u, .u, .e, .L, .R⟩, ⟨"SuudRL", .u, .u, .d, .e, .R, .L⟩, ⟨"SduuRL", .d, .u, .u, .e, .R, .L⟩,
   ⟨"SdudRL", .d, .u, .d, .nu, .R, .L⟩, ⟨"SdduRL", .d, .d, .u, .nu, .R, .L⟩, ⟨"SduuRR", .d, .u, .u, .e, .R, .R⟩]

/-- The Lagrangian of a set of WET coefficients. -/
noncomputable def bnvLag (C : Dict String ℂ) : Four := fun p q r s => (bnvOps.map fun o =>
  bnvMono o.k1 o.k2 o.k3 o.k4 o.c1 o.c2 (fun i => Dict.getD C (label o.name [i.1, i.2.1, i.2.2.1, i.2.2.2]) 0) p q r s).sum

/-- Operators with three quarks and an antilepton (table 21), which change baryon and lepton number in opposite directions. They do
not follow from operators of dimension six in the SMEFT. -/
def bnvAnti : List String := ["SdddLL", "SuddLR", "SdduLR", "SdddLR", "SdddRL", "SuddRR", "SdddRR"]

/-- All operators without top quark are listed. -/
def BnvListing (L : List String) : Prop := ∀ o ∈ bnvOps, ∀ p r s t, o.k1.Light p → o.k2.Light r → o.k3.Light s → o.k4.Light t →
  label o.name [p, r, s, t] ∈ L

/-! ### The Warsaw basis -/

/-- Contractions of doublets in `(1 2) (3 4)`: `ε_12`, `ε_34`, `ε_12 ε_34` and `ε_14 ε_23`. -/
inductive Contr
  | none
  | first
  | second
  | pairs
  | nested

/-- The antisymmetric tensor of two components. -/
def eps2 (a b : Fin 2) : ℤ := if a = 0 ∧ b = 1 then 1 else if a = 1 ∧ b = 0 then -1 else 0

/-- Entry of a contraction. -/
def Contr.val : Contr → Fin 2 → Fin 2 → Fin 2 → Fin 2 → ℤ
  | .none, _, _, _, _ => 1
  | .first, a, b, _, _ => eps2 a b
  | .second, _, _, c, d => eps2 c d
  | .pairs, a, b, c, d => eps2 a b * eps2 c d
  | .nested, a, b, c, d => eps2 a d * eps2 b c

/-- An operator of the Warsaw basis in components, with the coefficient tensor `f`. -/
noncomputable def bnvField (f1 f2 f3 f4 : Fld) (A B : Chir) (e : Contr) (f : Fin 3 × Fin 3 × Fin 3 × Fin 3 → ℂ) : Four := fun p q r s =>
  (f1.comps.map fun a => (f2.comps.map fun b => (f3.comps.map fun c => (f4.comps.map fun d =>
    (Contr.val e a.1 b.1 c.1 d.1 : ℂ) * bnvMono a.2 b.2 c.2 d.2 A B f p q r s).sum).sum).sum).sum

/-- The operator `qqql` with the contraction `e`. -/
noncomputable def qqqlLag (e : Contr) (f : Fin 3 × Fin 3 × Fin 3 × Fin 3 → ℂ) : Four := bnvField .q .q .q .l .L .L e f

/-- The operators `duql`, `qque`, `qqql` and `duue`. For `qqql` the literature has two contractions: `ε_jk ε_mn` (arXiv:1008.4884,
`Q^(1)` of its first versions) and `ε_jn ε_km` (its later versions and arXiv:1405.0486). -/
noncomputable def bnvSmeft (e : Contr) (S : JSrc → ℂ) : Four := fun p q r s =>
  bnvField .d .u .q .l .R .L .second (tens S "duql") p q r s + bnvField .q .q .u .e .L .R .first (tens S "qque") p q r s +
  qqqlLag e (tens S "qqql") p q r s + bnvField .d .u .u .e .R .R .none (tens S "duue") p q r s

end Verif.Spec
