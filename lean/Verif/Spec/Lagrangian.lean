import Mathlib.NumberTheory.Zsqrtd.GaussianInt
import Mathlib.LinearAlgebra.Matrix.Notation
import Verif.Spec.Wet

/-!
Effective Lagrangians of the bases WET JMS and WET Bern, written from the definition of their operators.

A four-fermion Lagrangian is given by its coefficient tensor: `T p q r s` is the coefficient of
`psibar_p psi_q psibar_r psi_s`, where `p`, `q`, `r`, `s` stand for flavour, spinor index and colour. The fields
anticommute, so that two tensors describe the same Lagrangian if they agree after antisymmetrisation in the two barred
and in the two unbarred fields (`Four.anti`).

Gamma matrices are given in the chiral representation, with entries in the Gaussian integers.
-/

set_option autoImplicit false

namespace Verif.Spec

/-! ### Dirac matrices -/

/-- Chirality. -/
inductive Chir
  | L
  | R
  deriving DecidableEq

/-- The imaginary unit. -/
def gI : GaussianInt := ⟨0, 1⟩

/-- `gamma^mu`. -/
def gam : Fin 4 → Matrix (Fin 4) (Fin 4) GaussianInt
  | 0 => !![0, 0, 1, 0; 0, 0, 0, 1; 1, 0, 0, 0; 0, 1, 0, 0]
  | 1 => !![0, 0, 0, 1; 0, 0, 1, 0; 0, -1, 0, 0; -1, 0, 0, 0]
  | 2 => !![0, 0, 0, -gI; 0, 0, gI, 0; 0, gI, 0, 0; -gI, 0, 0, 0]
  | 3 => !![0, 0, 1, 0; 0, 0, 0, -1; -1, 0, 0, 0; 0, 1, 0, 0]

/-- The metric. -/
def met : Fin 4 → GaussianInt
  | 0 => 1
  | _ => -1

/-- The projectors `P_L` and `P_R`. -/
def proj : Chir → Matrix (Fin 4) (Fin 4) GaussianInt
  | .L => Matrix.diagonal ![1, 1, 0, 0]
  | .R => Matrix.diagonal ![0, 0, 1, 1]

/-- `sigma^{mu nu} = i/2 [gamma^mu, gamma^nu]`, which is `i gamma^mu gamma^nu` for different indices. -/
def sig (μ ν : Fin 4) : Matrix (Fin 4) (Fin 4) GaussianInt := if μ = ν then 0 else gI • (gam μ * gam ν)

/-- The matrices satisfy the Clifford algebra, `i gamma^0 gamma^1 gamma^2 gamma^3 = P_R - P_L`, and `sigma` is the commutator. -/
theorem clifford : (∀ μ ν, gam μ * gam ν + gam ν * gam μ = if μ = ν then 2 * met μ • 1 else 0) ∧
    gI • (gam 0 * gam 1 * gam 2 * gam 3) = proj .R - proj .L ∧ proj .L + proj .R = 1 ∧
    ∀ μ ν, (2 : GaussianInt) • sig μ ν = gI • (gam μ * gam ν - gam ν * gam μ) := by decide +kernel

/-- Dirac structures of four-fermion operators: `g n A B` is
`(gamma^{mu_1} ... gamma^{mu_n} P_A) (gamma_{mu_1} ... gamma_{mu_n} P_B)` and `sg A B` is
`(sigma^{mu nu} P_A) (sigma_{mu nu} P_B)`. -/
inductive Dir
  | g (n : ℕ) (A B : Chir)
  | sg (A B : Chir)

/-- Entry of a Dirac structure at four spinor indices. -/
def Dir.ent : Dir → Fin 4 → Fin 4 → Fin 4 → Fin 4 → GaussianInt
  | .g n A B, α, β, γ, δ => ∑ m : Fin n → Fin 4, (∏ i, met (m i)) *
      ((List.ofFn fun i => gam (m i)).prod * proj A) α β * ((List.ofFn fun i => gam (m i)).prod * proj B) γ δ
  | .sg A B, α, β, γ, δ => ∑ μ, ∑ ν, met μ * met ν * (sig μ ν * proj A) α β * (sig μ ν * proj B) γ δ

/-- The same as a complex number. -/
noncomputable def Dir.val (D : Dir) (α β γ δ : Fin 4) : ℂ := GaussianInt.toComplex (D.ent α β γ δ)

/-! ### Colour -/

/-- Colour structures: singlets, crossed indices, `T^A T^A`. -/
inductive Col
  | one
  | cross
  | oct

/-- Entry of a colour structure; `T^A_{ab} T^A_{cd} = 1/2 delta_{ad} delta_{cb} - 1/6 delta_{ab} delta_{cd}`. -/
noncomputable def Col.val : Col → Fin 3 → Fin 3 → Fin 3 → Fin 3 → ℂ
  | .one, a, b, c, d => if a = b ∧ c = d then 1 else 0
  | .cross, a, b, c, d => if a = d ∧ c = b then 1 else 0
  | .oct, a, b, c, d => (if a = d ∧ c = b then 1 else 0) / 2 - (if a = b ∧ c = d then 1 else 0) / 6

/-! ### Lagrangians -/

/-- Kinds of fermions. -/
inductive Kind
  | u
  | d
  | e
  | nu
  deriving DecidableEq

/-- A component of a fermion field. Leptons have no colour; there the colour index 0 is meant. -/
structure Leg where
  kind : Kind
  gen : Fin 3
  spin : Fin 4
  col : Fin 3

/-- Flavour of a field. -/
def Leg.flav (p : Leg) : Kind × Fin 3 := (p.kind, p.gen)

/-- Coefficient tensors of `psibar_p psi_q psibar_r psi_s`. -/
abbrev Four := Leg → Leg → Leg → Leg → ℂ

/-- Antisymmetrisation in the barred and in the unbarred fields. -/
def Four.anti (T : Four) : Four := fun p q r s => T p q r s - T r q p s - T p s r q + T r s p q

/-- `gamma^0` as complex matrix. -/
noncomputable def g0 (α β : Fin 4) : ℂ := GaussianInt.toComplex (gam 0 α β)

/-- Hermitian conjugate, with `psibar = psi^dagger gamma^0`. -/
noncomputable def Four.adj (T : Four) : Four := fun p q r s => ∑ α, ∑ β, ∑ γ, ∑ δ,
  g0 p.spin α * g0 β q.spin * g0 r.spin γ * g0 δ s.spin *
    starRingEnd ℂ (T { q with spin := β } { p with spin := α } { s with spin := δ } { r with spin := γ })

/-- An operator of the JMS basis: `(psibar_1 ... psi_2) (psibar_3 ... psi_4)` for all generations. -/
structure JOp where
  name : String
  k1 : Kind
  k2 : Kind
  k3 : Kind
  k4 : Kind
  dir : Dir
  col : Col
  /-- Hermitian conjugation only permutes the flavours. -/
  herm : Bool

/-- Four-fermion operators of the JMS basis with at least two quarks, except those with leptons and up quarks. -/
def jmsOps : List JOp :=
  [⟨"VddLL", .d, .d, .d, .d, .g 1 .L .L, .one, true⟩, ⟨"VddRR", .d, .d, .d, .d, .g 1 .R .R, .one, true⟩,
   ⟨"V1ddLR", .d, .d, .d, .d, .g 1 .L .R, .one, true⟩, ⟨"V8ddLR", .d, .d, .d, .d, .g 1 .L .R, .oct, true⟩,
   ⟨"S1ddRR", .d, .d, .d, .d, .g 0 .R .R, .one, false⟩, ⟨"S8ddRR", .d, .d, .d, .d, .g 0 .R .R, .oct, false⟩,
   ⟨"VuuLL", .u, .u, .u, .u, .g 1 .L .L, .one, true⟩, ⟨"VuuRR", .u, .u, .u, .u, .g 1 .R .R, .one, true⟩,
   ⟨"V1uuLR", .u, .u, .u, .u, .g 1 .L .R, .one, true⟩, ⟨"V8uuLR", .u, .u, .u, .u, .g 1 .L .R, .oct, true⟩,
   ⟨"S1uuRR", .u, .u, .u, .u, .g 0 .R .R, .one, false⟩, ⟨"S8uuRR", .u, .u, .u, .u, .g 0 .R .R, .oct, false⟩,
   ⟨"V1udLL", .u, .u, .d, .d, .g 1 .L .L, .one, true⟩, ⟨"V8udLL", .u, .u, .d, .d, .g 1 .L .L, .oct, true⟩,
   ⟨"V1udRR", .u, .u, .d, .d, .g 1 .R .R, .one, true⟩, ⟨"V8udRR", .u, .u, .d, .d, .g 1 .R .R, .oct, true⟩,
   ⟨"V1udLR", .u, .u, .d, .d, .g 1 .L .R, .one, true⟩, ⟨"V8udLR", .u, .u, .d, .d, .g 1 .L .R, .oct, true⟩,
   ⟨"V1duLR", .d, .d, .u, .u, .g 1 .L .R, .one, true⟩, ⟨"V8duLR", .d, .d, .u, .u, .g 1 .L .R, .oct, true⟩,
   ⟨"S1udRR", .u, .u, .d, .d, .g 0 .R .R, .one, false⟩, ⟨"S8udRR", .u, .u, .d, .d, .g 0 .R .R, .oct, false⟩,
   ⟨"S1udduRR", .u, .d, .d, .u, .g 0 .R .R, .one, false⟩, ⟨"S8udduRR", .u, .d, .d, .u, .g 0 .R .R, .oct, false⟩,
   ⟨"V1udduLR", .u, .d, .d, .u, .g 1 .L .R, .one, false⟩, ⟨"V8udduLR", .u, .d, .d, .u, .g 1 .L .R, .oct, false⟩,
   ⟨"VedLL", .e, .e, .d, .d, .g 1 .L .L, .one, true⟩, ⟨"VedRR", .e, .e, .d, .d, .g 1 .R .R, .one, true⟩,
   ⟨"VedLR", .e, .e, .d, .d, .g 1 .L .R, .one, true⟩, ⟨"VdeLR", .d, .d, .e, .e, .g 1 .L .R, .one, true⟩,
   ⟨"SedRR", .e, .e, .d, .d, .g 0 .R .R, .one, false⟩, ⟨"SedRL", .e, .e, .d, .d, .g 0 .R .L, .one, false⟩,
   ⟨"TedRR", .e, .e, .d, .d, .sg .R .R, .one, false⟩,
   ⟨"VnudLL", .nu, .nu, .d, .d, .g 1 .L .L, .one, true⟩, ⟨"VnudLR", .nu, .nu, .d, .d, .g 1 .L .R, .one, true⟩,
   ⟨"VnueduLL", .nu, .e, .d, .u, .g 1 .L .L, .one, false⟩, ⟨"VnueduLR", .nu, .e, .d, .u, .g 1 .L .R, .one, false⟩,
   ⟨"SnueduRL", .nu, .e, .d, .u, .g 0 .R .L, .one, false⟩, ⟨"SnueduRR", .nu, .e, .d, .u, .g 0 .R .R, .one, false⟩,
   ⟨"TnueduRR", .nu, .e, .d, .u, .sg .R .R, .one, false⟩]

/-- The operators with flavours `prst` and `stpr` are the same if the two bilinears have the same form; such an operator
is counted once. -/
noncomputable def once (name : String) (i : Fin 3 × Fin 3) (j : Fin 3 × Fin 3) : ℂ :=
  if name ∈ jmsExchange ∧ i ≠ j then 1 / 2 else 1

/-- Contribution of an operator with the coefficients `J`. -/
noncomputable def JOp.term (J : JSrc → ℂ) (o : JOp) : Four := fun p q r s =>
  if p.kind = o.k1 ∧ q.kind = o.k2 ∧ r.kind = o.k3 ∧ s.kind = o.k4 then
    once o.name (p.gen, q.gen) (r.gen, s.gen) * J (o.name, [p.gen, q.gen, r.gen, s.gen]) *
      o.dir.val p.spin q.spin r.spin s.spin * o.col.val p.col q.col r.col s.col
  else 0

/-- The Lagrangian of the JMS basis (four-fermion part): every operator once, plus the Hermitian conjugate of operators
that are not Hermitian up to a permutation of the flavours. -/
noncomputable def jmsLag (J : JSrc → ℂ) : Four := fun p q r s =>
  (jmsOps.map fun o => o.term J p q r s + if o.herm then 0 else (o.term J).adj p q r s).sum

/-- Full tensors of a set of JMS coefficients: listed coefficients are kept (absent ones are zero), the others follow from
Hermiticity and exchange of the bilinears. -/
structure JmsFull (L : List String) (C : Dict String ℂ) (J : JSrc → ℂ) : Prop where
  listed : ∀ k i, label k i ∈ L → J (k, i) = Dict.getD C (label k i) 0
  herm : ∀ k ∈ jmsHermitian, ∀ p r s t, J (k, [r, p, t, s]) = starRingEnd ℂ (J (k, [p, r, s, t]))
  exch : ∀ k ∈ jmsExchange, ∀ p r s t, J (k, [s, t, p, r]) = J (k, [p, r, s, t])

/-! ### The Bern basis -/

/-- Name and structure of an operator of the Bern basis; the Dirac structures are added. -/
structure BOp where
  pre : String
  dirs : List Dir
  col : Col

/-- The operators `(fbar_1 ... f_2) (fbar_3 ... f_4)` with fixed flavours. -/
structure Sector where
  f1 : Kind × Fin 3
  f2 : Kind × Fin 3
  f3 : Kind × Fin 3
  f4 : Kind × Fin 3
  suffix : String
  ops : List BOp

/-- `Delta F = 2`. -/
def opsI : List BOp :=
  [⟨"1", [.g 1 .L .L], .one⟩, ⟨"2", [.g 0 .L .L], .one⟩, ⟨"3", [.g 0 .L .L], .cross⟩, ⟨"4", [.g 0 .L .R], .one⟩,
   ⟨"5", [.g 0 .L .R], .cross⟩, ⟨"1p", [.g 1 .R .R], .one⟩, ⟨"2p", [.g 0 .R .R], .one⟩, ⟨"3p", [.g 0 .R .R], .cross⟩]

/-- Charged currents `(ubar d) (lbar nu)`. -/
def opsII : List BOp :=
  [⟨"1", [.g 1 .L .L], .one⟩, ⟨"5", [.g 0 .R .L], .one⟩, ⟨"1p", [.g 1 .R .L], .one⟩, ⟨"5p", [.g 0 .L .L], .one⟩,
   ⟨"7p", [.sg .L .L], .one⟩]

/-- Operators without colour matrices: vector, scalar and tensor currents; the second bilinear has no projector. `V` is the
chirality of the vector currents in the first bilinear of operators without prime and `A` that of the scalar and tensor ones. -/
def opsOdd (V V' A A' : Chir) : List BOp :=
  [⟨"1", [.g 1 V .L, .g 1 V .R], .one⟩, ⟨"3", [.g 3 V .L, .g 3 V .R], .one⟩, ⟨"5", [.g 0 A .L, .g 0 A .R], .one⟩,
   ⟨"7", [.sg A .L, .sg A .R], .one⟩, ⟨"9", [.g 4 A .L, .g 4 A .R], .one⟩,
   ⟨"1p", [.g 1 V' .L, .g 1 V' .R], .one⟩, ⟨"3p", [.g 3 V' .L, .g 3 V' .R], .one⟩, ⟨"5p", [.g 0 A' .L, .g 0 A' .R], .one⟩,
   ⟨"7p", [.sg A' .L, .sg A' .R], .one⟩, ⟨"9p", [.g 4 A' .L, .g 4 A' .R], .one⟩]

/-- The same with colour matrices. -/
def opsEven : List BOp :=
  [⟨"2", [.g 1 .L .L, .g 1 .L .R], .oct⟩, ⟨"4", [.g 3 .L .L, .g 3 .L .R], .oct⟩, ⟨"6", [.g 0 .R .L, .g 0 .R .R], .oct⟩,
   ⟨"8", [.sg .R .L, .sg .R .R], .oct⟩, ⟨"10", [.g 4 .R .L, .g 4 .R .R], .oct⟩,
   ⟨"2p", [.g 1 .R .L, .g 1 .R .R], .oct⟩, ⟨"4p", [.g 3 .R .L, .g 3 .R .R], .oct⟩, ⟨"6p", [.g 0 .L .L, .g 0 .L .R], .oct⟩,
   ⟨"8p", [.sg .L .L, .sg .L .R], .oct⟩, ⟨"10p", [.g 4 .L .L, .g 4 .L .R], .oct⟩]

/-- Neutrinos. -/
def opsNu : List BOp := [⟨"nu1", [.g 1 .L .L], .one⟩, ⟨"nu1p", [.g 1 .R .L], .one⟩]

/-- Flavours in coefficient names. -/
def qname : Kind × Fin 3 → String
  | (.d, 0) => "d"
  | (.d, 1) => "s"
  | (.d, 2) => "b"
  | (.u, 0) => "u"
  | (.u, 1) => "c"
  | (.u, 2) => "t"
  | (_, 0) => "e"
  | (_, 1) => "mu"
  | (_, 2) => "tau"

/-- A sector with the suffix made of its flavours. -/
def sector (ops : List BOp) (f1 f2 f3 f4 : Kind × Fin 3) : Sector :=
  ⟨f1, f2, f3, f4, qname f1 ++ (qname f2 ++ (qname f3 ++ qname f4)), ops⟩

/-- `s -> b`, `d -> b` and `d -> s` (barred flavour first). -/
def ddPairs : List (Fin 3 × Fin 3) := [(1, 2), (0, 2), (0, 1)]

/-- Sectors of the Bern basis that are given by `JMS_to_Bern`. -/
def bernSectors : List Sector :=
  (ddPairs.map fun x => sector opsI (.d, x.1) (.d, x.2) (.d, x.1) (.d, x.2)) ++
  ([0, 1].flatMap fun u => [0, 1, 2].flatMap fun d => [0, 1, 2].flatMap fun l => [0, 1, 2].map fun n =>
    sector opsII (.u, u) (.d, d) (.e, l) (.nu, n)) ++
  (ddPairs.flatMap fun x => [0, 1].flatMap fun u => [0, 1].map fun u' =>
    sector (opsOdd .L .R .R .L ++ opsEven) (.d, x.1) (.d, x.2) (.u, u) (.u, u')) ++
  [sector (opsOdd .L .R .R .L ++ opsEven) (.d, 1) (.d, 2) (.d, 0) (.d, 0),
   sector (opsOdd .L .R .R .L ++ opsEven) (.d, 0) (.d, 2) (.d, 1) (.d, 1),
   sector (opsOdd .L .R .R .L ++ opsEven) (.d, 0) (.d, 1) (.d, 2) (.d, 2)] ++
  [sector (opsOdd .L .R .R .L) (.d, 1) (.d, 2) (.d, 2) (.d, 2), sector (opsOdd .L .R .R .L) (.d, 0) (.d, 2) (.d, 2) (.d, 2),
   sector (opsOdd .L .R .R .L) (.d, 0) (.d, 1) (.d, 1) (.d, 1)] ++
  [sector (opsOdd .L .R .L .R) (.d, 1) (.d, 2) (.d, 1) (.d, 1), sector (opsOdd .L .R .L .R) (.d, 0) (.d, 2) (.d, 0) (.d, 0),
   sector (opsOdd .L .R .L .R) (.d, 0) (.d, 1) (.d, 0) (.d, 0), sector (opsOdd .L .R .L .R) (.d, 1) (.d, 2) (.d, 1) (.d, 0),
   sector (opsOdd .L .R .L .R) (.d, 0) (.d, 2) (.d, 0) (.d, 1)] ++
  (ddPairs.flatMap fun x => [0, 1, 2].flatMap fun l => [0, 1, 2].flatMap fun l' =>
    [sector (opsOdd .L .R .R .L) (.d, x.1) (.d, x.2) (.e, l) (.e, l'), sector opsNu (.d, x.1) (.d, x.2) (.nu, l) (.nu, l')])

/-- Contribution of a sector with the coefficients `c`. -/
noncomputable def Sector.term (c : String → ℂ) (x : Sector) : Four := fun p q r s =>
  if p.flav = x.f1 ∧ q.flav = x.f2 ∧ r.flav = x.f3 ∧ s.flav = x.f4 then
    (x.ops.map fun o => c (o.pre ++ x.suffix) * (o.dirs.map fun D => D.val p.spin q.spin r.spin s.spin).sum *
      o.col.val p.col q.col r.col s.col).sum
  else 0

/-- The Lagrangian `4 G_F / sqrt 2 (sum of C O + h.c.)` of the Bern basis (four-fermion part). -/
noncomputable def bernLag (GF : ℝ) (c : String → ℂ) : Four := fun p q r s =>
  ((4 * GF / Real.sqrt 2 : ℝ) : ℂ) * (bernSectors.map fun x => x.term c p q r s + (x.term c).adj p q r s).sum

/-! ### Dipole operators -/

/-- Field strengths. -/
inductive Boson
  | photon
  | gluon

/-- Coefficient of `dbar_p sigma^{mu nu} P_A d_q X_{mu nu}` in the JMS basis: the operators have `P_R`, those with `P_L` are
their conjugates. -/
noncomputable def jmsDipole (J : JSrc → ℂ) (X : Boson) (A : Chir) (p q : Fin 3) : ℂ :=
  let k := match X with | .photon => "dgamma" | .gluon => "dG"
  match A with
  | .R => J (k, [p, q])
  | .L => starRingEnd ℂ (J (k, [q, p]))

/-- The same coefficient in the Bern basis, with operators `4 G_F / sqrt 2 · e / g_s^2 m_b (...) F` and
`4 G_F / sqrt 2 · 1 / g_s m_b (...) G`. -/
noncomputable def bernDipole (GF alphaE alphaS mb : ℝ) (c : String → ℂ) (X : Boson) (A : Chir) (p q : Fin 3) : ℂ :=
  let e := Real.sqrt (4 * Real.pi * alphaE)
  let gs := Real.sqrt (4 * Real.pi * alphaS)
  let y := qname (.d, p) ++ qname (.d, q)
  match X, A with
  | .photon, .R => ((4 * GF / Real.sqrt 2 * (e / gs ^ 2 * mb) : ℝ) : ℂ) * c ("7gamma" ++ y)
  | .photon, .L => ((4 * GF / Real.sqrt 2 * (e / gs ^ 2 * mb) : ℝ) : ℂ) * c ("7pgamma" ++ y)
  | .gluon, .R => ((4 * GF / Real.sqrt 2 * (1 / gs * mb) : ℝ) : ℂ) * c ("8g" ++ y)
  | .gluon, .L => ((4 * GF / Real.sqrt 2 * (1 / gs * mb) : ℝ) : ℂ) * c ("8pg" ++ y)

/-- The fields are those of a sector or of its conjugate, in any order. -/
def Sector.Has (x : Sector) (p q r s : Leg) : Prop :=
  ((p.flav = x.f1 ∧ r.flav = x.f3) ∨ (p.flav = x.f3 ∧ r.flav = x.f1)) ∧
  ((q.flav = x.f2 ∧ s.flav = x.f4) ∨ (q.flav = x.f4 ∧ s.flav = x.f2))

/-- The fields of a process that is described by the Bern basis. -/
def Covered (p q r s : Leg) : Prop := ∃ x ∈ bernSectors, x.Has p q r s ∨ x.Has q p s r

end Verif.Spec
