import Verif.Spec.Lagrangian
import Verif.Spec.Flat
import Mathlib.Analysis.Real.Pi.Bounds

/-!
Tree-level effective Lagrangian below the electroweak scale, from the four-fermion operators of the Warsaw basis and the
exchange of Z and W bosons, written from the definition of the operators and of the currents.
-/

set_option autoImplicit false

namespace Verif.Spec

/-- `(kbar_1 ... k_2) (kbar_3 ... k_4)` with the coefficients `f` for all generations. -/
noncomputable def mono (k1 k2 k3 k4 : Kind) (D : Dir) (c : Col) (f : Fin 3 × Fin 3 × Fin 3 × Fin 3 → ℂ) : Four := fun p q r s =>
  if p.kind = k1 ∧ q.kind = k2 ∧ r.kind = k3 ∧ s.kind = k4 then
    f (p.gen, q.gen, r.gen, s.gen) * D.val p.spin q.spin r.spin s.spin * c.val p.col q.col r.col s.col
  else 0

/-- The tensor of a coefficient. -/
def tens (J : JSrc → ℂ) (k : String) : Fin 3 × Fin 3 × Fin 3 × Fin 3 → ℂ := fun i => J (k, [i.1, i.2.1, i.2.2.1, i.2.2.2])

/-! ### The WET in the JMS basis -/

/-- Four-fermion operators of the JMS basis that conserve baryon and lepton number. -/
def wetOps : List JOp := jmsOps ++
  [⟨"VnunuLL", .nu, .nu, .nu, .nu, .g 1 .L .L, .one, true⟩, ⟨"VeeLL", .e, .e, .e, .e, .g 1 .L .L, .one, true⟩,
   ⟨"VnueLL", .nu, .nu, .e, .e, .g 1 .L .L, .one, true⟩, ⟨"VnuuLL", .nu, .nu, .u, .u, .g 1 .L .L, .one, true⟩,
   ⟨"VeuLL", .e, .e, .u, .u, .g 1 .L .L, .one, true⟩, ⟨"VeeRR", .e, .e, .e, .e, .g 1 .R .R, .one, true⟩,
   ⟨"VeuRR", .e, .e, .u, .u, .g 1 .R .R, .one, true⟩, ⟨"VnueLR", .nu, .nu, .e, .e, .g 1 .L .R, .one, true⟩,
   ⟨"VeeLR", .e, .e, .e, .e, .g 1 .L .R, .one, true⟩, ⟨"VnuuLR", .nu, .nu, .u, .u, .g 1 .L .R, .one, true⟩,
   ⟨"VeuLR", .e, .e, .u, .u, .g 1 .L .R, .one, true⟩, ⟨"VueLR", .u, .u, .e, .e, .g 1 .L .R, .one, true⟩,
   ⟨"SeuRL", .e, .e, .u, .u, .g 0 .R .L, .one, false⟩, ⟨"SeeRR", .e, .e, .e, .e, .g 0 .R .R, .one, false⟩,
   ⟨"SeuRR", .e, .e, .u, .u, .g 0 .R .R, .one, false⟩, ⟨"TeuRR", .e, .e, .u, .u, .sg .R .R, .one, false⟩]

/-- An operator with its full coefficient tensor: all generations are summed. -/
noncomputable def JOp.mono (J : JSrc → ℂ) (o : JOp) : Four := Spec.mono o.k1 o.k2 o.k3 o.k4 o.dir o.col (tens J o.name)

/-- The Lagrangian with the sum over all generations (arXiv:1709.04486): operators that are related by an exchange of the
bilinears or by a Fierz identity all appear. -/
noncomputable def wetLag (J : JSrc → ℂ) : Four := fun p q r s =>
  (wetOps.map fun o => o.mono J p q r s + if o.herm then 0 else (o.mono J).adj p q r s).sum

/-! ### Contact terms of the SMEFT -/

/-- Components of a multiplet, with their index. Singlets have one component. -/
def Fld.comps : Fld → List (Fin 2 × Kind)
  | .l => [(0, .nu), (1, .e)]
  | .q => [(0, .u), (1, .d)]
  | .e => [(0, .e)]
  | .u => [(0, .u)]
  | .d => [(0, .d)]

/-- Contraction of the indices of doublets: `δ_ab δ_cd`, `τ^I_ab τ^I_cd`, `ε_ac` and `δ_ad`. -/
inductive Iso
  | one
  | triplet
  | eps
  | mixed

/-- Pauli matrices. -/
def pauli : Fin 3 → Matrix (Fin 2) (Fin 2) GaussianInt
  | 0 => !![0, 1; 1, 0]
  | 1 => !![0, -gI; gI, 0]
  | 2 => !![1, 0; 0, -1]

/-- Entry of a contraction. -/
def Iso.val : Iso → Fin 2 → Fin 2 → Fin 2 → Fin 2 → ℤ
  | .one, a, b, c, d => if a = b ∧ c = d then 1 else 0
  | .triplet, a, b, c, d => 2 * (if a = d ∧ c = b then 1 else 0) - if a = b ∧ c = d then 1 else 0
  | .eps, a, _, c, _ => if a = 0 ∧ c = 1 then 1 else if a = 1 ∧ c = 0 then -1 else 0
  | .mixed, a, _, _, d => if a = d then 1 else 0

/-- The contraction of two triplets is the sum over the Pauli matrices. -/
theorem triplet_pauli : ∀ a b c d, ((Iso.val .triplet a b c d : ℤ) : GaussianInt) = ∑ I, pauli I a b * pauli I c d := by
  decide +kernel

/-- A four-fermion operator of the Warsaw basis. -/
structure WOp where
  name : String
  f1 : Fld
  f2 : Fld
  f3 : Fld
  f4 : Fld
  dir : Dir
  col : Col
  iso : Iso
  /-- Hermitian conjugation only permutes the flavours. -/
  herm : Bool

/-- Four-fermion operators of the Warsaw basis that conserve baryon number (table 3 of arXiv:1008.4884). -/
def warsawOps : List WOp :=
  [⟨"ll", .l, .l, .l, .l, .g 1 .L .L, .one, .one, true⟩, ⟨"qq1", .q, .q, .q, .q, .g 1 .L .L, .one, .one, true⟩,
   ⟨"qq3", .q, .q, .q, .q, .g 1 .L .L, .one, .triplet, true⟩, ⟨"lq1", .l, .l, .q, .q, .g 1 .L .L, .one, .one, true⟩,
   ⟨"lq3", .l, .l, .q, .q, .g 1 .L .L, .one, .triplet, true⟩,
   ⟨"ee", .e, .e, .e, .e, .g 1 .R .R, .one, .one, true⟩, ⟨"uu", .u, .u, .u, .u, .g 1 .R .R, .one, .one, true⟩,
   ⟨"dd", .d, .d, .d, .d, .g 1 .R .R, .one, .one, true⟩, ⟨"eu", .e, .e, .u, .u, .g 1 .R .R, .one, .one, true⟩,
   ⟨"ed", .e, .e, .d, .d, .g 1 .R .R, .one, .one, true⟩, ⟨"ud1", .u, .u, .d, .d, .g 1 .R .R, .one, .one, true⟩,
   ⟨"ud8", .u, .u, .d, .d, .g 1 .R .R, .oct, .one, true⟩,
   ⟨"le", .l, .l, .e, .e, .g 1 .L .R, .one, .one, true⟩, ⟨"lu", .l, .l, .u, .u, .g 1 .L .R, .one, .one, true⟩,
   ⟨"ld", .l, .l, .d, .d, .g 1 .L .R, .one, .one, true⟩, ⟨"qe", .q, .q, .e, .e, .g 1 .L .R, .one, .one, true⟩,
   ⟨"qu1", .q, .q, .u, .u, .g 1 .L .R, .one, .one, true⟩, ⟨"qu8", .q, .q, .u, .u, .g 1 .L .R, .oct, .one, true⟩,
   ⟨"qd1", .q, .q, .d, .d, .g 1 .L .R, .one, .one, true⟩, ⟨"qd8", .q, .q, .d, .d, .g 1 .L .R, .oct, .one, true⟩,
   ⟨"ledq", .l, .e, .d, .q, .g 0 .R .L, .one, .mixed, false⟩,
   ⟨"quqd1", .q, .u, .q, .d, .g 0 .R .R, .one, .eps, false⟩, ⟨"quqd8", .q, .u, .q, .d, .g 0 .R .R, .oct, .eps, false⟩,
   ⟨"lequ1", .l, .e, .q, .u, .g 0 .R .R, .one, .eps, false⟩, ⟨"lequ3", .l, .e, .q, .u, .sg .R .R, .one, .eps, false⟩]

/-- An operator in components, with its full coefficient tensor. -/
noncomputable def WOp.lag (S : JSrc → ℂ) (o : WOp) : Four := fun p q r s =>
  (o.f1.comps.map fun a => (o.f2.comps.map fun b => (o.f3.comps.map fun c => (o.f4.comps.map fun d =>
    (Iso.val o.iso a.1 b.1 c.1 d.1 : ℂ) * mono a.2 b.2 c.2 d.2 o.dir o.col (tens S o.name) p q r s).sum).sum).sum).sum

/-- Contact terms, with the sum over all generations. -/
noncomputable def contactLag (S : JSrc → ℂ) : Four := fun p q r s =>
  (warsawOps.map fun o => o.lag S p q r s + if o.herm then 0 else (o.lag S).adj p q r s).sum

/-! ### Exchange of Z and W bosons -/

/-- Couplings and masses. -/
structure Couplings where
  v : ℝ
  g2 : ℝ
  gZ : ℝ
  sW : ℝ
  cW : ℝ
  mW : ℝ
  mZ : ℝ

/-- Fermions by chirality. -/
def chirals : List (Chir × Kind) := [(.L, .nu), (.L, .e), (.R, .e), (.L, .u), (.R, .u), (.L, .d), (.R, .d)]

/-- Third component of weak isospin. -/
noncomputable def isospin : Chir × Kind → ℝ
  | (.R, _) => 0
  | (.L, .nu) => 1 / 2
  | (.L, .u) => 1 / 2
  | (.L, .e) => -(1 / 2)
  | (.L, .d) => -(1 / 2)

/-- Electric charge. -/
noncomputable def charge : Kind → ℝ
  | .nu => 0
  | .e => -1
  | .u => 2 / 3
  | .d => -(1 / 3)

/-- The operators `(φ† i D φ) (ψbar γ ψ)` and `(φ† i D^I φ) (ψbar τ^I γ ψ)` that shift the couplings to the Z. -/
def zNames : Chir × Kind → Option String × Option String
  | (.L, .nu) => (some "phil1", some "phil3")
  | (.L, .e) => (some "phil1", some "phil3")
  | (.L, .u) => (some "phiq1", some "phiq3")
  | (.L, .d) => (some "phiq1", some "phiq3")
  | (.R, .e) => (some "phie", none)
  | (.R, .u) => (some "phiu", none)
  | (.R, .d) => (some "phid", none)
  | (.R, .nu) => (none, none)

/-- Entry of a matrix that may be absent. -/
def shift (S : JSrc → ℂ) (k : Option String) (i : Fin 3 × Fin 3) : ℂ := k.elim 0 fun k => S (k, [i.1, i.2])

/-- Coupling to the Z in units of `gZ`: `T3 - Q sin^2` plus the shift by the operators. -/
noncomputable def zCoup (S : JSrc → ℂ) (c : Couplings) (x : Chir × Kind) (i : Fin 3 × Fin 3) : ℂ :=
  ((isospin x - charge x.2 * c.sW ^ 2 : ℝ) : ℂ) * (if i.1 = i.2 then 1 else 0)
    - ((c.v ^ 2 / 2 : ℝ) : ℂ) * shift S (zNames x).1 i + ((isospin x * c.v ^ 2 : ℝ) : ℂ) * shift S (zNames x).2 i

/-- Charged currents, with positive charge. -/
def charged : List (Chir × Kind × Kind) := [(.L, .nu, .e), (.L, .u, .d), (.R, .u, .d)]

/-- Coupling of a charged current to the W in units of `g2 / sqrt 2`. -/
noncomputable def wCoup (S : JSrc → ℂ) (c : Couplings) : Chir × Kind × Kind → Fin 3 × Fin 3 → ℂ
  | (.L, .nu, _), i => (if i.1 = i.2 then 1 else 0) + ((c.v ^ 2 : ℝ) : ℂ) * S ("phil3", [i.1, i.2])
  | (.L, _, _), i => (if i.1 = i.2 then 1 else 0) + ((c.v ^ 2 : ℝ) : ℂ) * S ("phiq3", [i.1, i.2])
  | (.R, _, _), i => ((c.v ^ 2 / 2 : ℝ) : ℂ) * S ("phiud", [i.1, i.2])

/-- Z exchange: `- gZ^2 / (2 mZ^2) J J`. -/
noncomputable def zLag (S : JSrc → ℂ) (c : Couplings) : Four := fun p q r s =>
  -((c.gZ ^ 2 / (2 * c.mZ ^ 2) : ℝ) : ℂ) * (chirals.map fun x => (chirals.map fun y =>
    mono x.2 x.2 y.2 y.2 (.g 1 x.1 y.1) .one (fun i => zCoup S c x (i.1, i.2.1) * zCoup S c y (i.2.2.1, i.2.2.2)) p q r s).sum).sum

/-- W exchange: `- g2^2 / (2 mW^2) J^+ J^-`. -/
noncomputable def wLag (S : JSrc → ℂ) (c : Couplings) : Four := fun p q r s =>
  -((c.g2 ^ 2 / (2 * c.mW ^ 2) : ℝ) : ℂ) * (charged.map fun x => (charged.map fun y =>
    mono x.2.1 x.2.2 y.2.2 y.2.1 (.g 1 x.1 y.1) .one
      (fun i => wCoup S c x (i.1, i.2.1) * starRingEnd ℂ (wCoup S c y (i.2.2.2, i.2.2.1))) p q r s).sum).sum

/-- The effective Lagrangian at tree level. -/
noncomputable def treeLag (S : JSrc → ℂ) (c : Couplings) : Four := fun p q r s =>
  contactLag S p q r s + zLag S c p q r s + wLag S c p q r s

/-! ### Dipoles -/

/-- The operators `(ψbar σ ψ) φ B`, `(ψbar τ^I σ ψ) φ W^I` and `(ψbar T^A σ ψ) φ G^A` of a fermion. -/
def dipoleNames : Kind → String × String × String
  | .e => ("eB", "eW", "eG")
  | .u => ("uB", "uW", "uG")
  | .d => ("dB", "dW", "dG")
  | .nu => ("", "", "")

/-- Coefficient of `ψbar_p σ P_R ψ_r F` or of the same with gluons: `φ` becomes `v / sqrt 2`, the photon is the part `sin` of `W^3` and the
part `cos` of `B`, and `τ^3` gives twice the isospin of the left-handed fermion. -/
noncomputable def treeDipole (S : JSrc → ℂ) (c : Couplings) (X : Boson) (k : Kind) (p r : Fin 3) : ℂ :=
  ((c.v / Real.sqrt 2 : ℝ) : ℂ) * match X with
  | .photon => ((2 * isospin (.L, k) * c.sW : ℝ) : ℂ) * S ((dipoleNames k).2.1, [p, r]) + ((c.cW : ℝ) : ℂ) * S ((dipoleNames k).1, [p, r])
  | .gluon => S ((dipoleNames k).2.2, [p, r])

/-- Dipole operators of the WET in the JMS basis. -/
def wetDipoles : List (String × Boson × Kind) :=
  [("egamma", .photon, .e), ("ugamma", .photon, .u), ("dgamma", .photon, .d), ("uG", .gluon, .u), ("dG", .gluon, .d)]

/-! ### Couplings from the input parameters -/

/-- The couplings in terms of the Fermi constant, the masses of W and Z and the fine-structure constant: equation (6.4) of
arXiv:1709.04486 for the vacuum expectation value and (2.22) to (2.26) for the others, `ε = v^2 C_phiWB`. -/
noncomputable def couplings (GF mW mZ α : ℝ) (S : JSrc → ℂ) : Couplings :=
  let v := √(1 / √2 / ‖(GF : ℂ) - ((√2 / 4 : ℝ) : ℂ) *
    (-S ("ll", [1, 0, 0, 1]) - S ("ll", [0, 1, 1, 0]) + 2 * S ("phil3", [1, 1]) + 2 * S ("phil3", [0, 0]))‖)
  let ε := (S ("phiWB", [])).re * v ^ 2
  let g2 := 2 * mW / v
  let e := √(4 * Real.pi * α)
  let g1 := e * g2 / √(g2 ^ 2 - e ^ 2) + e ^ 2 * g2 / (g2 ^ 2 - e ^ 2) * ε
  let sW := g1 / √(g1 ^ 2 + g2 ^ 2) * (1 + ε / 2 * g2 / g1 * ((g2 ^ 2 - g1 ^ 2) / (g1 ^ 2 + g2 ^ 2)))
  let cW := g2 / √(g1 ^ 2 + g2 ^ 2) * (1 - ε / 2 * g1 / g2 * ((g2 ^ 2 - g1 ^ 2) / (g1 ^ 2 + g2 ^ 2)))
  let ebar := g2 * sW - 1 / 2 * cW * g2 * ε
  ⟨v, g2, ebar / (sW * cW) * (1 + (g1 ^ 2 + g2 ^ 2) / (2 * g1 * g2) * ε), sW, cW, mW, mZ⟩

/-! ### Coefficients and tensors -/

/-- Tensors of a set of Warsaw coefficients: coefficients of independent entries are kept (absent ones are zero), the others
follow from the relations of the operator. -/
structure SmeftFull (d : Dict String ℂ) (S : JSrc → ℂ) : Prop where
  listed : ∀ k op i, IsOp k op → Indep op i → S (k, i) = Dict.getD d (label k i) 0
  real : ∀ k, IsOp k .boson → (S (k, [])).im = 0
  rel2 : ∀ k x y c, IsOp k (.two x y) → cls2 x y = some c → Rel2 c fun i => S (k, [i.1, i.2])
  rel4 : ∀ k x y z w c, IsOp k (.four x y z w) → cls4 x y z w = some c → Rel4 c fun i => S (k, [i.1, i.2.1, i.2.2.1, i.2.2.2])

/-- Whether the two bilinears have the same form. -/
def JOp.same (o : JOp) : Bool := o.k1 = o.k3 && o.k2 = o.k4 && match o.dir with
  | .g _ A B => A = B
  | .sg A B => A = B

/-- Tensors of a set of WET coefficients: listed coefficients are kept (absent ones are zero), the others follow from Hermiticity
and exchange of the bilinears. -/
structure WetFull (L : List String) (C : Dict String ℂ) (J : JSrc → ℂ) : Prop where
  listed : ∀ o ∈ wetOps, ∀ p r s t, label o.name [p, r, s, t] ∈ L → J (o.name, [p, r, s, t]) = Dict.getD C (label o.name [p, r, s, t]) 0
  herm : ∀ o ∈ wetOps, o.herm = true → ∀ p r s t, J (o.name, [r, p, t, s]) = starRingEnd ℂ (J (o.name, [p, r, s, t]))
  exch : ∀ o ∈ wetOps, o.same = true → ∀ p r s t, J (o.name, [s, t, p, r]) = J (o.name, [p, r, s, t])

/-- The WET has no top quark. -/
def Kind.Light (k : Kind) (g : Fin 3) : Prop := k = .u → g ≠ 2

/-- Flavours of an operator without top quark. -/
def JOp.Light (o : JOp) (p r s t : Fin 3) : Prop := o.k1.Light p ∧ o.k2.Light r ∧ o.k3.Light s ∧ o.k4.Light t

/-- Of the coefficients related by Hermiticity and exchange of the bilinears, one is listed. -/
def WetListing (L : List String) : Prop := ∀ o ∈ wetOps, ∀ p r s t, o.Light p r s t → label o.name [p, r, s, t] ∈ L ∨
  o.herm = true ∧ label o.name [r, p, t, s] ∈ L ∨ o.same = true ∧ label o.name [s, t, p, r] ∈ L ∨
  o.herm = true ∧ o.same = true ∧ label o.name [t, s, r, p] ∈ L

/-- Whether a Fierz identity relates the operators with flavours `prst` and `ptsr`: equal currents of leptons. -/
def JOp.fierz (o : JOp) : Bool := decide (o.name ∈ ["VnunuLL", "VeeLL", "VeeRR"])

/-- Tensors of a set of WET coefficients that also respect the Fierz identities. -/
structure WetFierz (L : List String) (C : Dict String ℂ) (J : JSrc → ℂ) : Prop extends WetFull L C J where
  fierz : ∀ o ∈ wetOps, o.fierz = true → ∀ p r s t, J (o.name, [p, t, s, r]) = J (o.name, [p, r, s, t])

/-- The same if operators related by a Fierz identity are listed only once. -/
def WetListingFierz (L : List String) : Prop := ∀ o ∈ wetOps, ∀ p r s t, o.Light p r s t →
  (∃ i ∈ [[p, r, s, t]] ++ (if o.herm then [[r, p, t, s]] else []) ++ (if o.same then [[s, t, p, r]] else []) ++
    (if o.herm && o.same then [[t, s, r, p]] else []) ++ (if o.fierz then [[p, t, s, r], [t, p, r, s], [s, r, p, t], [r, s, t, p]] else []),
    label o.name i ∈ L)

/-! ### Mass basis -/

/-- Rotation of an unbarred field: `d_L -> V d_L`. -/
noncomputable def rotUn (V : Matrix (Fin 3) (Fin 3) ℂ) (q : Leg) (g : Fin 3) : ℂ :=
  if q.kind = .d ∧ q.spin.val < 2 then V g q.gen else if g = q.gen then 1 else 0

/-- Rotation of a barred field; the bar exchanges the two halves of a spinor. -/
noncomputable def rotBar (V : Matrix (Fin 3) (Fin 3) ℂ) (p : Leg) (g : Fin 3) : ℂ :=
  if p.kind = .d ∧ 2 ≤ p.spin.val then starRingEnd ℂ (V g p.gen) else if g = p.gen then 1 else 0

/-- A Lagrangian after the rotation `d_L -> V d_L`. -/
noncomputable def Four.rotL (V : Matrix (Fin 3) (Fin 3) ℂ) (T : Four) : Four := fun p q r s => ∑ a, ∑ b, ∑ c, ∑ d,
  rotBar V p a * rotUn V q b * rotBar V r c * rotUn V s d *
    T { p with gen := a } { q with gen := b } { r with gen := c } { s with gen := d }

/-- Leptons have no colour. -/
def Leg.Phys (p : Leg) : Prop := p.kind = .e ∨ p.kind = .nu → p.col = 0

/-- A field that is not the top quark. -/
def Leg.Light (p : Leg) : Prop := p.kind.Light p.gen

/-- Processes that are not affected by the normalisation of operators with two equal bilinears: other fields than down quarks
take part, or both bilinears have the same flavours. -/
def Unweighted (p q r s : Leg) : Prop := (∃ x ∈ [p, q, r, s], x.kind ≠ .d) ∨ p.gen = r.gen ∧ q.gen = s.gen

end Verif.Spec
