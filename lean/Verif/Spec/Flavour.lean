import Verif.Spec.Lagrangian

/-!
Flavour content of Wilson coefficients, read off from their names as defined by the bases (WET JMS, Bern, flavio, FormFlavor,
EOS).
-/

set_option autoImplicit false

namespace Verif.Spec

/-- Flavours of the barred and of the unbarred fields of an operator. -/
structure Flavour where
  bar : List (Kind × Fin 3)
  fld : List (Kind × Fin 3)
  deriving DecidableEq

/-- Flavours of the Hermitian conjugate operator. -/
def Flavour.conj (f : Flavour) : Flavour := ⟨f.fld, f.bar⟩

/-- The same fields, in any order. -/
def Flavour.Same (f g : Flavour) : Prop := f.bar.Perm g.bar ∧ f.fld.Perm g.fld

instance (f g : Flavour) : Decidable (f.Same g) := inferInstanceAs (Decidable (_ ∧ _))

/-- Factor of an operator if every field `psi_x` is replaced by `phi_x psi_x`. -/
noncomputable def Flavour.weight (φ : Kind × Fin 3 → ℂ) (f : Flavour) : ℂ :=
  (f.bar.map fun x => starRingEnd ℂ (φ x)).prod * (f.fld.map φ).prod

/-- Number of unbarred minus number of barred fields. -/
def Flavour.charge (f : Flavour) (x : Kind × Fin 3) : ℤ := (f.fld.count x : ℤ) - (f.bar.count x : ℤ)

/-! ### JMS -/

/-- Dipole operators of the JMS basis. -/
def jmsDipoles : List (String × Kind) := [("dgamma", .d), ("dG", .d), ("ugamma", .u), ("uG", .u), ("egamma", .e)]

/-- Flavour of a JMS coefficient. -/
def jmsFlavour (s : JSrc) : Option Flavour :=
  match s.2 with
  | [a, b] => (jmsDipoles.find? fun o => o.1 == s.1).map fun o => ⟨[(o.2, a)], [(o.2, b)]⟩
  | [a, b, c, d] => (jmsOps.find? fun o => o.name == s.1).map fun o => ⟨[(o.k1, a), (o.k3, c)], [(o.k2, b), (o.k4, d)]⟩
  | _ => none

/-! ### Names made of flavours -/

/-- Flavours written one after the other: `d`, `s`, `b`, `u`, `c`, `e`, `mu`, `tau`, `nue`, `numu`, `nutau`. -/
def fields : List Char → Option (List (Kind × Fin 3))
  | [] => some []
  | 'n' :: 'u' :: 'e' :: r => (fields r).map ((.nu, 0) :: ·)
  | 'n' :: 'u' :: 'm' :: 'u' :: r => (fields r).map ((.nu, 1) :: ·)
  | 'n' :: 'u' :: 't' :: 'a' :: 'u' :: r => (fields r).map ((.nu, 2) :: ·)
  | 'm' :: 'u' :: r => (fields r).map ((.e, 1) :: ·)
  | 't' :: 'a' :: 'u' :: r => (fields r).map ((.e, 2) :: ·)
  | 'e' :: r => (fields r).map ((.e, 0) :: ·)
  | 'd' :: r => (fields r).map ((.d, 0) :: ·)
  | 's' :: r => (fields r).map ((.d, 1) :: ·)
  | 'b' :: r => (fields r).map ((.d, 2) :: ·)
  | 'u' :: r => (fields r).map ((.u, 0) :: ·)
  | 'c' :: r => (fields r).map ((.u, 1) :: ·)
  | _ => none

/-- The same with the letters `m` and `t` for the heavier leptons. -/
def letters : List Char → Option (List (Kind × Fin 3))
  | [] => some []
  | 'd' :: r => (letters r).map ((.d, 0) :: ·)
  | 's' :: r => (letters r).map ((.d, 1) :: ·)
  | 'b' :: r => (letters r).map ((.d, 2) :: ·)
  | 'u' :: r => (letters r).map ((.u, 0) :: ·)
  | 'c' :: r => (letters r).map ((.u, 1) :: ·)
  | 'e' :: r => (letters r).map ((.e, 0) :: ·)
  | 'm' :: r => (letters r).map ((.e, 1) :: ·)
  | 't' :: r => (letters r).map ((.e, 2) :: ·)
  | _ => none

/-- Everything after the underscore. -/
def afterUnderscore (n : String) : List Char := (n.toList.dropWhile (· ≠ '_')).drop 1

/-- Quarks. -/
def isQuark (x : Kind × Fin 3) : Bool := x.1 = .u ∨ x.1 = .d

/-- Transitions `x → y`: `(ybar x)`, `(ybar x)(ybar' x')` for four quarks, `(ybar x)(lbar l')` with leptons. -/
def transition : List (Kind × Fin 3) → Option Flavour
  | [x, y] => some ⟨[y], [x]⟩
  | [x, y, z, w] => some (if isQuark z then ⟨[y, w], [x, z]⟩ else ⟨[y, z], [x, w]⟩)
  | _ => none

/-- Flavour of a flavio coefficient: `C7_bs`, `CVLL_bsbs`, `C9_bsmumu`, `CVL_bcmunumu`, `CL_bsnuenumu`. -/
def flavioFlavour (n : String) : Option Flavour := (fields (afterUnderscore n)).bind transition

/-- Flavour of a FormFlavor coefficient: `CVLL_bsbs`, `CSLR_bsmm`, dipoles `CAR_sb` (barred field first). The averages over
neutrinos, `.._sdnn`, are not included. -/
def formFlavorFlavour (n : String) : Option Flavour :=
  match letters (afterUnderscore n) with
  | some [x, y] => some ⟨[x], [y]⟩
  | some l => transition l
  | none => none

/-- The neutrino of the same generation. -/
def toNu (x : Kind × Fin 3) : Kind × Fin 3 := (.nu, x.2)

/-- A Bern name without the number of the operator, and whether the leptons are neutrinos. -/
def bernTail (n : List Char) : Bool × List Char :=
  let nu := n.take 2 = ['n', 'u']
  let r := (if nu then n.drop 2 else n).dropWhile Char.isDigit
  let r := if r.head? = some 'p' then r.drop 1 else r
  let r := if r.take 5 = ['g', 'a', 'm', 'm', 'a'] then r.drop 5 else if r.head? = some 'g' then r.drop 1 else r
  (nu, r)

/-- Flavour of a Bern coefficient: `1sbsb`, `1ubmue` (the last one is a neutrino), `3sbuu`, `9sbmumu`, `nu1sbemu` (neutrinos),
`7gammasb`; barred and unbarred fields alternate. -/
def bernFlavour (n : String) : Option Flavour :=
  let t := bernTail n.toList
  match fields t.2 with
  | some [x, y] => some ⟨[x], [y]⟩
  | some [x, y, z, w] =>
    if t.1 then some ⟨[x, toNu z], [y, toNu w]⟩
    else if x.1 = .u ∧ y.1 = .d ∧ !isQuark w then some ⟨[x, z], [y, toNu w]⟩
    else some ⟨[x, z], [y, w]⟩
  | _ => none

/-- Flavour of an EOS coefficient: `b->s::c1`, `b->smumu::c9`, `b->uenue::cVL`. Pairs of a quark and its antiparticle are not part
of the name. -/
def eosFlavour (n : String) : Option Flavour :=
  match fields ((n.toList.drop 3).takeWhile (· ≠ ':')) with
  | some [x] => some ⟨[x], [(.d, 2)]⟩
  | some [x, l, l'] => some ⟨[x, l], [(.d, 2), l']⟩
  | _ => none

example : flavioFlavour "CVL_bcmunutau" = some ⟨[(.u, 1), (.e, 1)], [(.d, 2), (.nu, 2)]⟩ ∧
    flavioFlavour "C9_bsemu" = some ⟨[(.d, 1), (.e, 0)], [(.d, 2), (.e, 1)]⟩ ∧
    bernFlavour "7pgammasb" = some ⟨[(.d, 1)], [(.d, 2)]⟩ ∧
    bernFlavour "1ubmue" = some ⟨[(.u, 0), (.e, 1)], [(.d, 2), (.nu, 0)]⟩ ∧
    bernFlavour "nu1psbtaue" = some ⟨[(.d, 1), (.nu, 2)], [(.d, 2), (.nu, 0)]⟩ ∧
    bernFlavour "10psbuc" = some ⟨[(.d, 1), (.u, 0)], [(.d, 2), (.u, 1)]⟩ ∧
    formFlavorFlavour "CSLR_bsmm" = some ⟨[(.d, 1), (.e, 1)], [(.d, 2), (.e, 1)]⟩ ∧
    eosFlavour "b->uenue::cVL" = some ⟨[(.u, 0), (.e, 0)], [(.d, 2), (.nu, 0)]⟩ ∧
    jmsFlavour ("VnueduLL", [0, 1, 2, 0]) = some ⟨[(.nu, 0), (.d, 2)], [(.e, 1), (.u, 0)]⟩ := by decide +kernel

end Verif.Spec
