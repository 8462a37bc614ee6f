import Mathlib.Analysis.Real.Pi.Bounds
import Mathlib.Analysis.Complex.Basic
import Verif.Model.SmeftTrans
import Verif.Model.Wet
import Verif.Model.Classes

/-!
Matching of the SMEFT onto the WET at tree level (matchers/smeft.py), the rotation of the down-type quarks
(translators/wet.py `rotate_down`) and the registered matchers (matchers/__init__.py).

Numbers are exact. The registry accesses `wcxf.Basis[...].all_wcs` are parameters. The coupling of the neutral
gauge bosons is evaluated once per coefficient set (`ewOf`), while the code evaluates it in every formula; all
formulas are evaluated on every call, so a failure of `ewOf` is a failure of the call. A division by zero is
ZeroDivisionError for Python numbers and gives an infinity or NaN for numpy numbers; the model gives
ZeroDivisionError for both.
-/

set_option autoImplicit false

namespace Verif

/-! ### Access to arrays -/

/-- What the formulas read from the dictionary of arrays `C`: `C[k]` of shape (3, 3) and (3, 3, 3, 3), the number
`C["phiWB"]` (real after `symmetrize`, of shape () or (1,)), and `C["G"]`, `C["Gtilde"]`. -/
structure Src where
  mt : String → Ix2 → ℂ
  tn : String → Ix4 → ℂ
  phiWB : ℝ
  G : Arr
  Gtilde : Arr

/-- The shape of an array. -/
def Arr.hasShape : Arr → Shape → Bool
  | .num _, .one => true
  | .one _, .one => true
  | .mat _, .two => true
  | .ten _, .four => true
  | _, _ => false

/-- Every name of `WC_keys` is present with its shape, as the subscripts in the formulas require. The caller
passes the result of `add_missing`. -/
def checkArrays (C : Dict String Arr) : Except PyErr Unit :=
  wcKeys.forM fun k => do
    let a ← Dict.get C k
    let s ← Dict.get shapeTable k
    if a.hasShape s then pure () else .error .unmodelled

/-- The arrays of `C` as the formulas read them. -/
def srcOf (C : Dict String Arr) : Src where
  mt k := match Dict.find C k with
    | some (.mat m) => m
    | _ => 0
  tn k := match Dict.find C k with
    | some (.ten t) => t
    | _ => 0
  phiWB := match Dict.find C "phiWB" with
    | some (.num v) => v.re
    | some (.one v) => v.re
    | _ => 0
  G := (Dict.find C "G").getD (.num 0)
  Gtilde := (Dict.find C "Gtilde").getD (.num 0)

/-! ### Couplings -/

/-- matchers/smeft.py:16-19 `vT`. -/
noncomputable def vT (C : Src) (p : Par) : Except PyErr ℝ := do
  let GF ← Dict.get p "GF"
  let GFx : ℂ := GF - (Real.sqrt 2 / 4 : ℝ) * (-C.tn "ll" (1, 0, 0, 1) - C.tn "ll" (0, 1, 1, 0)
    + 2 * C.mt "phil3" (1, 1) + 2 * C.mt "phil3" (0, 0))
  let x ← divE (1 / Real.sqrt 2) ‖GFx‖
  sqrtE x

/-- matchers/smeft.py:22-23 `eps`. -/
noncomputable def eps (C : Src) (p : Par) : Except PyErr ℝ := do
  let v ← vT C p
  return C.phiWB * v ^ 2

/-- matchers/smeft.py:26-28 `g2b`. -/
noncomputable def g2b (C : Src) (p : Par) : Except PyErr ℝ := do
  let mW ← Dict.get p "m_W"
  let v ← vT C p
  divE (2 * mW) v

/-- matchers/smeft.py:30-33 `g1b`. -/
noncomputable def g1b (C : Src) (p : Par) : Except PyErr ℝ := do
  let alpha_e ← Dict.get p "alpha_e"
  let e ← sqrtE (4 * Real.pi * alpha_e)
  let g ← g2b C p
  let r ← sqrtE (g ^ 2 - e ^ 2)
  let x ← divE (e * g) r
  let y ← divE (e ^ 2 * g) (g ^ 2 - e ^ 2)
  let ε ← eps C p
  return x + y * ε

/-- matchers/smeft.py:36-37 `sb`. -/
noncomputable def sb (C : Src) (p : Par) : Except PyErr ℝ := do
  let g ← g1b C p
  let h ← g2b C p
  let r ← sqrtE (g ^ 2 + h ^ 2)
  let ε ← eps C p
  let x ← divE g r
  let y ← divE (ε / 2 * h) g
  let z ← divE (h ^ 2 - g ^ 2) (g ^ 2 + h ^ 2)
  return x * (1 + y * z)

/-- matchers/smeft.py:38-39 `cb`. -/
noncomputable def cb (C : Src) (p : Par) : Except PyErr ℝ := do
  let g ← g1b C p
  let h ← g2b C p
  let r ← sqrtE (g ^ 2 + h ^ 2)
  let ε ← eps C p
  let x ← divE h r
  let y ← divE (ε / 2 * g) h
  let z ← divE (h ^ 2 - g ^ 2) (g ^ 2 + h ^ 2)
  return x * (1 - y * z)

/-- matchers/smeft.py:42-43 `eb`. -/
noncomputable def eb (C : Src) (p : Par) : Except PyErr ℝ := do
  let h ← g2b C p
  let s ← sb C p
  let c ← cb C p
  let v ← vT C p
  return h * s - 1 / 2 * c * h * v ^ 2 * C.phiWB

/-- matchers/smeft.py:44-45 `gzb`. -/
noncomputable def gzb (C : Src) (p : Par) : Except PyErr ℝ := do
  let e ← eb C p
  let s ← sb C p
  let c ← cb C p
  let g ← g1b C p
  let h ← g2b C p
  let v ← vT C p
  let x ← divE e (s * c)
  let y ← divE (g ^ 2 + h ^ 2) (2 * g * h)
  return x * (1 + y * v ^ 2 * C.phiWB)

/-- The numbers computed by the functions above and the boson masses. -/
structure EW where
  vT : ℝ
  g2b : ℝ
  sb : ℝ
  cb : ℝ
  gzb : ℝ
  mW : ℝ
  mZ : ℝ

/-- All numbers that the matching conditions read. The masses divide in several of them. -/
noncomputable def ewOf (C : Src) (p : Par) : Except PyErr EW := do
  let v ← vT C p
  let h ← g2b C p
  let s ← sb C p
  let c ← cb C p
  let gz ← gzb C p
  let mW ← Dict.get p "m_W"
  let mZ ← Dict.get p "m_Z"
  let _ ← divE 1 mW
  let _ ← divE 1 mZ
  return ⟨v, h, s, c, gz, mW, mZ⟩

/-- `gzb(C, p)**2/(n*p["m_Z"]**2)`. -/
noncomputable def EW.kz (w : EW) (n : ℝ) : ℂ := (w.gzb ^ 2 / (n * w.mZ ^ 2) : ℝ)

/-- `g2b(C, p)**2/(n*p["m_W"]**2)`. -/
noncomputable def EW.kw (w : EW) (n : ℝ) : ℂ := (w.g2b ^ 2 / (n * w.mW ^ 2) : ℝ)

/-- `1/sqrt(2) * vT(C, p)`. -/
noncomputable def EW.rt (w : EW) : ℂ := (1 / Real.sqrt 2 * w.vT : ℝ)

/-- `sb(C, p)` as a factor of an array. -/
noncomputable def EW.sc (w : EW) : ℂ := (w.sb : ℝ)

/-- `cb(C, p)` as a factor of an array. -/
noncomputable def EW.cc (w : EW) : ℂ := (w.cb : ℝ)

/-- `x/2. * vT(C, p)**2` as a factor of an array. -/
noncomputable def EW.v2 (w : EW) : ℂ := (1 / 2 * w.vT ^ 2 : ℝ)

/-- `np.eye(3)*x`. -/
noncomputable def eyeT (x : ℝ) : Ix2 → ℂ := fun i => if i.1 = i.2 then (x : ℂ) else 0

/-- matchers/smeft.py:48-49 `wl`. -/
noncomputable def wl (C : Src) (w : EW) : Ix2 → ℂ := eyeT 1 + ((w.vT ^ 2 : ℝ) : ℂ) • C.mt "phil3"

/-- matchers/smeft.py:50-51 `wq`. -/
noncomputable def wq (C : Src) (w : EW) : Ix2 → ℂ := eyeT 1 + ((w.vT ^ 2 : ℝ) : ℂ) • C.mt "phiq3"

/-- matchers/smeft.py:52-53 `wr`. -/
noncomputable def wr (C : Src) (w : EW) : Ix2 → ℂ := w.v2 • C.mt "phiud"

/-- matchers/smeft.py:54-55 `znu`. -/
noncomputable def znu (C : Src) (w : EW) : Ix2 → ℂ :=
  eyeT (1 / 2) - w.v2 • C.mt "phil1" + w.v2 • C.mt "phil3"

/-- matchers/smeft.py:56-57 `zel`. -/
noncomputable def zel (C : Src) (w : EW) : Ix2 → ℂ :=
  eyeT (-1 / 2 + w.sb ^ 2) - w.v2 • C.mt "phil1" - w.v2 • C.mt "phil3"

/-- matchers/smeft.py:58-59 `zer`. -/
noncomputable def zer (C : Src) (w : EW) : Ix2 → ℂ := eyeT (w.sb ^ 2) - w.v2 • C.mt "phie"

/-- matchers/smeft.py:60-61 `zul`. -/
noncomputable def zul (C : Src) (w : EW) : Ix2 → ℂ :=
  eyeT (1 / 2 - 2 / 3 * w.sb ^ 2) - w.v2 • C.mt "phiq1" + w.v2 • C.mt "phiq3"

/-- matchers/smeft.py:62-63 `zur`. -/
noncomputable def zur (C : Src) (w : EW) : Ix2 → ℂ := eyeT (-2 / 3 * w.sb ^ 2) - w.v2 • C.mt "phiu"

/-- matchers/smeft.py:64-65 `zdl`. -/
noncomputable def zdl (C : Src) (w : EW) : Ix2 → ℂ :=
  eyeT (-1 / 2 + 1 / 3 * w.sb ^ 2) - w.v2 • C.mt "phiq1" - w.v2 • C.mt "phiq3"

/-- matchers/smeft.py:66-67 `zdr`. -/
noncomputable def zdr (C : Src) (w : EW) : Ix2 → ℂ := eyeT (1 / 3 * w.sb ^ 2) - w.v2 • C.mt "phid"

/-! ### Products and permutations of arrays

Without `->` the axes of the result of `np.einsum` are the letters in alphabetical order, p, r, s, t. -/

/-- `A.conjugate()`. -/
noncomputable def cj (A : Ix2 → ℂ) : Ix2 → ℂ := fun i => (starRingEnd ℂ) (A i)

/-- `np.einsum('pr,st',A,B)`. -/
noncomputable def epr_st (A B : Ix2 → ℂ) : Ix4 → ℂ := fun (p, r, s, t) => A (p, r) * B (s, t)

/-- `np.einsum('pt,sr',A,B)`. -/
noncomputable def ept_sr (A B : Ix2 → ℂ) : Ix4 → ℂ := fun (p, r, s, t) => A (p, t) * B (s, r)

/-- `np.einsum('pt,rs',A,B)`. -/
noncomputable def ept_rs (A B : Ix2 → ℂ) : Ix4 → ℂ := fun (p, r, s, t) => A (p, t) * B (r, s)

/-- `np.einsum('pr,ts',A,B)`. -/
noncomputable def epr_ts (A B : Ix2 → ℂ) : Ix4 → ℂ := fun (p, r, s, t) => A (p, r) * B (t, s)

/-- `np.einsum('stpr',T)`. -/
def estpr (T : Ix4 → ℂ) : Ix4 → ℂ := fun (p, r, s, t) => T (s, t, p, r)

/-- `np.einsum('ptsr',T)`. -/
def eptsr (T : Ix4 → ℂ) : Ix4 → ℂ := fun (p, r, s, t) => T (p, t, s, r)

/-- `np.einsum('srpt',T)`. -/
def esrpt (T : Ix4 → ℂ) : Ix4 → ℂ := fun (p, r, s, t) => T (s, r, p, t)

/-- `np.einsum('rpst',T)`. -/
def erpst (T : Ix4 → ℂ) : Ix4 → ℂ := fun (p, r, s, t) => T (r, p, s, t)

/-! ### Matching conditions -/

/-- matchers/smeft.py:75-90, Tables 9 to 12. -/
noncomputable def rulesDipole : List (String × (Src → EW → Arr)) := [
  ("nu", fun C w => .mat (((1 / 2 * w.vT ^ 2 : ℝ) : ℂ) • C.mt "llphiphi")),
  ("nugamma", fun _ _ => .mat 0),
  ("egamma", fun C w => .mat (w.rt • (-(w.sc • C.mt "eW") + w.cc • C.mt "eB"))),
  ("ugamma", fun C w => .mat (w.rt • (w.sc • C.mt "uW" + w.cc • C.mt "uB"))),
  ("dgamma", fun C w => .mat (w.rt • (-(w.sc • C.mt "dW") + w.cc • C.mt "dB"))),
  ("uG", fun C w => .mat (w.rt • C.mt "uG")),
  ("dG", fun C w => .mat (w.rt • C.mt "dG")),
  ("G", fun C _ => C.G),
  ("Gtilde", fun C _ => C.Gtilde)]

/-- matchers/smeft.py:93-107, Table 13. -/
noncomputable def rulesLL : List (String × (Src → EW → Arr)) := [
  ("VnunuLL", fun C w => .ten (C.tn "ll" - w.kz 4 • epr_st (znu C w) (znu C w)
      - w.kz 4 • ept_sr (znu C w) (znu C w))),
  ("VeeLL", fun C w => .ten (C.tn "ll" - w.kz 4 • epr_st (zel C w) (zel C w)
      - w.kz 4 • ept_sr (zel C w) (zel C w))),
  ("VnueLL", fun C w => .ten (C.tn "ll" + estpr (C.tn "ll") - w.kw 2 • ept_rs (wl C w) (cj (wl C w))
      - w.kz 1 • epr_st (znu C w) (zel C w))),
  ("VnuuLL", fun C w => .ten (C.tn "lq1" + C.tn "lq3" - w.kz 1 • epr_st (znu C w) (zul C w))),
  ("VnudLL", fun C w => .ten (C.tn "lq1" - C.tn "lq3" - w.kz 1 • epr_st (znu C w) (zdl C w))),
  ("VeuLL", fun C w => .ten (C.tn "lq1" - C.tn "lq3" - w.kz 1 • epr_st (zel C w) (zul C w))),
  ("VedLL", fun C w => .ten (C.tn "lq1" + C.tn "lq3" - w.kz 1 • epr_st (zel C w) (zdl C w))),
  ("VnueduLL", fun C w => .ten ((2 : ℂ) • C.tn "lq3" - w.kw 2 • epr_ts (wl C w) (cj (wq C w)))),
  ("VuuLL", fun C w => .ten (C.tn "qq1" + C.tn "qq3" - w.kz 2 • epr_st (zul C w) (zul C w))),
  ("VddLL", fun C w => .ten (C.tn "qq1" + C.tn "qq3" - w.kz 2 • epr_st (zdl C w) (zdl C w))),
  ("V1udLL", fun C w => .ten (C.tn "qq1" + estpr (C.tn "qq1") - C.tn "qq3" - estpr (C.tn "qq3")
      + (2 / 3 : ℂ) • eptsr (C.tn "qq3") + (2 / 3 : ℂ) • esrpt (C.tn "qq3")
      - w.kw 2 • ((1 / 3 : ℂ) • ept_rs (wq C w) (cj (wq C w))) - w.kz 1 • epr_st (zul C w) (zdl C w))),
  ("V8udLL", fun C w => .ten ((4 : ℂ) • eptsr (C.tn "qq3") + (4 : ℂ) • esrpt (C.tn "qq3")
      - w.kw 1 • ept_rs (wq C w) (cj (wq C w))))]

/-- matchers/smeft.py:111-119, Table 14. -/
noncomputable def rulesRR : List (String × (Src → EW → Arr)) := [
  ("VeeRR", fun C w => .ten (C.tn "ee" - w.kz 4 • epr_st (zer C w) (zer C w)
      - w.kz 4 • ept_sr (zer C w) (zer C w))),
  ("VeuRR", fun C w => .ten (C.tn "eu" - w.kz 1 • epr_st (zer C w) (zur C w))),
  ("VedRR", fun C w => .ten (C.tn "ed" - w.kz 1 • epr_st (zer C w) (zdr C w))),
  ("VuuRR", fun C w => .ten (C.tn "uu" - w.kz 2 • epr_st (zur C w) (zur C w))),
  ("VddRR", fun C w => .ten (C.tn "dd" - w.kz 2 • epr_st (zdr C w) (zdr C w))),
  ("V1udRR", fun C w => .ten (C.tn "ud1" - w.kw 2 • ((1 / 3 : ℂ) • ept_rs (wr C w) (cj (wr C w)))
      - w.kz 1 • epr_st (zur C w) (zdr C w))),
  ("V8udRR", fun C w => .ten (C.tn "ud8" - w.kw 1 • ept_rs (wr C w) (cj (wr C w))))]

/-- matchers/smeft.py:123-144, Table 15. -/
noncomputable def rulesLR : List (String × (Src → EW → Arr)) := [
  ("VnueLR", fun C w => .ten (C.tn "le" - w.kz 1 • epr_st (znu C w) (zer C w))),
  ("VeeLR", fun C w => .ten (C.tn "le" - w.kz 1 • epr_st (zel C w) (zer C w))),
  ("VnuuLR", fun C w => .ten (C.tn "lu" - w.kz 1 • epr_st (znu C w) (zur C w))),
  ("VnudLR", fun C w => .ten (C.tn "ld" - w.kz 1 • epr_st (znu C w) (zdr C w))),
  ("VeuLR", fun C w => .ten (C.tn "lu" - w.kz 1 • epr_st (zel C w) (zur C w))),
  ("VedLR", fun C w => .ten (C.tn "ld" - w.kz 1 • epr_st (zel C w) (zdr C w))),
  ("VueLR", fun C w => .ten (C.tn "qe" - w.kz 1 • epr_st (zul C w) (zer C w))),
  ("VdeLR", fun C w => .ten (C.tn "qe" - w.kz 1 • epr_st (zdl C w) (zer C w))),
  ("VnueduLR", fun C w => .ten (-(w.kw 2 • epr_ts (wl C w) (cj (wr C w))))),
  ("V1uuLR", fun C w => .ten (C.tn "qu1" - w.kz 1 • epr_st (zul C w) (zur C w))),
  ("V8uuLR", fun C _ => .ten (C.tn "qu8")),
  ("V1udLR", fun C w => .ten (C.tn "qd1" - w.kz 1 • epr_st (zul C w) (zdr C w))),
  ("V8udLR", fun C _ => .ten (C.tn "qd8")),
  ("V1duLR", fun C w => .ten (C.tn "qu1" - w.kz 1 • epr_st (zdl C w) (zur C w))),
  ("V8duLR", fun C _ => .ten (C.tn "qu8")),
  ("V1ddLR", fun C w => .ten (C.tn "qd1" - w.kz 1 • epr_st (zdl C w) (zdr C w))),
  ("V8ddLR", fun C _ => .ten (C.tn "qd8")),
  ("V1udduLR", fun C w => .ten (-(w.kw 2 • epr_ts (wq C w) (cj (wr C w))))),
  ("V8udduLR", fun _ _ => .ten 0)]

/-- matchers/smeft.py:148-173, Tables 16 to 18. -/
noncomputable def rulesScalar : List (String × (Src → EW → Arr)) := [
  ("SeuRL", fun _ _ => .ten 0),
  ("SedRL", fun C _ => .ten (C.tn "ledq")),
  ("SnueduRL", fun C _ => .ten (C.tn "ledq")),
  ("SeeRR", fun _ _ => .ten 0),
  ("SeuRR", fun C _ => .ten (-C.tn "lequ1")),
  ("TeuRR", fun C _ => .ten (-C.tn "lequ3")),
  ("SedRR", fun _ _ => .ten 0),
  ("TedRR", fun _ _ => .ten 0),
  ("SnueduRR", fun C _ => .ten (C.tn "lequ1")),
  ("TnueduRR", fun C _ => .ten (C.tn "lequ3")),
  ("S1uuRR", fun _ _ => .ten 0),
  ("S8uuRR", fun _ _ => .ten 0),
  ("S1udRR", fun C _ => .ten (C.tn "quqd1")),
  ("S8udRR", fun C _ => .ten (C.tn "quqd8")),
  ("S1ddRR", fun _ _ => .ten 0),
  ("S8ddRR", fun _ _ => .ten 0),
  ("S1udduRR", fun C _ => .ten (-estpr (C.tn "quqd1"))),
  ("S8udduRR", fun C _ => .ten (-estpr (C.tn "quqd8"))),
  ("SnunuLL", fun _ _ => .ten 0)]

/-- matchers/smeft.py:176-210, Tables 19 to 21. -/
noncomputable def rulesBL : List (String × (Src → EW → Arr)) := [
  ("SnueLL", fun _ _ => .ten 0),
  ("TnueLL", fun _ _ => .ten 0),
  ("SnueLR", fun _ _ => .ten 0),
  ("SnuuLL", fun _ _ => .ten 0),
  ("TnuuLL", fun _ _ => .ten 0),
  ("SnuuLR", fun _ _ => .ten 0),
  ("SnudLL", fun _ _ => .ten 0),
  ("TnudLL", fun _ _ => .ten 0),
  ("SnudLR", fun _ _ => .ten 0),
  ("SnueduLL", fun _ _ => .ten 0),
  ("TnueduLL", fun _ _ => .ten 0),
  ("SnueduLR", fun _ _ => .ten 0),
  ("VnueduRL", fun _ _ => .ten 0),
  ("VnueduRR", fun _ _ => .ten 0),
  ("SuddLL", fun C _ => .ten (-C.tn "qqql" - erpst (C.tn "qqql"))),
  ("SduuLL", fun C _ => .ten (-C.tn "qqql" - erpst (C.tn "qqql"))),
  ("SuudLR", fun _ _ => .ten 0),
  ("SduuLR", fun C _ => .ten (-C.tn "qque" - erpst (C.tn "qque"))),
  ("SuudRL", fun _ _ => .ten 0),
  ("SduuRL", fun C _ => .ten (C.tn "duql")),
  ("SdudRL", fun C _ => .ten (-C.tn "duql")),
  ("SdduRL", fun _ _ => .ten 0),
  ("SduuRR", fun C _ => .ten (C.tn "duue")),
  ("SdddLL", fun _ _ => .ten 0),
  ("SuddLR", fun _ _ => .ten 0),
  ("SdduLR", fun _ _ => .ten 0),
  ("SdddLR", fun _ _ => .ten 0),
  ("SdddRL", fun _ _ => .ten 0),
  ("SuddRR", fun _ _ => .ten 0),
  ("SdddRR", fun _ _ => .ten 0)]

/-- The dictionary `C` of functions, matchers/smeft.py:72-210. -/
noncomputable def matchRules : List (String × (Src → EW → Arr)) :=
  rulesDipole ++ rulesLL ++ rulesRR ++ rulesLR ++ rulesScalar ++ rulesBL

/-- `0*v`. -/
def Arr.zeroed : Arr → Arr
  | .num _ => .num 0
  | .one _ => .one 0
  | .mat _ => .mat 0
  | .ten _ => .ten 0

/-- `a - b` for arrays of the same shape (the two values come from the same formula). -/
noncomputable def Arr.sub : Arr → Arr → Arr
  | .num v, .num w => .num (v - w)
  | .one v, .one w => .one (v - w)
  | .mat v, .mat w => .mat (v - w)
  | .ten v, .ten w => .ten (v - w)
  | a, _ => a

/-- matchers/smeft.py:212-216 `match_all_array`. -/
noncomputable def matchAllArray (C : Dict String Arr) (p : Par) : Except PyErr (Dict String Arr) := do
  let C0 := Dict.mapVals Arr.zeroed C
  checkArrays C
  let w ← ewOf (srcOf C) p
  let w0 ← ewOf (srcOf C0) p
  return matchRules.map fun r => (r.1, (r.2 (srcOf C) w).sub (r.2 (srcOf C0) w0))

/-- translators/wet.py:955-987, the einsum that `rotate_down` applies to the coefficient `k`; `V` is `UdL`. -/
noncomputable def rotateRule (V : M3) (k : String) (T : Ix4 → ℂ) : Ix4 → ℂ :=
  if k ∈ ["VddLL"] then fun (a, b, c, d) =>
    ∑ i, ∑ j, ∑ k, ∑ l, conj V i a * V j b * conj V k c * V l d * T (i, j, k, l)
  else if k ∈ ["V1udLL", "V8udLL", "VedLL", "VnudLL"] then fun (i, j, c, d) =>
    ∑ k, ∑ l, conj V k c * V l d * T (i, j, k, l)
  else if k ∈ ["V1ddLR", "V1duLR", "V8ddLR", "V8duLR", "VdeLR"] then fun (a, b, k, l) =>
    ∑ i, ∑ j, conj V i a * V j b * T (i, j, k, l)
  else if k ∈ ["S1ddRR"] then fun (a, j, c, l) =>
    ∑ i, ∑ k, conj V i a * conj V k c * T (i, j, k, l)
  else if k ∈ ["V1udduLR", "V8udduLR"] then fun (i, b, k, l) =>
    ∑ j, V j b * T (i, j, k, l)
  else if k ∈ ["VnueduLL", "SedRR", "TedRR", "SnueduRR", "TnueduRR", "S1udRR", "S8udRR", "S1udduRR", "S8udduRR"] then
    fun (i, j, c, l) => ∑ k, conj V k c * T (i, j, k, l)
  else if k ∈ ["SedRL"] then fun (i, j, k, d) =>
    ∑ l, V l d * T (i, j, k, l)
  else T

/-- translators/wet.py:942-987 `rotate_down`. The names listed there are all present, being produced by
`match_all_array`; each is written once. -/
noncomputable def rotateDown (ckm : ℝ → ℝ → ℝ → ℝ → M3) (C : Dict String Arr) (p : Par) : Except PyErr (Dict String Arr) := do
  let V ← ckmOf ckm p
  return C.map fun kv => (kv.1, match kv.2 with
    | .ten T => .ten (rotateRule V kv.1 T)
    | a => a)

/-- matchers/smeft.py:218-234 `match_all`; `allWcs` of the basis JMS of the EFT WET. The last dictionary is built
from a set, so the order of its items is not fixed; here it is the order of the arrays. -/
noncomputable def matchAll (ckm : ℝ → ℝ → ℝ → ℝ → M3) (allWcs : List String) (default : Par) (d : Dict String ℂ)
    (parameters : Option Par) : Except PyErr (Dict String ℂ) := do
  let p := withPar default parameters
  let C ← wcxf2arrays d
  let C ← symmetrize C
  let C := addMissing C
  let C := Dict.put C "vT" (.num 246.22)
  let CW ← matchAllArray C p
  let CW ← rotateDown ckm CW p
  return Dict.filt (fun k _ => decide (k ∈ allWcs)) (arrays2wcxf CW)

/-! ### Registered matchers -/

/-- matchers/__init__.py:5-7 `warsaw_up_to_jms`. -/
noncomputable def warsawUpToJms (ckm : ℝ → ℝ → ℝ → ℝ → M3) (jms : List String) (default : Par) (C : Dict String ℂ)
    (_scale : ℝ) (parameters : Option Par) : Except PyErr (Dict String ℂ) := matchAll ckm jms default C parameters

/-- matchers/__init__.py:10-13 `warsaw_to_jms`; `up` lists the coefficients of the basis Warsaw up. -/
noncomputable def warsawToJms (ckm : ℝ → ℝ → ℝ → ℝ → M3) (up jms : List String) (default : Par) (C : Dict String ℂ)
    (_scale : ℝ) (parameters : Option Par) : Except PyErr (Dict String ℂ) := do
  let Cup ← warsawToWarsawUp ckm up default C parameters
  matchAll ckm jms default Cup parameters

/-- matchers/__init__.py:16-34 `warsaw_to_flavio`, `warsaw_to_eos`, `warsaw_to_bern`: the three differ in the
translator `f` of the last line. -/
noncomputable def warsawToVia (f : Fn) (ckm : ℝ → ℝ → ℝ → ℝ → M3) (up jms : List String) (default : Par)
    (C : Dict String ℂ) (scale : ℝ) (parameters : Option Par) : Except PyErr (Dict String ℂ) := do
  let Cup ← warsawToWarsawUp ckm up default C parameters
  let CJMS ← matchAll ckm jms default Cup parameters
  f CJMS scale parameters

/-- matchers/__init__.py:37-76: the seven matchers between theories with fewer quarks; `allWcs` of the target
basis. -/
def restrictTo (allWcs : List String) (C : Dict String ℂ) (_scale : ℝ) (_parameters : Option Par) :
    Except PyErr (Dict String ℂ) := .ok (Dict.filt (fun k _ => decide (k ∈ allWcs)) C)

end Verif
