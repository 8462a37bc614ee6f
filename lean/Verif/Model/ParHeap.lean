import Verif.Model.Registered

/-!
Parameter dictionaries as objects. The module-level dictionary parameters.py `p` (imported as `default_parameters`) is
shared by all calls, and the dictionary passed as `parameters` belongs to the caller; the registered functions copy,
update and write dictionaries. Here a dictionary is an address in a heap; the default parameters are at address 0.
Coefficient dictionaries and arrays are values, and reading a parameter in the middle of a formula is done before
the formula is evaluated.
-/

set_option autoImplicit false

namespace Verif

/-- The dictionary objects. -/
abbrev Heap := List Par

/-- Code with effects on the heap. The effects remain if an exception is raised. -/
abbrev HM := ExceptT PyErr (StateM Heap)

/-- Code without effects. -/
def liftE {α : Type} : Except PyErr α → HM α
  | .ok a => pure a
  | .error e => throw e

/-- The contents of an object. -/
def hRead (a : ℕ) : HM Par := do
  match (← get)[a]? with
  | some d => pure d
  | none => throw .unmodelled

/-- A new dictionary. -/
def hNew (d : Par) : HM ℕ := do
  let h ← get
  set (h ++ [d])
  return h.length

/-- Replacement of the contents. -/
def hWrite (a : ℕ) (d : Par) : HM Unit := do
  let h ← get
  set (h.set a d)

/-- `a.copy()`. -/
def hCopy (a : ℕ) : HM ℕ := do
  let d ← hRead a
  hNew d

/-- `a.update(b)`. -/
def hUpdate (a b : ℕ) : HM Unit := do
  let d ← hRead a
  let e ← hRead b
  hWrite a (Dict.upd d e)

/-- `a[k]`. -/
def hGet (a : ℕ) (k : String) : HM ℝ := do
  let d ← hRead a
  liftE (Dict.get d k)

/-- `a[k] = v`. -/
def hSet (a : ℕ) (k : String) (v : ℝ) : HM Unit := do
  let d ← hRead a
  hWrite a (Dict.put d k v)

/-- The address of parameters.py `p`. -/
def defaultAddr : ℕ := 0

/-- `p = default_parameters.copy(); if parameters is not None: p.update(parameters)`, in translators/smeft.py:80-83,
113-116, 136-139, translators/wet.py:994-997 and matchers/smeft.py:220-223. -/
def prepH (parameters : Option ℕ) : HM ℕ := do
  let p ← hCopy defaultAddr
  match parameters with
  | none => return p
  | some a =>
    hUpdate p a
    return p

/-- `ckmutil.ckm.ckm_tree(p["Vus"], p["Vub"], p["Vcb"], p["gamma"])`. -/
def ckmH (ckm : ℝ → ℝ → ℝ → ℝ → M3) (p : ℕ) : HM M3 := do
  let a ← hGet p "Vus"
  let b ← hGet p "Vub"
  let c ← hGet p "Vcb"
  let g ← hGet p "gamma"
  return ckm a b c g

/-! ### translators/smeft.py -/

/-- translators/smeft.py:88-94. -/
def rotateUH (ckm : ℝ → ℝ → ℝ → ℝ → M3) (p : ℕ) (C : Dict String ℂ) (out : Dict String ℂ) (name : String) :
    HM (Dict String ℂ) := do
  let a ← liftE (smeftToarray name C)
  let V ← ckmH ckm p
  let UuL := V.conjTranspose
  let a ← liftE (a.onMat fun m i => (UuL.conjTranspose * Matrix.of fun x y => m (x, y)) i.1 i.2)
  return Dict.upd out (smeftFromarray name a)

/-- translators/smeft.py:72-100 `warsaw_to_warsawmass`. -/
def warsawToWarsawmassH (ckm : ℝ → ℝ → ℝ → ℝ → M3) (msvd : M3 → Fin 3 → ℝ) (C : Dict String ℂ) (parameters : Option ℕ) :
    HM (Dict String ℂ) := do
  let p ← prepH parameters
  let out ← ["uphi", "uG", "uW", "uB"].foldlM (rotateUH ckm p C) C
  let a ← liftE (smeftToarray "llphiphi" C)
  let a ← liftE (a.onMat fun m i => if i.1 = i.2 then (msvd (Matrix.of fun x y => m (x, y)) i.1 : ℂ) else 0)
  return Dict.upd out (smeftFromarray "llphiphi" a)

/-- translators/smeft.py:103-146 `warsaw_to_warsaw_up`, `warsaw_up_to_warsaw`. -/
def rotateWarsawH (Uq : M3 → M3) (ckm : ℝ → ℝ → ℝ → ℝ → M3) (allWcs : List String) (C : Dict String ℂ)
    (parameters : Option ℕ) : HM (Dict String ℂ) := do
  let A ← liftE (wcxf2arrays C)
  let A ← liftE (symmetrize A)
  let p ← prepH parameters
  let V ← ckmH ckm p
  let A ← liftE (flavorRotation A ⟨Uq V, 1, 1, 1, 1⟩)
  return Dict.filt (fun k _ => decide (k ∈ allWcs)) (arrays2wcxf A)

/-! ### translators/wet.py -/

/-- wet.py:1004-1008: the parameters that are copied without running. -/
def keptKeys : List String :=
  ["m_W", "m_Z", "GF", "alpha_e", "Vus", "Vub", "Vcb", "gamma", "m_e", "m_mu", "m_tau"]

/-- wet.py:990-1009 `get_parameters`. -/
noncomputable def getParametersH (rd : RunDec) (scale : ℝ) (input : Option ℕ) : HM ℕ := do
  let p ← prepH input
  let parameters ← hNew []
  let mb0 ← hGet p "m_b"
  let as0 ← hGet p "alpha_s"
  let m_b ← liftE (plain rd (.mb (.float mb0) (.float scale) (.int 5) (.pos (.float as0))))
  hSet parameters "m_b" m_b
  let ms0 ← hGet p "m_s"
  let as1 ← hGet p "alpha_s"
  let m_s ← liftE (plain rd (.ms (.float ms0) (.float scale) (.int 5) (.pos (.float as1))))
  hSet parameters "m_s" m_s
  let as2 ← hGet p "alpha_s"
  let alpha_s ← liftE (plain rd (.alphaS (.float scale) (.int 5) (.pos (.float as2))))
  hSet parameters "alpha_s" alpha_s
  keptKeys.forM fun k => do
    let v ← hGet p k
    hSet parameters k v
  return parameters

/-- What the functions read from the dictionary returned by `get_parameters`. -/
def readWPar (a : ℕ) : HM WPar := do
  let m_b ← hGet a "m_b"
  let m_s ← hGet a "m_s"
  let alpha_s ← hGet a "alpha_s"
  let m_W ← hGet a "m_W"
  let m_Z ← hGet a "m_Z"
  let GF ← hGet a "GF"
  let alpha_e ← hGet a "alpha_e"
  let Vus ← hGet a "Vus"
  let Vub ← hGet a "Vub"
  let Vcb ← hGet a "Vcb"
  let gamma ← hGet a "gamma"
  let m_e ← hGet a "m_e"
  let m_mu ← hGet a "m_mu"
  let m_tau ← hGet a "m_tau"
  return { m_b, m_s, alpha_s, m_W, m_Z, GF, alpha_e, Vus, Vub, Vcb, gamma, m_e, m_mu, m_tau }

/-- A function of translators/wet.py: `p = get_parameters(scale, f=5, input_parameters=parameters)`, and then its body. -/
noncomputable def wetH (rd : RunDec) (body : WPar → Dict String ℂ → Except PyErr (Dict String ℂ)) (C : Dict String ℂ)
    (scale : ℝ) (parameters : Option ℕ) : HM (Dict String ℂ) := do
  let p ← getParametersH rd scale parameters
  let P ← readWPar p
  liftE (body P C)

/-- wet.py:1046-1079, body of `JMS_to_flavio`. -/
noncomputable def jmsToFlavioB (E : REnv) (p : WPar) (C : Dict String ℂ) : Except PyErr (Dict String ℂ) := do
  let Ca ← jmsToArray (E.all "WET" "JMS") C
  updAll (jobsJmsFlavio ⟨E.ckm, p⟩ (readArr Ca)) []

/-- wet.py:1084-1115, body of `Bern_to_flavio`. -/
noncomputable def bernToFlavioB (E : REnv) (p : WPar) (C : Dict String ℂ) : Except PyErr (Dict String ℂ) := do
  let d ← updAll (jobsBernFlavio ⟨E.ckm, p⟩ (Dict.get (completed (E.all "WET" "Bern") C))) []
  let pre ← prefBern ⟨E.ckm, p⟩
  return Dict.mapVals (fun v => v / (pre : ℂ)) d

/-- wet.py:1121-1149, body of `flavio_to_Bern`. -/
noncomputable def flavioToBernB (E : REnv) (p : WPar) (C : Dict String ℂ) : Except PyErr (Dict String ℂ) := do
  let d ← updAll (jobsFlavioBern ⟨E.ckm, p⟩ (Dict.get (completed (E.all "WET" "flavio") C))) []
  let pre ← prefBern ⟨E.ckm, p⟩
  return Dict.mapVals (fun v => (pre : ℂ) * v) d

/-- wet.py:1016-1041, body of `JMS_to_EOS`. -/
noncomputable def jmsToEosB (E : REnv) (p : WPar) (C : Dict String ℂ) : Except PyErr (Dict String ℂ) := do
  let Ca ← jmsToArray (E.all "WET" "JMS") C
  updAll (jobsEos ⟨E.ckm, p⟩ (readArr Ca)) []

/-- wet.py:1174-1223, body of `JMS_to_Bern`. -/
noncomputable def jmsToBernB (E : REnv) (p : WPar) (C : Dict String ℂ) : Except PyErr (Dict String ℂ) := do
  let Ca ← jmsToArray (E.all "WET" "JMS") C
  let d ← updAll (jobsJmsBern ⟨E.ckm, p⟩ (readArr Ca)) []
  let pre ← prefBern ⟨E.ckm, p⟩
  return Dict.mapVals (fun v => (pre : ℂ) * v) d

/-- wet.py:1154-1169, body of `JMS_to_FormFlavor`. -/
noncomputable def jmsToFormFlavorB (E : REnv) (p : WPar) (C : Dict String ℂ) : Except PyErr (Dict String ℂ) := do
  let Ca ← jmsToArray (E.all "WET" "JMS") C
  updAll (jobsFormFlavor ⟨E.ckm, p⟩ (readArr Ca)) []

/-- wet.py:1227-1251, body of `FlavorKit_to_JMS`. -/
noncomputable def fkToJmsB (p : WPar) (C : Dict String ℂ) : Except PyErr (Dict String ℂ) := do
  let s ← C.foldlM (fkToJmsStep p) (none, [])
  return s.2

/-- wet.py:1255-1283, body of `JMS_to_FlavorKit`. -/
noncomputable def jmsToFkB (p : WPar) (C : Dict String ℂ) : Except PyErr (Dict String ℂ) := do
  let s ← C.foldlM (jmsToFkStep p) (none, [])
  return s.2

/-! ### matchers/smeft.py -/

/-- matchers/smeft.py:16-19 `vT`. -/
noncomputable def vTH (C : Src) (p : ℕ) : HM ℝ := do
  let GF ← hGet p "GF"
  let GFx : ℂ := GF - (Real.sqrt 2 / 4 : ℝ) * (-C.tn "ll" (1, 0, 0, 1) - C.tn "ll" (0, 1, 1, 0)
    + 2 * C.mt "phil3" (1, 1) + 2 * C.mt "phil3" (0, 0))
  let x ← liftE (divE (1 / Real.sqrt 2) ‖GFx‖)
  liftE (sqrtE x)

/-- matchers/smeft.py:22-23 `eps`. -/
noncomputable def epsH (C : Src) (p : ℕ) : HM ℝ := do
  let v ← vTH C p
  return C.phiWB * v ^ 2

/-- matchers/smeft.py:26-28 `g2b`, with the assignment `p["m_W"] = p["m_W"]`. -/
noncomputable def g2bH (C : Src) (p : ℕ) : HM ℝ := do
  let x ← hGet p "m_W"
  hSet p "m_W" x
  let mW ← hGet p "m_W"
  let v ← vTH C p
  liftE (divE (2 * mW) v)

/-- matchers/smeft.py:30-33 `g1b`. -/
noncomputable def g1bH (C : Src) (p : ℕ) : HM ℝ := do
  let alpha_e ← hGet p "alpha_e"
  let e ← liftE (sqrtE (4 * Real.pi * alpha_e))
  let g ← g2bH C p
  let r ← liftE (sqrtE (g ^ 2 - e ^ 2))
  let x ← liftE (divE (e * g) r)
  let y ← liftE (divE (e ^ 2 * g) (g ^ 2 - e ^ 2))
  let ε ← epsH C p
  return x + y * ε

/-- matchers/smeft.py:36-37 `sb`. -/
noncomputable def sbH (C : Src) (p : ℕ) : HM ℝ := do
  let g ← g1bH C p
  let h ← g2bH C p
  let r ← liftE (sqrtE (g ^ 2 + h ^ 2))
  let ε ← epsH C p
  let x ← liftE (divE g r)
  let y ← liftE (divE (ε / 2 * h) g)
  let z ← liftE (divE (h ^ 2 - g ^ 2) (g ^ 2 + h ^ 2))
  return x * (1 + y * z)

/-- matchers/smeft.py:38-39 `cb`. -/
noncomputable def cbH (C : Src) (p : ℕ) : HM ℝ := do
  let g ← g1bH C p
  let h ← g2bH C p
  let r ← liftE (sqrtE (g ^ 2 + h ^ 2))
  let ε ← epsH C p
  let x ← liftE (divE h r)
  let y ← liftE (divE (ε / 2 * g) h)
  let z ← liftE (divE (h ^ 2 - g ^ 2) (g ^ 2 + h ^ 2))
  return x * (1 - y * z)

/-- matchers/smeft.py:42-43 `eb`. -/
noncomputable def ebH (C : Src) (p : ℕ) : HM ℝ := do
  let h ← g2bH C p
  let s ← sbH C p
  let c ← cbH C p
  let v ← vTH C p
  return h * s - 1 / 2 * c * h * v ^ 2 * C.phiWB

/-- matchers/smeft.py:44-45 `gzb`. -/
noncomputable def gzbH (C : Src) (p : ℕ) : HM ℝ := do
  let e ← ebH C p
  let s ← sbH C p
  let c ← cbH C p
  let g ← g1bH C p
  let h ← g2bH C p
  let v ← vTH C p
  let x ← liftE (divE e (s * c))
  let y ← liftE (divE (g ^ 2 + h ^ 2) (2 * g * h))
  return x * (1 + y * v ^ 2 * C.phiWB)

/-- All numbers that the matching conditions read. -/
noncomputable def ewOfH (C : Src) (p : ℕ) : HM EW := do
  let v ← vTH C p
  let h ← g2bH C p
  let s ← sbH C p
  let c ← cbH C p
  let gz ← gzbH C p
  let mW ← hGet p "m_W"
  let mZ ← hGet p "m_Z"
  let _ ← liftE (divE 1 mW)
  let _ ← liftE (divE 1 mZ)
  return ⟨v, h, s, c, gz, mW, mZ⟩

/-- matchers/smeft.py:212-216 `match_all_array`. -/
noncomputable def matchAllArrayH (C : Dict String Arr) (p : ℕ) : HM (Dict String Arr) := do
  let C0 := Dict.mapVals Arr.zeroed C
  liftE (checkArrays C)
  let w ← ewOfH (srcOf C) p
  let w0 ← ewOfH (srcOf C0) p
  return matchRules.map fun r => (r.1, (r.2 (srcOf C) w).sub (r.2 (srcOf C0) w0))

/-- translators/wet.py:942-987 `rotate_down`. -/
noncomputable def rotateDownH (ckm : ℝ → ℝ → ℝ → ℝ → M3) (C : Dict String Arr) (p : ℕ) : HM (Dict String Arr) := do
  let V ← ckmH ckm p
  return C.map fun kv => (kv.1, match kv.2 with
    | .ten T => .ten (rotateRule V kv.1 T)
    | a => a)

/-- matchers/smeft.py:218-234 `match_all`. -/
noncomputable def matchAllH (ckm : ℝ → ℝ → ℝ → ℝ → M3) (allWcs : List String) (d : Dict String ℂ)
    (parameters : Option ℕ) : HM (Dict String ℂ) := do
  let p ← prepH parameters
  let C ← liftE (wcxf2arrays d)
  let C ← liftE (symmetrize C)
  let C := addMissing C
  let C := Dict.put C "vT" (.num 246.22)
  let CW ← matchAllArrayH C p
  let CW ← rotateDownH ckm CW p
  return Dict.filt (fun k _ => decide (k ∈ allWcs)) (arrays2wcxf CW)

/-! ### Registered functions -/

/-- A registered function with effects. -/
abbrev FnH := Dict String ℂ → ℝ → Option ℕ → HM (Dict String ℂ)

/-- translators/__init__.py:6-104. -/
noncomputable def translatorsH (E : REnv) : List (List String × FnH) := [
  (["SMEFT", "Warsaw", "Warsaw mass"], fun C _ _ => warsawToWarsawmassH E.ckm E.msvd C none),
  (["SMEFT", "Warsaw", "Warsaw up"],
    fun C _ _ => rotateWarsawH (fun V => V.conjTranspose) E.ckm (E.all "SMEFT" "Warsaw up") C none),
  (["SMEFT", "Warsaw up", "Warsaw"], fun C _ _ => rotateWarsawH (fun V => V) E.ckm (E.all "SMEFT" "Warsaw") C none),
  (["WET", "JMS", "flavio"], wetH E.rd (jmsToFlavioB E)),
  (["WET-4", "JMS", "flavio"], wetH E.rd (jmsToFlavioB E)),
  (["WET-3", "JMS", "flavio"], wetH E.rd (jmsToFlavioB E)),
  (["WET", "Bern", "flavio"], wetH E.rd (bernToFlavioB E)),
  (["WET", "flavio", "Bern"], wetH E.rd (flavioToBernB E)),
  (["WET-4", "Bern", "flavio"], wetH E.rd (bernToFlavioB E)),
  (["WET-4", "flavio", "Bern"], wetH E.rd (flavioToBernB E)),
  (["WET-3", "Bern", "flavio"], wetH E.rd (bernToFlavioB E)),
  (["WET-3", "flavio", "Bern"], wetH E.rd (flavioToBernB E)),
  (["WET", "JMS", "EOS"], wetH E.rd (jmsToEosB E)),
  (["WET", "JMS", "Bern"], wetH E.rd (jmsToBernB E)),
  (["WET-4", "JMS", "Bern"], wetH E.rd (jmsToBernB E)),
  (["WET-3", "JMS", "Bern"], wetH E.rd (jmsToBernB E)),
  (["WET", "JMS", "formflavor"], wetH E.rd (jmsToFormFlavorB E)),
  (["WET", "FlavorKit", "JMS"], wetH E.rd fkToJmsB),
  (["WET", "JMS", "FlavorKit"], wetH E.rd jmsToFkB),
  (["WET", "FlavorKit", "flavio"], fun C scale par => do
    let CJ ← wetH E.rd fkToJmsB C scale par
    wetH E.rd (jmsToFlavioB E) CJ scale par)]

/-- matchers/__init__.py:10-13 `warsaw_to_jms`. -/
noncomputable def warsawToJmsH (E : REnv) (C : Dict String ℂ) (par : Option ℕ) : HM (Dict String ℂ) := do
  let Cup ← rotateWarsawH (fun V => V.conjTranspose) E.ckm (E.all "SMEFT" "Warsaw up") C par
  matchAllH E.ckm (E.all "WET" "JMS") Cup par

/-- matchers/__init__.py:16-34. -/
noncomputable def warsawToViaH (f : FnH) (E : REnv) : FnH := fun C scale par => do
  let CJMS ← warsawToJmsH E C par
  f CJMS scale par

/-- matchers/__init__.py:37-76. -/
def restrictToH (allWcs : List String) : FnH := fun C _ _ => pure (Dict.filt (fun k _ => decide (k ∈ allWcs)) C)

/-- matchers/__init__.py:5-76. -/
noncomputable def matchersH (E : REnv) : List (List String × FnH) := [
  (["SMEFT", "Warsaw up", "WET", "JMS"], fun C _ par => matchAllH E.ckm (E.all "WET" "JMS") C par),
  (["SMEFT", "Warsaw", "WET", "JMS"], fun C _ par => warsawToJmsH E C par),
  (["SMEFT", "Warsaw", "WET", "flavio"], warsawToViaH (wetH E.rd (jmsToFlavioB E)) E),
  (["SMEFT", "Warsaw", "WET", "EOS"], warsawToViaH (wetH E.rd (jmsToEosB E)) E),
  (["SMEFT", "Warsaw", "WET", "Bern"], warsawToViaH (wetH E.rd (jmsToBernB E)) E),
  (["WET", "flavio", "WET-4", "flavio"], restrictToH (E.all "WET-4" "flavio")),
  (["WET-4", "flavio", "WET-3", "flavio"], restrictToH (E.all "WET-3" "flavio")),
  (["WET", "Bern", "WET-4", "Bern"], restrictToH (E.all "WET-4" "Bern")),
  (["WET-4", "Bern", "WET-3", "Bern"], restrictToH (E.all "WET-3" "Bern")),
  (["WET", "JMS", "WET-4", "JMS"], restrictToH (E.all "WET-4" "JMS")),
  (["WET-4", "JMS", "WET-3", "JMS"], restrictToH (E.all "WET-3" "JMS")),
  (["WET-3", "JMS", "WET-2", "JMS"], restrictToH (E.all "WET-2" "JMS"))]

/-! ### Histories -/

/-- What a program using the package does with parameters: it makes and changes dictionaries of its own, and calls
registered functions. -/
inductive PStep where
  | new (d : Par)
  | set (a : ℕ) (k : String) (v : ℝ)
  | del (a : ℕ) (k : String)
  | call (name : List String) (C : Dict String ℂ) (scale : ℝ) (par : Option ℕ)

/-- One step; exceptions are caught. -/
noncomputable def PStep.exec (E : REnv) (h : Heap) : PStep → Heap
  | .new d => h ++ [d]
  | .set a k v => match h[a]? with
    | some d => h.set a (Dict.put d k v)
    | none => h
  | .del a k => match h[a]? with
    | some d => h.set a (Dict.del d k)
    | none => h
  | .call name C scale par => match Dict.find (translatorsH E ++ matchersH E) name with
    | some f => ((f C scale par).run h).2
    | none => h

/-- A history, from the state after import. -/
noncomputable def runSteps (E : REnv) (default : Par) (l : List PStep) : Heap := l.foldl (PStep.exec E) [default]

end Verif
