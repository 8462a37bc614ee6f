import Verif.Model.WetBlocks
import Verif.Model.Qcd

/-!
`get_parameters` and the translators of translators/wet.py:990-1221 (FlavorKit is in `FlavorKit.lean`).

A sequence of statements `d.update(...)` is the list of its arguments (`updAll`).
-/

set_option autoImplicit false

namespace Verif

/-- What the translators depend on besides their arguments: `ckm_tree`, the RunDec library, the default
parameters and the coefficient names listed in the bases WET JMS, WET Bern and WET flavio. -/
structure WEnv where
  ckm : ℝ → ℝ → ℝ → ℝ → M3
  rd : RunDec
  default : Par
  jms : List String
  bern : List String
  flavio : List String

/-- wet.py:990-1009 `get_parameters`, with `f=5` in all calls of the code. The running functions are used without
their memoisation (see C28). -/
noncomputable def getParameters (E : WEnv) (scale : ℝ) (par : Option Par) (f : ℤ := 5) : Except PyErr WPar := do
  let p := withPar E.default par
  let mb0 ← Dict.get p "m_b"
  let as0 ← Dict.get p "alpha_s"
  let m_b ← plain E.rd (.mb (.float mb0) (.float scale) (.int f) (.pos (.float as0)))
  let ms0 ← Dict.get p "m_s"
  let m_s ← plain E.rd (.ms (.float ms0) (.float scale) (.int f) (.pos (.float as0)))
  let alpha_s ← plain E.rd (.alphaS (.float scale) (.int f) (.pos (.float as0)))
  let m_W ← Dict.get p "m_W"
  let m_Z ← Dict.get p "m_Z"
  let GF ← Dict.get p "GF"
  let alpha_e ← Dict.get p "alpha_e"
  let Vus ← Dict.get p "Vus"
  let Vub ← Dict.get p "Vub"
  let Vcb ← Dict.get p "Vcb"
  let gamma ← Dict.get p "gamma"
  let m_e ← Dict.get p "m_e"
  let m_mu ← Dict.get p "m_mu"
  let m_tau ← Dict.get p "m_tau"
  return { m_b, m_s, alpha_s, m_W, m_Z, GF, alpha_e, Vus, Vub, Vcb, gamma, m_e, m_mu, m_tau }

/-- The parameters with `ckm_tree`. -/
noncomputable def penv (E : WEnv) (scale : ℝ) (par : Option Par) (f : ℤ := 5) : Except PyErr PEnv := do
  let p ← getParameters E scale par f
  return ⟨E.ckm, p⟩

/-- `d = {}; d.update(x1); d.update(x2); ...`. -/
def updAll : List (Except PyErr (Dict String ℂ)) → Dict String ℂ → Except PyErr (Dict String ℂ)
  | [], d => .ok d
  | x :: xs, d => do
    let e ← x
    updAll xs (Dict.upd d e)

/-- `f(C, ...)` where `f` is given by its display. -/
noncomputable def call {S : Type} (rd : S → Except PyErr ℂ) (b : Except PyErr (Block S)) : Except PyErr (Dict String ℂ) := do
  evalBlock rd (← b)

/-- `g(f(C, ...), ...)` where `g` reads the dictionary returned by `f`. -/
noncomputable def call2 {S : Type} (rd : S → Except PyErr ℂ) (b : Except PyErr (Block S))
    (b' : Except PyErr (Block String)) : Except PyErr (Dict String ℂ) := do
  let d ← call rd b
  call (Dict.get d) b'

/-- `for l in lflav.keys(): for lp in lflav.keys(): ...`. -/
def leptonPairs : List (String × String) :=
  (Dict.keys lflav).flatMap fun l => (Dict.keys lflav).map fun lp => (l, lp)

/-- The names `qq+'l_'+l+'nu_'+lp` of the loops over class II (wet.py:1055-1060, 1096-1099, 1133-1136, 1187-1190). -/
def namesII : List String :=
  leptonPairs.flatMap fun l => ["cb", "ub", "us", "cs", "cd", "ud"].map fun qq => qq ++ "l_" ++ l.1 ++ "nu_" ++ l.2

/-- The name `qq+'l_'+l+'nu_'+lp`. -/
def nameLep (qq : String) (l : String × String) : String := qq ++ "l_" ++ l.1 ++ "nu_" ++ l.2

/-- `sqrt(2)/p['GF']/4` (wet.py:1116, 1150, 1220). -/
noncomputable def prefBern (P : PEnv) : Except PyErr ℝ := do
  let a ← divE (Real.sqrt 2) P.p.GF
  return a / 4

/-- The argument of `d.update` of a loop body, one entry per pass. -/
abbrev Jobs := List (Except PyErr (Dict String ℂ))

/-- wet.py:1044-1078, the updates of `JMS_to_flavio`; `rd` reads the JMS arrays. -/
noncomputable def jobsJmsFlavio (P : PEnv) (rd : JSrc → Except PyErr ℂ) : Jobs :=
  (["sb", "db", "ds"].map fun qq => call2 rd (jmsBernI qq) (bernFlavioI qq)) ++
  (namesII.map fun x => call2 rd (jmsBernII x) (bernFlavioII P x)) ++
  (leptonPairs.flatMap fun l =>
    [call2 rd (jmsFierzLep (nameLep "sb" l)) (fierzFlavioLep P (nameLep "sb" l) true),
     call2 rd (jmsFierzLep (nameLep "db" l)) (fierzFlavioLep P (nameLep "db" l) true),
     call2 rd (jmsFierzLep (nameLep "ds" l)) (fierzFlavioLep P (nameLep "ds" l) false)]) ++
  [call2 rd (jmsFierzChrom "sb") (fierzFlavioChrom P "sb"),
   call2 rd (jmsFierzChrom "db") (fierzFlavioChrom P "db")]

/-- wet.py:1044-1078 `JMS_to_flavio`. -/
noncomputable def jmsToFlavio (E : WEnv) (C : Dict String ℂ) (scale : ℝ) (par : Option Par) : Except PyErr (Dict String ℂ) := do
  let P ← penv E scale par
  let Ca ← jmsToArray E.jms C
  updAll (jobsJmsFlavio P (readArr Ca)) []

/-- wet.py:1089-1115, the updates of `Bern_to_flavio`; `rd` reads the completed input. -/
noncomputable def jobsBernFlavio (P : PEnv) (rd : String → Except PyErr ℂ) : Jobs :=
  (["sb", "db", "ds"].map fun qq => call rd (bernFlavioI qq)) ++
  (namesII.map fun x => call rd (bernFlavioII P x)) ++
  (leptonPairs.flatMap fun l =>
    [call2 rd (bernFierzLep (nameLep "sb" l)) (fierzFlavioLep P (nameLep "sb" l) true),
     call2 rd (bernFierzLep (nameLep "db" l)) (fierzFlavioLep P (nameLep "db" l) true),
     call2 rd (bernFierzLep (nameLep "ds" l)) (fierzFlavioLep P (nameLep "ds" l) false)]) ++
  [call2 rd (bernFierzChrom P "sb") (fierzFlavioChrom P "sb"),
   call2 rd (bernFierzChrom P "db") (fierzFlavioChrom P "db")]

/-- wet.py:1081-1117 `Bern_to_flavio`. -/
noncomputable def bernToFlavio (E : WEnv) (C : Dict String ℂ) (scale : ℝ) (par : Option Par) : Except PyErr (Dict String ℂ) := do
  let P ← penv E scale par
  let d ← updAll (jobsBernFlavio P (Dict.get (completed E.bern C))) []
  let pre ← prefBern P
  return Dict.mapVals (fun v => v / (pre : ℂ)) d

/-- wet.py:1127-1149, the updates of `flavio_to_Bern`. -/
noncomputable def jobsFlavioBern (P : PEnv) (rd : String → Except PyErr ℂ) : Jobs :=
  (["bs", "bd", "sd"].map fun qq => call rd (flavioBernI qq)) ++
  (namesII.map fun x => call rd (flavioBernII P x)) ++
  (leptonPairs.flatMap fun l =>
    [call2 rd (flavioFierzLep P (nameLep "sb" l)) (fierzBernLep (nameLep "sb" l)),
     call2 rd (flavioFierzLep P (nameLep "db" l)) (fierzBernLep (nameLep "db" l))]) ++
  [call2 rd (flavioFierzChrom P "sb") (fierzBernChrom P "sb"),
   call2 rd (flavioFierzChrom P "db") (fierzBernChrom P "db")]

/-- wet.py:1120-1151 `flavio_to_Bern`. -/
noncomputable def flavioToBern (E : WEnv) (C : Dict String ℂ) (scale : ℝ) (par : Option Par) : Except PyErr (Dict String ℂ) := do
  let P ← penv E scale par
  let d ← updAll (jobsFlavioBern P (Dict.get (completed E.flavio C))) []
  let pre ← prefBern P
  return Dict.mapVals (fun v => (pre : ℂ) * v) d

/-- wet.py:1160-1169, the updates of `JMS_to_FormFlavor`. -/
noncomputable def jobsFormFlavor (P : PEnv) (rd : JSrc → Except PyErr ℂ) : Jobs :=
  (["sb", "db", "ds", "uc"].map fun qq => call2 rd (jmsBernI qq) (bernFormFlavorI qq)) ++
  [call rd (jmsFormFlavorLep "bs"), call rd (jmsFormFlavorLep "bd")] ++
  (["sb", "db", "uu", "dd", "mt", "em", "et"].map fun x => call rd (formFlavorChrom P x))

/-- wet.py:1154-1170 `JMS_to_FormFlavor`. -/
noncomputable def jmsToFormFlavor (E : WEnv) (C : Dict String ℂ) (scale : ℝ) (par : Option Par) :
    Except PyErr (Dict String ℂ) := do
  let P ← penv E scale par
  let Ca ← jmsToArray E.jms C
  updAll (jobsFormFlavor P (readArr Ca)) []

/-- The names of the loops over four-quark operators (wet.py:1193-1208), in order. -/
def namesV : List String :=
  ((Dict.keys uflav).flatMap fun u1 => (Dict.keys uflav).flatMap fun u2 =>
    ["sb" ++ u1 ++ u2, "db" ++ u1 ++ u2, "ds" ++ u1 ++ u2]) ++
  ["sbdd", "sbss", "dbdd", "dbss", "dbbb", "sbbb", "dbds", "sbsd", "dsbb", "dsss", "dsdd"]

/-- wet.py:1179-1219, the updates of `JMS_to_Bern`. -/
noncomputable def jobsJmsBern (P : PEnv) (rd : JSrc → Except PyErr ℂ) : Jobs :=
  (["sb", "db", "ds"].map fun qq => call rd (jmsBernI qq)) ++
  (namesII.map fun x => call rd (jmsBernII x)) ++
  (namesV.map fun x => call2 rd (jmsFierzV x) (fierzBernV x)) ++
  (leptonPairs.flatMap fun l =>
    [call2 rd (jmsFierzLep (nameLep "sb" l)) (fierzBernLep (nameLep "sb" l)),
     call2 rd (jmsFierzLep (nameLep "db" l)) (fierzBernLep (nameLep "db" l)),
     call2 rd (jmsFierzLep (nameLep "ds" l)) (fierzBernLep (nameLep "ds" l))]) ++
  [call2 rd (jmsFierzChrom "sb") (fierzBernChrom P "sb"),
   call2 rd (jmsFierzChrom "db") (fierzBernChrom P "db"),
   call2 rd (jmsFierzChrom "ds") (fierzBernChrom P "ds")]

/-- wet.py:1173-1221 `JMS_to_Bern`. -/
noncomputable def jmsToBern (E : WEnv) (C : Dict String ℂ) (scale : ℝ) (par : Option Par) : Except PyErr (Dict String ℂ) := do
  let P ← penv E scale par
  let Ca ← jmsToArray E.jms C
  let d ← updAll (jobsJmsBern P (readArr Ca)) []
  let pre ← prefBern P
  return Dict.mapVals (fun v => (pre : ℂ) * v) d

/-- wet.py:1025-1031: `_Fierz_to_EOS_V` on the five dictionaries. -/
noncomputable def callEosV (P : PEnv) (rd : JSrc → Except PyErr ℂ) : Except PyErr (Dict String ℂ) := do
  let uu ← call rd (jmsFierzV "sbuu")
  let dd ← call rd (jmsFierzV "sbdd")
  let cc ← call rd (jmsFierzV "sbcc")
  let ss ← call rd (jmsFierzV "sbss")
  let bb ← call rd (jmsFierzV "sbbb")
  let ds : Dict String (Dict String ℂ) := [("Fsbuu", uu), ("Fsbdd", dd), ("Fsbcc", cc), ("Fsbss", ss), ("Fsbbb", bb)]
  call (fun s => do Dict.get (← Dict.get ds s.1) s.2) (fierzEosV P)

/-- wet.py:1019-1040, the updates of `JMS_to_EOS`. -/
noncomputable def jobsEos (P : PEnv) (rd : JSrc → Except PyErr ℂ) : Jobs :=
  (["e", "mu"].map fun l => call2 rd (jmsBernII (nameLep "ub" (l, l))) (bernEosII P (nameLep "ub" (l, l)))) ++
  [callEosV P rd,
   call2 rd (jmsFierzLep "sbl_enu_e") (fierzEosLep P "sbl_enu_e"),
   call2 rd (jmsFierzLep "sbl_munu_mu") (fierzEosLep P "sbl_munu_mu"),
   call2 rd (jmsFierzChrom "sb") (fierzEosChrom P "sb")]

/-- wet.py:1014-1041 `JMS_to_EOS`. -/
noncomputable def jmsToEos (E : WEnv) (C : Dict String ℂ) (scale : ℝ) (par : Option Par) : Except PyErr (Dict String ℂ) := do
  let P ← penv E scale par
  let Ca ← jmsToArray E.jms C
  updAll (jobsEos P (readArr Ca)) []

end Verif
