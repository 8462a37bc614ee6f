import Verif.Model.WetArray
import Verif.Model.Eos
import Mathlib.Analysis.SpecialFunctions.Trigonometric.Basic

/-!
The coefficient tables of translators/wet.py:10-882. The displays with purely numerical factors are
transcribed from the source by a script, entry by entry and in the same order.

Every function `f(C, name, parameters)` of the source becomes a function giving its dictionary display; the
display is evaluated on the input dictionary by `evalBlock`. The functions of the source that are called with an
unexpected name return a string or `None` or raise; the final translators never do so, and here
this is the error `unmodelled` (or the exception raised).
-/

set_option autoImplicit false

namespace Verif

open Ex (cj)

/-- wet.py:12 `Nc`. -/
noncomputable def Nc : ℂ := 3

/-- wet.py:19 `dflav`. -/
def dflav : Dict String (Fin 3) := [("d", 0), ("s", 1), ("b", 2)]

/-- wet.py:20 `uflav`. -/
def uflav : Dict String (Fin 3) := [("u", 0), ("c", 1)]

/-- wet.py:21 `lflav`. -/
def lflav : Dict String (Fin 3) := [("e", 0), ("mu", 1), ("tau", 2)]

/-- wet.py:22 `llflav`. -/
def llflav : Dict String (Fin 3) := [("e", 0), ("m", 1), ("t", 2)]

/-- The dictionary returned by `get_parameters` (wet.py:990-1009); it always has exactly these keys. -/
structure WPar where
  m_b : ℝ
  m_s : ℝ
  alpha_s : ℝ
  m_W : ℝ
  m_Z : ℝ
  GF : ℝ
  alpha_e : ℝ
  Vus : ℝ
  Vub : ℝ
  Vcb : ℝ
  gamma : ℝ
  m_e : ℝ
  m_mu : ℝ
  m_tau : ℝ

/-- Parameters together with the (external) function `ckmutil.ckm.ckm_tree`. -/
structure PEnv where
  ckm : ℝ → ℝ → ℝ → ℝ → M3
  p : WPar

/-- `V = ckmutil.ckm.ckm_tree(p["Vus"], p["Vub"], p["Vcb"], p["gamma"])`. -/
def PEnv.V (P : PEnv) : M3 := P.ckm P.p.Vus P.p.Vub P.p.Vcb P.p.gamma

/-- `e = sqrt(4 * pi * parameters['alpha_e'])`. -/
noncomputable def PEnv.e (P : PEnv) : Except PyErr ℝ := sqrtE (4 * Real.pi * P.p.alpha_e)

/-- `gs = sqrt(4 * pi * parameters['alpha_s'])`. -/
noncomputable def PEnv.gs (P : PEnv) : Except PyErr ℝ := sqrtE (4 * Real.pi * P.p.alpha_s)

/-! ### String operations -/

/-- `s[i]` as a string. -/
def chr (s : String) (i : ℕ) : String := String.ofList ((s.toList.drop i).take 1)

/-- `s[a:b]`. -/
def pySlice (s : String) (a b : ℕ) : String := String.ofList ((s.toList.take b).drop a)

/-- `s.find(c, start)` for a character that occurs. -/
def pyFind (s : String) (c : Char) (start : ℕ) : ℕ := start + (s.toList.drop start).findIdx (· = c)

/-- `s[::-1]`. -/
def pyRev (s : String) : String := String.ofList s.toList.reverse

/-- `udlnu[4:udlnu.find('n')]`. -/
def lepPart (udlnu : String) : String := pySlice udlnu 4 (pyFind udlnu 'n' 0)

/-- `udlnu[udlnu.find('_',5)+1:len(udlnu)]`. -/
def nuPart (udlnu : String) : String := String.ofList (udlnu.toList.drop (pyFind udlnu '_' 5 + 1))

/-- `{k: c * v for k, v in dic.items()}`. -/
def scaleBy {S : Type} (c : ℂ) (b : Block S) : Block S := b.map fun p => (p.1, c * p.2)

/-- `{k: v / c for k, v in dic.items()}`. -/
def divideBy {S : Type} (c : ℂ) (b : Block S) : Block S := b.map fun p => (p.1, p.2 / c)

/-! ### Class I -/

/-- wet.py:35-47. -/
noncomputable def jmsBernIDown (qq : String) (ij ji : List (Fin 3)) : Block JSrc :=
  [("1" ++ (qq ++ qq), el "VddLL" (ij ++ ij)),
   ("2" ++ (qq ++ qq), cj (el "S1ddRR" (ji ++ ji)) - cj (el "S8ddRR" (ji ++ ji)) / (2 * Nc : ℂ)),
   ("3" ++ (qq ++ qq), cj (el "S8ddRR" (ji ++ ji)) / (2 : ℂ)),
   ("4" ++ (qq ++ qq), -el "V8ddLR" (ij ++ ij)),
   ("5" ++ (qq ++ qq), (-2 : ℂ) * el "V1ddLR" (ij ++ ij) + el "V8ddLR" (ij ++ ij) / Nc),
   ("1p" ++ (qq ++ qq), el "VddRR" (ij ++ ij)),
   ("2p" ++ (qq ++ qq), el "S1ddRR" (ij ++ ij) - el "S8ddRR" (ij ++ ij) / (2 * Nc : ℂ)),
   ("3p" ++ (qq ++ qq), el "S8ddRR" (ij ++ ij) / (2 : ℂ))]

/-- wet.py:49-61. -/
noncomputable def jmsBernIUp (qq : String) : Block JSrc :=
  [("1" ++ (qq ++ qq), el "VuuLL" [0, 1, 0, 1]),
   ("2" ++ (qq ++ qq), cj (el "S1uuRR" [1, 0, 1, 0]) - cj (el "S8uuRR" [1, 0, 1, 0]) / (2 * Nc : ℂ)),
   ("3" ++ (qq ++ qq), cj (el "S8uuRR" [1, 0, 1, 0]) / (2 : ℂ)),
   ("4" ++ (qq ++ qq), -el "V8uuLR" [0, 1, 0, 1]),
   ("5" ++ (qq ++ qq), (-2 : ℂ) * el "V1uuLR" [0, 1, 0, 1] + el "V8uuLR" [0, 1, 0, 1] / Nc),
   ("1p" ++ (qq ++ qq), el "VuuRR" [0, 1, 0, 1]),
   ("2p" ++ (qq ++ qq), el "S1uuRR" [0, 1, 0, 1] - el "S8uuRR" [0, 1, 0, 1] / (2 * Nc : ℂ)),
   ("3p" ++ (qq ++ qq), el "S8uuRR" [0, 1, 0, 1] / (2 : ℂ))]

/-- wet.py:28-63 `_JMS_to_Bern_I`. -/
noncomputable def jmsBernI (qq : String) : Except PyErr (Block JSrc) :=
  if qq ∈ ["sb", "db", "ds"] then do
    let i ← Dict.get dflav (chr qq 0)
    let j ← Dict.get dflav (chr qq 1)
    return jmsBernIDown qq [i, j] [j, i]
  else if qq = "uc" then .ok (jmsBernIUp qq)
  else .error .unmodelled

/-- wet.py:71-80. -/
noncomputable def bernFlavioITable (qq qqf : String) : Block String :=
  [("CVLL_" ++ (qqf ++ qqf), key ("1" ++ (qq ++ qq))),
   ("CSLL_" ++ (qqf ++ qqf), key ("2" ++ (qq ++ qq)) - (1 / 2 : ℂ) * key ("3" ++ (qq ++ qq))),
   ("CTLL_" ++ (qqf ++ qqf), (-1 / 8 : ℂ) * key ("3" ++ (qq ++ qq))),
   ("CVLR_" ++ (qqf ++ qqf), (-1 / 2 : ℂ) * key ("5" ++ (qq ++ qq))),
   ("CVRR_" ++ (qqf ++ qqf), key ("1p" ++ (qq ++ qq))),
   ("CSRR_" ++ (qqf ++ qqf), key ("2p" ++ (qq ++ qq)) - (1 / 2 : ℂ) * key ("3p" ++ (qq ++ qq))),
   ("CTRR_" ++ (qqf ++ qqf), (-1 / 8 : ℂ) * key ("3p" ++ (qq ++ qq))),
   ("CSLR_" ++ (qqf ++ qqf), key ("4" ++ (qq ++ qq)))]

/-- wet.py:66-82 `_BernI_to_Flavio_I`. -/
noncomputable def bernFlavioI (qq : String) : Except PyErr (Block String) :=
  if qq ∈ ["sb", "db", "ds", "uc"] then .ok (bernFlavioITable qq (pyRev qq)) else .error .unmodelled

/-- wet.py:90-99. -/
noncomputable def flavioBernITable (qq qqb : String) : Block String :=
  [("1" ++ (qqb ++ qqb), key ("CVLL_" ++ (qq ++ qq))),
   ("2" ++ (qqb ++ qqb), key ("CSLL_" ++ (qq ++ qq)) - (4 : ℂ) * key ("CTLL_" ++ (qq ++ qq))),
   ("3" ++ (qqb ++ qqb), (-8 : ℂ) * key ("CTLL_" ++ (qq ++ qq))),
   ("4" ++ (qqb ++ qqb), key ("CSLR_" ++ (qq ++ qq))),
   ("5" ++ (qqb ++ qqb), (-2 : ℂ) * key ("CVLR_" ++ (qq ++ qq))),
   ("1p" ++ (qqb ++ qqb), key ("CVRR_" ++ (qq ++ qq))),
   ("2p" ++ (qqb ++ qqb), key ("CSRR_" ++ (qq ++ qq)) - (4 : ℂ) * key ("CTRR_" ++ (qq ++ qq))),
   ("3p" ++ (qqb ++ qqb), (-8 : ℂ) * key ("CTRR_" ++ (qq ++ qq)))]

/-- wet.py:85-101 `_FlavioI_to_Bern_I`. -/
noncomputable def flavioBernI (qq : String) : Except PyErr (Block String) :=
  if qq ∈ ["bs", "bd", "sd", "cu"] then .ok (flavioBernITable qq (pyRev qq)) else .error .unmodelled

/-- wet.py:109-118. -/
noncomputable def bernFormFlavorITable (qq qqf : String) : Block String :=
  [("CVLL_" ++ (qqf ++ qqf), key ("1" ++ (qq ++ qq))),
   ("CSLL_" ++ (qqf ++ qqf), key ("2" ++ (qq ++ qq)) + (1 / 2 : ℂ) * key ("3" ++ (qq ++ qq))),
   ("CTLL_" ++ (qqf ++ qqf), (-1 / 8 : ℂ) * key ("3" ++ (qq ++ qq))),
   ("CVLR_" ++ (qqf ++ qqf), (-1 / 2 : ℂ) * key ("5" ++ (qq ++ qq))),
   ("CVRR_" ++ (qqf ++ qqf), key ("1p" ++ (qq ++ qq))),
   ("CSRR_" ++ (qqf ++ qqf), key ("2p" ++ (qq ++ qq)) + (1 / 2 : ℂ) * key ("3p" ++ (qq ++ qq))),
   ("CTRR_" ++ (qqf ++ qqf), (-1 / 8 : ℂ) * key ("3p" ++ (qq ++ qq))),
   ("CSLR_" ++ (qqf ++ qqf), key ("4" ++ (qq ++ qq)))]

/-- wet.py:104-120 `_BernI_to_FormFlavor_I`. -/
noncomputable def bernFormFlavorI (qq : String) : Except PyErr (Block String) :=
  if qq ∈ ["sb", "db", "ds", "uc"] then .ok (bernFormFlavorITable qq (pyRev qq)) else .error .unmodelled

/-! ### Class II -/

/-- `ind` of wet.py:132, 153, 178, 203. -/
def indII (x : String) : String := chr x 0 ++ chr x 1 ++ lepPart x ++ nuPart x

/-- `ind2` of wet.py:155, 180. -/
def indIIfl (x : String) : String := chr x 1 ++ chr x 0 ++ lepPart x ++ "nu" ++ nuPart x

/-- `ind2` of wet.py:205. -/
def indIIeos (x : String) : String := chr x 0 ++ lepPart x ++ "nu" ++ nuPart x

/-- wet.py:134-140. -/
noncomputable def jmsBernIITable (ind : String) (u d l lp : Fin 3) : Block JSrc :=
  [("1" ++ ind, cj (el "VnueduLL" [lp, l, d, u])),
   ("5" ++ ind, cj (el "SnueduRL" [lp, l, d, u])),
   ("1p" ++ ind, cj (el "VnueduLR" [lp, l, d, u])),
   ("5p" ++ ind, cj (el "SnueduRR" [lp, l, d, u])),
   ("7p" ++ ind, cj (el "TnueduRR" [lp, l, d, u]))]

/-- The four index lookups of wet.py:128-131 (also 148-151, 173-176, 198-201). -/
def flavII (x : String) : Except PyErr (Fin 3 × Fin 3 × Fin 3 × Fin 3) := do
  let u ← Dict.get uflav (chr x 0)
  let d ← Dict.get dflav (chr x 1)
  let l ← Dict.get lflav (lepPart x)
  let lp ← Dict.get lflav (nuPart x)
  return (u, d, l, lp)

/-- wet.py:125-140 `_JMS_to_Bern_II`. -/
noncomputable def jmsBernII (x : String) : Except PyErr (Block JSrc) := do
  let (u, d, l, lp) ← flavII x
  return jmsBernIITable (indII x) u d l lp

/-- wet.py:164, 189, 214: `prefactor = -sqrt(2) / p['GF'] / V[u, d] / 4`. -/
noncomputable def prefII (P : PEnv) (u d : Fin 3) : Except PyErr ℂ := do
  let a ← divE (-Real.sqrt 2) P.p.GF
  let b ← divC a (P.V u d)
  return b / 4

/-- wet.py:157-162. -/
def bernFlavioIITable (ind ind2 : String) : Block String :=
  [("CVL_" ++ ind2, key ("1" ++ ind)),
   ("CVR_" ++ ind2, key ("1p" ++ ind)),
   ("CSR_" ++ ind2, key ("5" ++ ind)),
   ("CSL_" ++ ind2, key ("5p" ++ ind)),
   ("CT_" ++ ind2, key ("7p" ++ ind))]

/-- wet.py:143-165 `_BernII_to_Flavio_II`. -/
noncomputable def bernFlavioII (P : PEnv) (x : String) : Except PyErr (Block String) := do
  let (u, d, _, _) ← flavII x
  let pre ← prefII P u d
  return scaleBy pre (bernFlavioIITable (indII x) (indIIfl x))

/-- wet.py:182-187. -/
def flavioBernIITable (ind ind2 : String) : Block String :=
  [("1" ++ ind, key ("CVL_" ++ ind2)),
   ("1p" ++ ind, key ("CVR_" ++ ind2)),
   ("5" ++ ind, key ("CSR_" ++ ind2)),
   ("5p" ++ ind, key ("CSL_" ++ ind2)),
   ("7p" ++ ind, key ("CT_" ++ ind2))]

/-- wet.py:168-190 `_FlavioII_to_BernII`. -/
noncomputable def flavioBernII (P : PEnv) (x : String) : Except PyErr (Block String) := do
  let (u, d, _, _) ← flavII x
  let pre ← prefII P u d
  return divideBy pre (flavioBernIITable (indII x) (indIIfl x))

/-- wet.py:207-212. -/
def bernEosIITable (ind ind2 : String) : Block String :=
  [("b->" ++ ind2 ++ "::cVL", key ("1" ++ ind)),
   ("b->" ++ ind2 ++ "::cVR", key ("1p" ++ ind)),
   ("b->" ++ ind2 ++ "::cSR", key ("5" ++ ind)),
   ("b->" ++ ind2 ++ "::cSL", key ("5p" ++ ind)),
   ("b->" ++ ind2 ++ "::cT", key ("7p" ++ ind))]

/-- wet.py:193-215 `_BernII_to_EOS_II`. -/
noncomputable def bernEosII (P : PEnv) (x : String) : Except PyErr (Block String) := do
  let (u, d, _, _) ← flavII x
  let pre ← prefII P u d
  return scaleBy pre (bernEosIITable (indII x) (indIIeos x))

/-! ### Classes III, IV, V: four-quark operators -/

/-- wet.py:231-268. -/
noncomputable def fierzDDUU (qqqq : String) (f1 f2 f3 f4 : Fin 3) : Block JSrc :=
  [("F" ++ qqqq ++ "1", el "V1udLL" [f3, f4, f1, f2] - el "V8udLL" [f3, f4, f1, f2] / (2 * Nc : ℂ)),
   ("F" ++ qqqq ++ "2", el "V8udLL" [f3, f4, f1, f2] / (2 : ℂ)),
   ("F" ++ qqqq ++ "3", el "V1duLR" [f1, f2, f3, f4] - el "V8duLR" [f1, f2, f3, f4] / (2 * Nc : ℂ)),
   ("F" ++ qqqq ++ "4", el "V8duLR" [f1, f2, f3, f4] / (2 : ℂ)),
   ("F" ++ qqqq ++ "5", el "S1udRR" [f3, f4, f1, f2] - el "S8udduRR" [f3, f2, f1, f4] / (4 : ℂ)
     - el "S8udRR" [f3, f4, f1, f2] / (2 * Nc : ℂ)),
   ("F" ++ qqqq ++ "6", (-el "S1udduRR" [f3, f2, f1, f4]) / (2 : ℂ) + el "S8udduRR" [f3, f2, f1, f4] / (4 * Nc : ℂ)
     + el "S8udRR" [f3, f4, f1, f2] / (2 : ℂ)),
   ("F" ++ qqqq ++ "7", -cj (el "V8udduLR" [f4, f1, f2, f3])),
   ("F" ++ qqqq ++ "8", (-2 : ℂ) * cj (el "V1udduLR" [f4, f1, f2, f3]) + cj (el "V8udduLR" [f4, f1, f2, f3]) / Nc),
   ("F" ++ qqqq ++ "9", (-el "S8udduRR" [f3, f2, f1, f4]) / (16 : ℂ)),
   ("F" ++ qqqq ++ "10", (-el "S1udduRR" [f3, f2, f1, f4]) / (8 : ℂ)
     + el "S8udduRR" [f3, f2, f1, f4] / (16 * Nc : ℂ)),
   ("F" ++ qqqq ++ "1p", el "V1udRR" [f3, f4, f1, f2] - el "V8udRR" [f3, f4, f1, f2] / (2 * Nc : ℂ)),
   ("F" ++ qqqq ++ "2p", el "V8udRR" [f3, f4, f1, f2] / (2 : ℂ)),
   ("F" ++ qqqq ++ "3p", el "V1udLR" [f3, f4, f1, f2] - el "V8udLR" [f3, f4, f1, f2] / (2 * Nc : ℂ)),
   ("F" ++ qqqq ++ "4p", el "V8udLR" [f3, f4, f1, f2] / (2 : ℂ)),
   ("F" ++ qqqq ++ "5p", cj (el "S1udRR" [f4, f3, f2, f1]) - cj (el "S8udduRR" [f4, f1, f2, f3]) / (4 : ℂ)
     - cj (el "S8udRR" [f4, f3, f2, f1]) / (2 * Nc : ℂ)),
   ("F" ++ qqqq ++ "6p", (-cj (el "S1udduRR" [f4, f1, f2, f3])) / (2 : ℂ)
     + cj (el "S8udduRR" [f4, f1, f2, f3]) / (4 * Nc : ℂ) + cj (el "S8udRR" [f4, f3, f2, f1]) / (2 : ℂ)),
   ("F" ++ qqqq ++ "7p", -el "V8udduLR" [f3, f2, f1, f4]),
   ("F" ++ qqqq ++ "8p", (-2 : ℂ) * el "V1udduLR" [f3, f2, f1, f4] + el "V8udduLR" [f3, f2, f1, f4] / Nc),
   ("F" ++ qqqq ++ "9p", (-cj (el "S8udduRR" [f4, f1, f2, f3])) / (16 : ℂ)),
   ("F" ++ qqqq ++ "10p", (-cj (el "S1udduRR" [f4, f1, f2, f3])) / (8 : ℂ)
     + cj (el "S8udduRR" [f4, f1, f2, f3]) / (16 : ℂ) / Nc)]

/-- wet.py:278-313. -/
noncomputable def fierzDDDD (qqqq : String) (f1 f2 f3 f4 : Fin 3) : Block JSrc :=
  [("F" ++ qqqq ++ "1", el "VddLL" [f3, f4, f1, f2]),
   ("F" ++ qqqq ++ "2", el "VddLL" [f1, f4, f3, f2]),
   ("F" ++ qqqq ++ "3", el "V1ddLR" [f1, f2, f3, f4] - el "V8ddLR" [f1, f2, f3, f4] / (2 * Nc : ℂ)),
   ("F" ++ qqqq ++ "4", el "V8ddLR" [f1, f2, f3, f4] / (2 : ℂ)),
   ("F" ++ qqqq ++ "5", el "S1ddRR" [f3, f4, f1, f2] - el "S8ddRR" [f3, f2, f1, f4] / (4 : ℂ)
     - el "S8ddRR" [f3, f4, f1, f2] / (2 * Nc : ℂ)),
   ("F" ++ qqqq ++ "6", (-el "S1ddRR" [f1, f4, f3, f2]) / (2 : ℂ) + el "S8ddRR" [f3, f2, f1, f4] / (4 * Nc : ℂ)
     + el "S8ddRR" [f3, f4, f1, f2] / (2 : ℂ)),
   ("F" ++ qqqq ++ "7", -el "V8ddLR" [f1, f4, f3, f2]),
   ("F" ++ qqqq ++ "8", (-2 : ℂ) * el "V1ddLR" [f1, f4, f3, f2] + el "V8ddLR" [f1, f4, f3, f2] / Nc),
   ("F" ++ qqqq ++ "9", (-el "S8ddRR" [f3, f2, f1, f4]) / (16 : ℂ)),
   ("F" ++ qqqq ++ "10", (-el "S1ddRR" [f1, f4, f3, f2]) / (8 : ℂ) + el "S8ddRR" [f3, f2, f1, f4] / (16 * Nc : ℂ)),
   ("F" ++ qqqq ++ "1p", el "VddRR" [f3, f4, f1, f2]),
   ("F" ++ qqqq ++ "2p", el "VddRR" [f1, f3, f4, f2]),
   ("F" ++ qqqq ++ "3p", el "V1ddLR" [f3, f4, f1, f2] - el "V8ddLR" [f3, f4, f1, f2] / (2 * Nc : ℂ)),
   ("F" ++ qqqq ++ "4p", el "V8ddLR" [f3, f4, f1, f2] / (2 : ℂ)),
   ("F" ++ qqqq ++ "5p", cj (el "S1ddRR" [f4, f3, f2, f1]) - cj (el "S8ddRR" [f4, f1, f2, f3]) / (4 : ℂ)
     - cj (el "S8ddRR" [f4, f3, f2, f1]) / (2 : ℂ) / Nc),
   ("F" ++ qqqq ++ "6p", (-cj (el "S1ddRR" [f4, f1, f2, f3])) / (2 : ℂ)
     + cj (el "S8ddRR" [f4, f1, f2, f3]) / (4 : ℂ) / Nc + cj (el "S8ddRR" [f4, f3, f2, f1]) / (2 : ℂ)),
   ("F" ++ qqqq ++ "7p", -el "V8ddLR" [f3, f2, f1, f4]),
   ("F" ++ qqqq ++ "8p", (-2 : ℂ) * el "V1ddLR" [f3, f2, f1, f4] + el "V8ddLR" [f3, f2, f1, f4] / Nc),
   ("F" ++ qqqq ++ "9p", (-cj (el "S8ddRR" [f4, f1, f2, f3])) / (16 : ℂ)),
   ("F" ++ qqqq ++ "10p", (-cj (el "S1ddRR" [f4, f1, f2, f3])) / (8 : ℂ)
     + cj (el "S8ddRR" [f4, f1, f2, f3]) / (16 : ℂ) / Nc)]

/-- wet.py:321-356. -/
noncomputable def fierzUUUU (qqqq : String) (f1 f2 f3 f4 : Fin 3) : Block JSrc :=
  [("F" ++ qqqq ++ "1", el "VuuLL" [f3, f4, f1, f2]),
   ("F" ++ qqqq ++ "2", el "VuuLL" [f1, f4, f3, f2]),
   ("F" ++ qqqq ++ "3", el "V1uuLR" [f1, f2, f3, f4] - el "V8uuLR" [f1, f2, f3, f4] / (2 * Nc : ℂ)),
   ("F" ++ qqqq ++ "4", el "V8uuLR" [f1, f2, f3, f4] / (2 : ℂ)),
   ("F" ++ qqqq ++ "5", el "S1uuRR" [f3, f4, f1, f2] - el "S8uuRR" [f3, f2, f1, f4] / (4 : ℂ)
     - el "S8uuRR" [f3, f4, f1, f2] / (2 * Nc : ℂ)),
   ("F" ++ qqqq ++ "6", (-el "S1uuRR" [f1, f4, f3, f2]) / (2 : ℂ) + el "S8uuRR" [f3, f2, f1, f4] / (4 * Nc : ℂ)
     + el "S8uuRR" [f3, f4, f1, f2] / (2 : ℂ)),
   ("F" ++ qqqq ++ "7", -el "V8uuLR" [f1, f4, f3, f2]),
   ("F" ++ qqqq ++ "8", (-2 : ℂ) * el "V1uuLR" [f1, f4, f3, f2] + el "V8uuLR" [f1, f4, f3, f2] / Nc),
   ("F" ++ qqqq ++ "9", (-el "S8uuRR" [f3, f2, f1, f4]) / (16 : ℂ)),
   ("F" ++ qqqq ++ "10", (-el "S1uuRR" [f1, f4, f3, f2]) / (8 : ℂ) + el "S8uuRR" [f3, f2, f1, f4] / (16 * Nc : ℂ)),
   ("F" ++ qqqq ++ "1p", el "VuuRR" [f3, f4, f1, f2]),
   ("F" ++ qqqq ++ "2p", el "VuuRR" [f1, f3, f4, f2]),
   ("F" ++ qqqq ++ "3p", el "V1uuLR" [f3, f4, f1, f2] - el "V8uuLR" [f3, f4, f1, f2] / (2 * Nc : ℂ)),
   ("F" ++ qqqq ++ "4p", el "V8uuLR" [f3, f4, f1, f2] / (2 : ℂ)),
   ("F" ++ qqqq ++ "5p", cj (el "S1uuRR" [f4, f3, f2, f1]) - cj (el "S8uuRR" [f4, f1, f2, f3]) / (4 : ℂ)
     - cj (el "S8uuRR" [f4, f3, f2, f1]) / (2 : ℂ) / Nc),
   ("F" ++ qqqq ++ "6p", (-cj (el "S1uuRR" [f4, f1, f2, f3])) / (2 : ℂ)
     + cj (el "S8uuRR" [f4, f1, f2, f3]) / (4 : ℂ) / Nc + cj (el "S8uuRR" [f4, f3, f2, f1]) / (2 : ℂ)),
   ("F" ++ qqqq ++ "7p", -el "V8uuLR" [f3, f2, f1, f4]),
   ("F" ++ qqqq ++ "8p", (-2 : ℂ) * el "V1uuLR" [f3, f2, f1, f4] + el "V8uuLR" [f3, f2, f1, f4] / Nc),
   ("F" ++ qqqq ++ "9p", (-cj (el "S8uuRR" [f4, f1, f2, f3])) / (16 : ℂ)),
   ("F" ++ qqqq ++ "10p", (-cj (el "S1uuRR" [f4, f1, f2, f3])) / (8 : ℂ)
     + cj (el "S8uuRR" [f4, f1, f2, f3]) / (16 : ℂ) / Nc)]

/-- Index lookups of wet.py:227-230, 279-282, 328-331. -/
def flav4 (t1 t2 : Dict String (Fin 3)) (x : String) : Except PyErr (Fin 3 × Fin 3 × Fin 3 × Fin 3) := do
  let f1 ← Dict.get t1 (chr x 0)
  let f2 ← Dict.get t1 (chr x 1)
  let f3 ← Dict.get t2 (chr x 2)
  let f4 ← Dict.get t2 (chr x 3)
  return (f1, f2, f3, f4)

/-- wet.py:220-358 `_JMS_to_Fierz_III_IV_V`. -/
noncomputable def jmsFierzV (x : String) : Except PyErr (Block JSrc) :=
  if x ∈ ["sbuc", "sbcu", "dbuc", "dbcu", "dsuc", "dscu", "sbuu", "dbuu", "dsuu", "sbcc", "dbcc", "dscc"] then do
    let (f1, f2, f3, f4) ← flav4 dflav uflav x
    return fierzDDUU x f1 f2 f3 f4
  else if x ∈ ["sbsd", "dbds", "bsbd", "sbss", "dbdd", "dsdd", "sbbb", "dbbb", "dsss", "sbdd", "dsbb", "dbss"] then do
    let (f1, f2, f3, f4) ← flav4 dflav dflav x
    return fierzDDDD x f1 f2 f3 f4
  else if x ∈ ["ucuu", "cucc"] then do
    let (f1, f2, f3, f4) ← flav4 uflav uflav x
    return fierzUUUU x f1 f2 f3 f4
  else .error .unmodelled

/-- wet.py:366-387. -/
noncomputable def fierzBern24 (qqqq : String) : Block String :=
  [("1" ++ qqqq, (-key ("F" ++ qqqq ++ "1")) / (3 : ℂ) + (4 : ℂ) * key ("F" ++ qqqq ++ "3") / (3 : ℂ)),
   ("3" ++ qqqq, key ("F" ++ qqqq ++ "1") / (12 : ℂ) - key ("F" ++ qqqq ++ "3") / (12 : ℂ)),
   ("5" ++ qqqq, (-key ("F" ++ qqqq ++ "5p")) / (3 : ℂ) + (4 : ℂ) * key ("F" ++ qqqq ++ "7p") / (3 : ℂ)),
   ("7" ++ qqqq, key ("F" ++ qqqq ++ "5p") / (3 : ℂ) - key ("F" ++ qqqq ++ "7p") / (3 : ℂ)
     + key ("F" ++ qqqq ++ "9p")),
   ("9" ++ qqqq, key ("F" ++ qqqq ++ "5p") / (48 : ℂ) - key ("F" ++ qqqq ++ "7p") / (48 : ℂ)),
   ("1p" ++ qqqq, (-key ("F" ++ qqqq ++ "1p")) / (3 : ℂ) + (4 : ℂ) * key ("F" ++ qqqq ++ "3p") / (3 : ℂ)),
   ("3p" ++ qqqq, key ("F" ++ qqqq ++ "1p") / (12 : ℂ) - key ("F" ++ qqqq ++ "3p") / (12 : ℂ)),
   ("5p" ++ qqqq, (-key ("F" ++ qqqq ++ "5")) / (3 : ℂ) + (4 : ℂ) * key ("F" ++ qqqq ++ "7") / (3 : ℂ)),
   ("7p" ++ qqqq, key ("F" ++ qqqq ++ "5") / (3 : ℂ) - key ("F" ++ qqqq ++ "7") / (3 : ℂ)
     + key ("F" ++ qqqq ++ "9")),
   ("9p" ++ qqqq, key ("F" ++ qqqq ++ "5") / (48 : ℂ) - key ("F" ++ qqqq ++ "7") / (48 : ℂ))]

/-- wet.py:389-410. -/
noncomputable def fierzBern22 (qqqq : String) : Block String :=
  [("1" ++ qqqq, (-key ("F" ++ qqqq ++ "1")) / (3 : ℂ) + (4 : ℂ) * key ("F" ++ qqqq ++ "3") / (3 : ℂ)),
   ("3" ++ qqqq, key ("F" ++ qqqq ++ "1") / (12 : ℂ) - key ("F" ++ qqqq ++ "3") / (12 : ℂ)),
   ("5" ++ qqqq, (-key ("F" ++ qqqq ++ "5")) / (3 : ℂ) + (4 : ℂ) * key ("F" ++ qqqq ++ "7") / (3 : ℂ)),
   ("7" ++ qqqq, key ("F" ++ qqqq ++ "5") / (3 : ℂ) - key ("F" ++ qqqq ++ "7") / (3 : ℂ)
     + key ("F" ++ qqqq ++ "9")),
   ("9" ++ qqqq, key ("F" ++ qqqq ++ "5") / (48 : ℂ) - key ("F" ++ qqqq ++ "7") / (48 : ℂ)),
   ("1p" ++ qqqq, (-key ("F" ++ qqqq ++ "1p")) / (3 : ℂ) + (4 : ℂ) * key ("F" ++ qqqq ++ "3p") / (3 : ℂ)),
   ("3p" ++ qqqq, key ("F" ++ qqqq ++ "1p") / (12 : ℂ) - key ("F" ++ qqqq ++ "3p") / (12 : ℂ)),
   ("5p" ++ qqqq, (-key ("F" ++ qqqq ++ "5p")) / (3 : ℂ) + (4 : ℂ) * key ("F" ++ qqqq ++ "7p") / (3 : ℂ)),
   ("7p" ++ qqqq, key ("F" ++ qqqq ++ "5p") / (3 : ℂ) - key ("F" ++ qqqq ++ "7p") / (3 : ℂ)
     + key ("F" ++ qqqq ++ "9p")),
   ("9p" ++ qqqq, key ("F" ++ qqqq ++ "5p") / (48 : ℂ) - key ("F" ++ qqqq ++ "7p") / (48 : ℂ))]

/-- wet.py:415-472. -/
noncomputable def fierzBernGen (qqqq : String) : Block String :=
  [("1" ++ qqqq, (-key ("F" ++ qqqq ++ "1")) / (3 : ℂ) + (4 : ℂ) * key ("F" ++ qqqq ++ "3") / (3 : ℂ)
     - key ("F" ++ qqqq ++ "2") / (3 * Nc : ℂ) + (4 : ℂ) * key ("F" ++ qqqq ++ "4") / (3 * Nc : ℂ)),
   ("2" ++ qqqq, (-2 : ℂ) * key ("F" ++ qqqq ++ "2") / (3 : ℂ) + (8 : ℂ) * key ("F" ++ qqqq ++ "4") / (3 : ℂ)),
   ("3" ++ qqqq, key ("F" ++ qqqq ++ "1") / (12 : ℂ) - key ("F" ++ qqqq ++ "3") / (12 : ℂ)
     + key ("F" ++ qqqq ++ "2") / (12 * Nc : ℂ) - key ("F" ++ qqqq ++ "4") / (12 * Nc : ℂ)),
   ("4" ++ qqqq, key ("F" ++ qqqq ++ "2") / (6 : ℂ) - key ("F" ++ qqqq ++ "4") / (6 : ℂ)),
   ("5" ++ qqqq, (-key ("F" ++ qqqq ++ "5")) / (3 : ℂ) + (4 : ℂ) * key ("F" ++ qqqq ++ "7") / (3 : ℂ)
     - key ("F" ++ qqqq ++ "6") / (3 * Nc : ℂ) + (4 : ℂ) * key ("F" ++ qqqq ++ "8") / (3 * Nc : ℂ)),
   ("6" ++ qqqq, (-2 : ℂ) * key ("F" ++ qqqq ++ "6") / (3 : ℂ) + (8 : ℂ) * key ("F" ++ qqqq ++ "8") / (3 : ℂ)),
   ("7" ++ qqqq, key ("F" ++ qqqq ++ "5") / (3 : ℂ) - key ("F" ++ qqqq ++ "7") / (3 : ℂ) + key ("F" ++ qqqq ++ "9")
     + key ("F" ++ qqqq ++ "10") / Nc + key ("F" ++ qqqq ++ "6") / (3 * Nc : ℂ)
     - key ("F" ++ qqqq ++ "8") / (3 * Nc : ℂ)),
   ("8" ++ qqqq, (2 : ℂ) * key ("F" ++ qqqq ++ "10") + (2 : ℂ) * key ("F" ++ qqqq ++ "6") / (3 : ℂ)
     - (2 : ℂ) * key ("F" ++ qqqq ++ "8") / (3 : ℂ)),
   ("9" ++ qqqq, key ("F" ++ qqqq ++ "5") / (48 : ℂ) - key ("F" ++ qqqq ++ "7") / (48 : ℂ)
     + key ("F" ++ qqqq ++ "6") / (48 * Nc : ℂ) - key ("F" ++ qqqq ++ "8") / (48 * Nc : ℂ)),
   ("10" ++ qqqq, key ("F" ++ qqqq ++ "6") / (24 : ℂ) - key ("F" ++ qqqq ++ "8") / (24 : ℂ)),
   ("1p" ++ qqqq, (-key ("F" ++ qqqq ++ "1p")) / (3 : ℂ) + (4 : ℂ) * key ("F" ++ qqqq ++ "3p") / (3 : ℂ)
     - key ("F" ++ qqqq ++ "2p") / (3 * Nc : ℂ) + (4 : ℂ) * key ("F" ++ qqqq ++ "4p") / (3 * Nc : ℂ)),
   ("2p" ++ qqqq, (-2 : ℂ) * key ("F" ++ qqqq ++ "2p") / (3 : ℂ) + (8 : ℂ) * key ("F" ++ qqqq ++ "4p") / (3 : ℂ)),
   ("3p" ++ qqqq, key ("F" ++ qqqq ++ "1p") / (12 : ℂ) - key ("F" ++ qqqq ++ "3p") / (12 : ℂ)
     + key ("F" ++ qqqq ++ "2p") / (12 * Nc : ℂ) - key ("F" ++ qqqq ++ "4p") / (12 * Nc : ℂ)),
   ("4p" ++ qqqq, key ("F" ++ qqqq ++ "2p") / (6 : ℂ) - key ("F" ++ qqqq ++ "4p") / (6 : ℂ)),
   ("5p" ++ qqqq, (-key ("F" ++ qqqq ++ "5p")) / (3 : ℂ) + (4 : ℂ) * key ("F" ++ qqqq ++ "7p") / (3 : ℂ)
     - key ("F" ++ qqqq ++ "6p") / (3 * Nc : ℂ) + (4 : ℂ) * key ("F" ++ qqqq ++ "8p") / (3 * Nc : ℂ)),
   ("6p" ++ qqqq, (-2 : ℂ) * key ("F" ++ qqqq ++ "6p") / (3 : ℂ) + (8 : ℂ) * key ("F" ++ qqqq ++ "8p") / (3 : ℂ)),
   ("7p" ++ qqqq, key ("F" ++ qqqq ++ "5p") / (3 : ℂ) - key ("F" ++ qqqq ++ "7p") / (3 : ℂ)
     + key ("F" ++ qqqq ++ "9p") + key ("F" ++ qqqq ++ "10p") / Nc + key ("F" ++ qqqq ++ "6p") / (3 * Nc : ℂ)
     - key ("F" ++ qqqq ++ "8p") / (3 * Nc : ℂ)),
   ("8p" ++ qqqq, (2 : ℂ) * key ("F" ++ qqqq ++ "10p") + (2 : ℂ) * key ("F" ++ qqqq ++ "6p") / (3 : ℂ)
     - (2 : ℂ) * key ("F" ++ qqqq ++ "8p") / (3 : ℂ)),
   ("9p" ++ qqqq, key ("F" ++ qqqq ++ "5p") / (48 : ℂ) - key ("F" ++ qqqq ++ "7p") / (48 : ℂ)
     + key ("F" ++ qqqq ++ "6p") / (48 * Nc : ℂ) - key ("F" ++ qqqq ++ "8p") / (48 * Nc : ℂ)),
   ("10p" ++ qqqq, key ("F" ++ qqqq ++ "6p") / (24 : ℂ) - key ("F" ++ qqqq ++ "8p") / (24 : ℂ))]

/-- wet.py:361-473 `_Fierz_to_Bern_III_IV_V`. -/
noncomputable def fierzBernV (x : String) : Except PyErr (Block String) :=
  if x ∈ ["sbss", "dbdd", "dbds", "sbsd", "bsbd", "dsdd"] then .ok (fierzBern24 x)
  else if x ∈ ["dbbb", "sbbb", "dsss"] then .ok (fierzBern22 x)
  else if x ∈ ["sbuu", "sbdd", "sbuu", "sbuc", "sbcu", "sbcc", "dbuu", "dbss", "dbuu", "dbuc", "dbcu", "dbcc",
      "dsuu", "dsbb", "dsuu", "dsuc", "dscu", "dscc"] then .ok (fierzBernGen x)
  else .error (.valueError "Case not implemented")

/-- wet.py:483-515. -/
noncomputable def fierzEosVTable : Block (String × String) :=
  [("b->s::c1", (-2 : ℂ) * key2 "Fsbbb" "Fsbbb1" / (5 : ℂ) + key2 "Fsbcc" "Fsbcc1"
     - (6 : ℂ) * key2 "Fsbdd" "Fsbdd1" / (5 : ℂ) + (4 : ℂ) * key2 "Fsbdd" "Fsbdd2" / (5 : ℂ)
     - (2 : ℂ) * key2 "Fsbss" "Fsbss1" / (5 : ℂ) + key2 "Fsbuu" "Fsbuu1"),
   ("b->s::c2", (-4 : ℂ) * key2 "Fsbbb" "Fsbbb1" / (15 : ℂ) + key2 "Fsbcc" "Fsbcc1" / (6 : ℂ)
     + key2 "Fsbcc" "Fsbcc2" / (2 : ℂ) + key2 "Fsbdd" "Fsbdd1" / (5 : ℂ)
     - (7 : ℂ) * key2 "Fsbdd" "Fsbdd2" / (15 : ℂ) - (4 : ℂ) * key2 "Fsbss" "Fsbss1" / (15 : ℂ)
     + key2 "Fsbuu" "Fsbuu1" / (6 : ℂ) + key2 "Fsbuu" "Fsbuu2" / (2 : ℂ)),
   ("b->s::c3", (-4 : ℂ) * key2 "Fsbbb" "Fsbbb1" / (45 : ℂ) + (4 : ℂ) * key2 "Fsbbb" "Fsbbb3" / (15 : ℂ)
     + (4 : ℂ) * key2 "Fsbbb" "Fsbbb4" / (45 : ℂ) + (4 : ℂ) * key2 "Fsbcc" "Fsbcc3" / (15 : ℂ)
     + (4 : ℂ) * key2 "Fsbcc" "Fsbcc4" / (45 : ℂ) - (7 : ℂ) * key2 "Fsbdd" "Fsbdd1" / (45 : ℂ)
     + key2 "Fsbdd" "Fsbdd2" / (15 : ℂ) + (4 : ℂ) * key2 "Fsbdd" "Fsbdd3" / (15 : ℂ)
     + (4 : ℂ) * key2 "Fsbdd" "Fsbdd4" / (45 : ℂ) - (4 : ℂ) * key2 "Fsbss" "Fsbss1" / (45 : ℂ)
     + (4 : ℂ) * key2 "Fsbss" "Fsbss3" / (15 : ℂ) + (4 : ℂ) * key2 "Fsbss" "Fsbss4" / (45 : ℂ)
     + (4 : ℂ) * key2 "Fsbuu" "Fsbuu3" / (15 : ℂ) + (4 : ℂ) * key2 "Fsbuu" "Fsbuu4" / (45 : ℂ)),
   ("b->s::c4", (-2 : ℂ) * key2 "Fsbbb" "Fsbbb1" / (15 : ℂ) + (8 : ℂ) * key2 "Fsbbb" "Fsbbb4" / (15 : ℂ)
     + (8 : ℂ) * key2 "Fsbcc" "Fsbcc4" / (15 : ℂ) + (4 : ℂ) * key2 "Fsbdd" "Fsbdd1" / (15 : ℂ)
     - (2 : ℂ) * key2 "Fsbdd" "Fsbdd2" / (5 : ℂ) + (8 : ℂ) * key2 "Fsbdd" "Fsbdd4" / (15 : ℂ)
     - (2 : ℂ) * key2 "Fsbss" "Fsbss1" / (15 : ℂ) + (8 : ℂ) * key2 "Fsbss" "Fsbss4" / (15 : ℂ)
     + (8 : ℂ) * key2 "Fsbuu" "Fsbuu4" / (15 : ℂ)),
   ("b->s::c5", key2 "Fsbbb" "Fsbbb1" / (45 : ℂ) - key2 "Fsbbb" "Fsbbb3" / (60 : ℂ)
     - key2 "Fsbbb" "Fsbbb4" / (180 : ℂ) - key2 "Fsbcc" "Fsbcc3" / (60 : ℂ) - key2 "Fsbcc" "Fsbcc4" / (180 : ℂ)
     + (7 : ℂ) * key2 "Fsbdd" "Fsbdd1" / (180 : ℂ) - key2 "Fsbdd" "Fsbdd2" / (60 : ℂ)
     - key2 "Fsbdd" "Fsbdd3" / (60 : ℂ) - key2 "Fsbdd" "Fsbdd4" / (180 : ℂ) + key2 "Fsbss" "Fsbss1" / (45 : ℂ)
     - key2 "Fsbss" "Fsbss3" / (60 : ℂ) - key2 "Fsbss" "Fsbss4" / (180 : ℂ) - key2 "Fsbuu" "Fsbuu3" / (60 : ℂ)
     - key2 "Fsbuu" "Fsbuu4" / (180 : ℂ)),
   ("b->s::c6", key2 "Fsbbb" "Fsbbb1" / (30 : ℂ) - key2 "Fsbbb" "Fsbbb4" / (30 : ℂ)
     - key2 "Fsbcc" "Fsbcc4" / (30 : ℂ) - key2 "Fsbdd" "Fsbdd1" / (15 : ℂ) + key2 "Fsbdd" "Fsbdd2" / (10 : ℂ)
     - key2 "Fsbdd" "Fsbdd4" / (30 : ℂ) + key2 "Fsbss" "Fsbss1" / (30 : ℂ) - key2 "Fsbss" "Fsbss4" / (30 : ℂ)
     - key2 "Fsbuu" "Fsbuu4" / (30 : ℂ))]

/-- wet.py:519, 695, 845: `prefactor = sqrt(2)/p['GF']/Vtb/Vts.conj()/4`. -/
noncomputable def prefEos (P : PEnv) : Except PyErr ℂ := do
  let a ← divE (Real.sqrt 2) P.p.GF
  let b ← divC a (P.V 2 2)
  let c ← divC b (starRingEnd ℂ (P.V 2 1))
  return c / 4

/-- wet.py:476-520 `_Fierz_to_EOS_V`. -/
noncomputable def fierzEosV (P : PEnv) : Except PyErr (Block (String × String)) := do
  let pre ← prefEos P
  return scaleBy pre fierzEosVTable

/-! ### Semileptonic operators -/

/-- `ddll.replace('l_','').replace('nu_','')`. -/
def indLep (x : String) : String := pyReplace "nu_" "" (pyReplace "l_" "" x)

/-- `indfl = ddll[1::-1]+ind[2:]`. -/
def indLepFl (x : String) : String := chr x 1 ++ chr x 0 ++ String.ofList ((indLep x).toList.drop 2)

/-- `indnu = ddll[1::-1]+ddll.replace('l_','nu').replace('nu_','nu')[2:]`. -/
def indNuFl (x : String) : String :=
  chr x 1 ++ chr x 0 ++ String.ofList ((pyReplace "nu_" "nu" (pyReplace "l_" "nu" x)).toList.drop 2)

/-- wet.py:531-554. -/
noncomputable def jmsFierzLepTable (ind : String) (s b l lp : Fin 3) : Block JSrc :=
  [("F" ++ ind ++ "9", el "VdeLR" [s, b, l, lp] / (2 : ℂ) + el "VedLL" [l, lp, s, b] / (2 : ℂ)),
   ("F" ++ ind ++ "10", el "VdeLR" [s, b, l, lp] / (2 : ℂ) - el "VedLL" [l, lp, s, b] / (2 : ℂ)),
   ("F" ++ ind ++ "S", cj (el "SedRL" [lp, l, b, s]) / (2 : ℂ) + el "SedRR" [l, lp, s, b] / (2 : ℂ)),
   ("F" ++ ind ++ "P", (-cj (el "SedRL" [lp, l, b, s])) / (2 : ℂ) + el "SedRR" [l, lp, s, b] / (2 : ℂ)),
   ("F" ++ ind ++ "T", el "TedRR" [l, lp, s, b] / (2 : ℂ) + cj (el "TedRR" [lp, l, b, s]) / (2 : ℂ)),
   ("F" ++ ind ++ "T5", el "TedRR" [l, lp, s, b] / (2 : ℂ) - cj (el "TedRR" [lp, l, b, s]) / (2 : ℂ)),
   ("F" ++ ind ++ "9p", el "VedLR" [l, lp, s, b] / (2 : ℂ) + el "VedRR" [l, lp, s, b] / (2 : ℂ)),
   ("F" ++ ind ++ "10p", (-el "VedLR" [l, lp, s, b]) / (2 : ℂ) + el "VedRR" [l, lp, s, b] / (2 : ℂ)),
   ("F" ++ ind ++ "Sp", el "SedRL" [l, lp, s, b] / (2 : ℂ) + cj (el "SedRR" [lp, l, b, s]) / (2 : ℂ)),
   ("F" ++ ind ++ "Pp", el "SedRL" [l, lp, s, b] / (2 : ℂ) - cj (el "SedRR" [lp, l, b, s]) / (2 : ℂ)),
   ("F" ++ ind ++ "nu", el "VnudLL" [l, lp, s, b]),
   ("F" ++ ind ++ "nup", el "VnudLR" [l, lp, s, b])]

/-- wet.py:523-554 `JMS_to_Fierz_lep`. -/
noncomputable def jmsFierzLep (x : String) : Except PyErr (Block JSrc) := do
  let s ← Dict.get dflav (chr x 0)
  let b ← Dict.get dflav (chr x 1)
  let l ← Dict.get lflav (lepPart x)
  let lp ← Dict.get lflav (nuPart x)
  return jmsFierzLepTable (indLep x) s b l lp

/-- wet.py:562-576. -/
noncomputable def fierzBernLepTable (ind : String) : Block String :=
  [("1" ++ ind, (5 : ℂ) * key ("F" ++ ind ++ "10") / (3 : ℂ) + key ("F" ++ ind ++ "9")),
   ("3" ++ ind, (-key ("F" ++ ind ++ "10")) / (6 : ℂ)),
   ("5" ++ ind, key ("F" ++ ind ++ "S") - (5 : ℂ) * key ("F" ++ ind ++ "P") / (3 : ℂ)),
   ("7" ++ ind, (2 : ℂ) * key ("F" ++ ind ++ "P") / (3 : ℂ) + key ("F" ++ ind ++ "T") + key ("F" ++ ind ++ "T5")),
   ("9" ++ ind, key ("F" ++ ind ++ "P") / (24 : ℂ)),
   ("1p" ++ ind, key ("F" ++ ind ++ "9p") - (5 : ℂ) * key ("F" ++ ind ++ "10p") / (3 : ℂ)),
   ("3p" ++ ind, key ("F" ++ ind ++ "10p") / (6 : ℂ)),
   ("5p" ++ ind, (5 : ℂ) * key ("F" ++ ind ++ "Pp") / (3 : ℂ) + key ("F" ++ ind ++ "Sp")),
   ("7p" ++ ind, (-2 : ℂ) * key ("F" ++ ind ++ "Pp") / (3 : ℂ) + key ("F" ++ ind ++ "T")
     - key ("F" ++ ind ++ "T5")),
   ("9p" ++ ind, (-key ("F" ++ ind ++ "Pp")) / (24 : ℂ)),
   ("nu1" ++ ind, key ("F" ++ ind ++ "nu")),
   ("nu1p" ++ ind, key ("F" ++ ind ++ "nup"))]

/-- wet.py:557-576 `Fierz_to_Bern_lep`. -/
noncomputable def fierzBernLep (x : String) : Except PyErr (Block String) := .ok (fierzBernLepTable (indLep x))

/-- wet.py:584-596. -/
noncomputable def bernFierzLepTable (ind : String) : Block String :=
  [("F" ++ ind ++ "9", key ("1" ++ ind) + (10 : ℂ) * key ("3" ++ ind)),
   ("F" ++ ind ++ "10", (-6 : ℂ) * key ("3" ++ ind)),
   ("F" ++ ind ++ "S", key ("5" ++ ind) + (40 : ℂ) * key ("9" ++ ind)),
   ("F" ++ ind ++ "P", (24 : ℂ) * key ("9" ++ ind)),
   ("F" ++ ind ++ "T", key ("7" ++ ind) / (2 : ℂ) + key ("7p" ++ ind) / (2 : ℂ) - (8 : ℂ) * key ("9" ++ ind)
     - (8 : ℂ) * key ("9p" ++ ind)),
   ("F" ++ ind ++ "T5", key ("7" ++ ind) / (2 : ℂ) - key ("7p" ++ ind) / (2 : ℂ) - (8 : ℂ) * key ("9" ++ ind)
     + (8 : ℂ) * key ("9p" ++ ind)),
   ("F" ++ ind ++ "9p", key ("1p" ++ ind) + (10 : ℂ) * key ("3p" ++ ind)),
   ("F" ++ ind ++ "10p", (6 : ℂ) * key ("3p" ++ ind)),
   ("F" ++ ind ++ "Sp", key ("5p" ++ ind) + (40 : ℂ) * key ("9p" ++ ind)),
   ("F" ++ ind ++ "Pp", (-24 : ℂ) * key ("9p" ++ ind)),
   ("F" ++ ind ++ "nu", key ("nu1" ++ ind)),
   ("F" ++ ind ++ "nup", key ("nu1p" ++ ind))]

/-- wet.py:579-596 `Bern_to_Fierz_lep`. -/
noncomputable def bernFierzLep (x : String) : Except PyErr (Block String) := .ok (bernFierzLepTable (indLep x))

/-- wet.py:605-612, 643-650, 772-779, 799-806: the CKM factor for a pair of down-type quarks. -/
noncomputable def xiOf (P : PEnv) (dd : String) : Except PyErr ℂ :=
  if dd = "sb" then .ok (P.V 2 2 * starRingEnd ℂ (P.V 2 1))
  else if dd = "db" then .ok (P.V 2 2 * starRingEnd ℂ (P.V 2 0))
  else if dd = "ds" then .ok (P.V 2 1 * starRingEnd ℂ (P.V 2 0))
  else .error (.valueError "Unexpected flavours")

/-- wet.py:633, 670, 790, 817: `prefactor = sqrt(2)/p['GF']/xi/4`. -/
noncomputable def prefXi (P : PEnv) (xi : ℂ) : Except PyErr ℂ := do
  let a ← divE (Real.sqrt 2) P.p.GF
  let b ← divC a xi
  return b / 4

/-- wet.py:619-620. `k8 = (8 * pi**2) / e**2`. -/
noncomputable def fierzFlavioNuTable (ind indnu : String) (k8 : ℝ) : Block String :=
  [("CL_" ++ indnu, (k8 : ℂ) * key ("F" ++ ind ++ "nu")),
   ("CR_" ++ indnu, (k8 : ℂ) * key ("F" ++ ind ++ "nup"))]

/-- wet.py:624-631. `k16 = (16 * pi**2) / e**2`, `kS = k16 / mb`. -/
noncomputable def fierzFlavioLepTable (ind indfl : String) (k16 kS : ℝ) : Block String :=
  [("C9_" ++ indfl, (k16 : ℂ) * key ("F" ++ ind ++ "9")),
   ("C9p_" ++ indfl, (k16 : ℂ) * key ("F" ++ ind ++ "9p")),
   ("C10_" ++ indfl, (k16 : ℂ) * key ("F" ++ ind ++ "10")),
   ("C10p_" ++ indfl, (k16 : ℂ) * key ("F" ++ ind ++ "10p")),
   ("CS_" ++ indfl, (kS : ℂ) * key ("F" ++ ind ++ "S")),
   ("CSp_" ++ indfl, (kS : ℂ) * key ("F" ++ ind ++ "Sp")),
   ("CP_" ++ indfl, (kS : ℂ) * key ("F" ++ ind ++ "P")),
   ("CPp_" ++ indfl, (kS : ℂ) * key ("F" ++ ind ++ "Pp"))]

/-- wet.py:599-634 `Fierz_to_Flavio_lep`. -/
noncomputable def fierzFlavioLep (P : PEnv) (x : String) (includeCharged : Bool) : Except PyErr (Block String) := do
  let xi ← xiOf P (pySlice x 0 2)
  let e ← P.e
  let k8 ← divE (8 * Real.pi ^ 2) (e ^ 2)
  let dic := fierzFlavioNuTable (indLep x) (indNuFl x) k8
  if includeCharged then
    let k16 ← divE (16 * Real.pi ^ 2) (e ^ 2)
    let kS ← divE k16 P.p.m_b
    let pre ← prefXi P xi
    return scaleBy pre (dic ++ fierzFlavioLepTable (indLep x) (indLepFl x) k16 kS)
  else
    let pre ← prefXi P xi
    return scaleBy pre dic

/-- wet.py:656-669. -/
noncomputable def flavioFierzLepTable (ind indfl indnu : String) (k8 k16 kS : ℝ) : Block String :=
  [("F" ++ ind ++ "9", key ("C9_" ++ indfl) / (k16 : ℂ)),
   ("F" ++ ind ++ "9p", key ("C9p_" ++ indfl) / (k16 : ℂ)),
   ("F" ++ ind ++ "10", key ("C10_" ++ indfl) / (k16 : ℂ)),
   ("F" ++ ind ++ "10p", key ("C10p_" ++ indfl) / (k16 : ℂ)),
   ("F" ++ ind ++ "S", key ("CS_" ++ indfl) / (kS : ℂ)),
   ("F" ++ ind ++ "Sp", key ("CSp_" ++ indfl) / (kS : ℂ)),
   ("F" ++ ind ++ "P", key ("CP_" ++ indfl) / (kS : ℂ)),
   ("F" ++ ind ++ "Pp", key ("CPp_" ++ indfl) / (kS : ℂ)),
   ("F" ++ ind ++ "nu", key ("CL_" ++ indnu) / (k8 : ℂ)),
   ("F" ++ ind ++ "nup", key ("CR_" ++ indnu) / (k8 : ℂ)),
   ("F" ++ ind ++ "T", Ex.zero),
   ("F" ++ ind ++ "T5", Ex.zero)]

/-- wet.py:637-671 `Flavio_to_Fierz_lep`. -/
noncomputable def flavioFierzLep (P : PEnv) (x : String) : Except PyErr (Block String) := do
  let xi ← xiOf P (pySlice x 0 2)
  let e ← P.e
  let k16 ← divE (16 * Real.pi ^ 2) (e ^ 2)
  let kS ← divE k16 P.p.m_b
  let k8 ← divE (8 * Real.pi ^ 2) (e ^ 2)
  let pre ← prefXi P xi
  return divideBy pre (flavioFierzLepTable (indLep x) (indLepFl x) (indNuFl x) k8 k16 kS)

/-- wet.py:684-694. -/
noncomputable def fierzEosLepTable (ind ind2 : String) (k16 : ℝ) : Block String :=
  [("b->s" ++ ind2 ++ "::c9", (k16 : ℂ) * key ("F" ++ ind ++ "9")),
   ("b->s" ++ ind2 ++ "::c9'", (k16 : ℂ) * key ("F" ++ ind ++ "9p")),
   ("b->s" ++ ind2 ++ "::c10", (k16 : ℂ) * key ("F" ++ ind ++ "10")),
   ("b->s" ++ ind2 ++ "::c10'", (k16 : ℂ) * key ("F" ++ ind ++ "10p")),
   ("b->s" ++ ind2 ++ "::cS", (k16 : ℂ) * key ("F" ++ ind ++ "S")),
   ("b->s" ++ ind2 ++ "::cS'", (k16 : ℂ) * key ("F" ++ ind ++ "Sp")),
   ("b->s" ++ ind2 ++ "::cP", (k16 : ℂ) * key ("F" ++ ind ++ "P")),
   ("b->s" ++ ind2 ++ "::cP'", (k16 : ℂ) * key ("F" ++ ind ++ "Pp")),
   ("b->s" ++ ind2 ++ "::cT", (k16 : ℂ) * key ("F" ++ ind ++ "T")),
   ("b->s" ++ ind2 ++ "::cT5", (k16 : ℂ) * key ("F" ++ ind ++ "T5"))]

/-- wet.py:674-698 `Fierz_to_EOS_lep`. -/
noncomputable def fierzEosLep (P : PEnv) (x : String) : Except PyErr (Block String) := do
  let e ← P.e
  let k16 ← divE (16 * Real.pi ^ 2) (e ^ 2)
  let pre ← prefEos P
  return scaleBy pre (fierzEosLepTable (indLep x) (String.ofList ((indLep x).toList.drop 2)) k16)

/-- The index `s - 1` of an axis of length 3; -1 is the last entry. -/
def axisPred : Fin 3 → Fin 3
  | 0 => 2
  | 1 => 0
  | 2 => 1

/-- wet.py:707-723. -/
noncomputable def jmsFormFlavorLepTable (dd : String) (b s : Fin 3) : Block JSrc :=
  [("CVLL_" ++ dd ++ "mm", el "VedLL" [1, 1, s, b]),
   ("CVRR_" ++ dd ++ "mm", el "VedRR" [1, 1, s, b]),
   ("CVLR_" ++ dd ++ "mm", el "VdeLR" [s, b, 1, 1]),
   ("CVRL_" ++ dd ++ "mm", el "VedLR" [1, 1, s, b]),
   ("CSLL_" ++ dd ++ "mm", cj (el "SedRR" [1, 1, b, s])),
   ("CSRR_" ++ dd ++ "mm", el "SedRR" [1, 1, s, b]),
   ("CSLR_" ++ dd ++ "mm", el "SedRL" [1, 1, s, b]),
   ("CSRL_" ++ dd ++ "mm", cj (el "SedRL" [1, 1, b, s])),
   ("CTLL_" ++ dd ++ "mm", cj (el "TedRR" [1, 1, b, s])),
   ("CTRR_" ++ dd ++ "mm", el "TedRR" [1, 1, s, b]),
   ("CVLL_sdnn", (1 / 3 : ℂ) * el "VnudLL" [0, 0, axisPred s, s] + (1 / 3 : ℂ) * el "VnudLL" [1, 1, axisPred s, s]
     + (1 / 3 : ℂ) * el "VnudLL" [2, 2, axisPred s, s]),
   ("CVRL_sdnn", (1 / 3 : ℂ) * el "VnudLR" [0, 0, axisPred s, s] + (1 / 3 : ℂ) * el "VnudLR" [1, 1, axisPred s, s]
     + (1 / 3 : ℂ) * el "VnudLR" [2, 2, axisPred s, s])]

/-- wet.py:700-723 `JMS_to_FormFlavor_lep`. -/
noncomputable def jmsFormFlavorLep (dd : String) : Except PyErr (Block JSrc) := do
  let b ← Dict.get dflav (chr dd 0)
  let s ← Dict.get dflav (chr dd 1)
  return jmsFormFlavorLepTable dd b s

/-! ### Dipole operators -/

/-- wet.py:731-736. -/
noncomputable def jmsFierzChromTable (dd : String) (s b : Fin 3) : Block JSrc :=
  [("F7gamma" ++ dd, el "dgamma" [s, b]),
   ("F8g" ++ dd, el "dG" [s, b]),
   ("F7pgamma" ++ dd, cj (el "dgamma" [b, s])),
   ("F8pg" ++ dd, cj (el "dG" [b, s]))]

/-- wet.py:726-736 `JMS_to_Fierz_chrom`. -/
noncomputable def jmsFierzChrom (dd : String) : Except PyErr (Block JSrc) := do
  let s ← Dict.get dflav (chr dd 0)
  let b ← Dict.get dflav (chr dd 1)
  return jmsFierzChromTable dd s b

/-- wet.py:745-750. `kg = gs**2 / e / mb`, `k8 = gs / mb`. -/
noncomputable def fierzBernChromTable (dd : String) (kg k8 : ℝ) : Block String :=
  [("7gamma" ++ dd, (kg : ℂ) * key ("F7gamma" ++ dd)),
   ("8g" ++ dd, (k8 : ℂ) * key ("F8g" ++ dd)),
   ("7pgamma" ++ dd, (kg : ℂ) * key ("F7pgamma" ++ dd)),
   ("8pg" ++ dd, (k8 : ℂ) * key ("F8pg" ++ dd))]

/-- The factors of wet.py:742-744 and 756-758. -/
noncomputable def bernChromFactors (P : PEnv) : Except PyErr (ℝ × ℝ) := do
  let e ← P.e
  let gs ← P.gs
  let a ← divE (gs ^ 2) e
  let kg ← divE a P.p.m_b
  let k8 ← divE gs P.p.m_b
  return (kg, k8)

/-- wet.py:739-750 `Fierz_to_Bern_chrom`. -/
noncomputable def fierzBernChrom (P : PEnv) (dd : String) : Except PyErr (Block String) := do
  let (kg, k8) ← bernChromFactors P
  return fierzBernChromTable dd kg k8

/-- wet.py:759-764. -/
noncomputable def bernFierzChromTable (dd : String) (kg k8 : ℝ) : Block String :=
  [("F7gamma" ++ dd, key ("7gamma" ++ dd) / (kg : ℂ)),
   ("F8g" ++ dd, key ("8g" ++ dd) / (k8 : ℂ)),
   ("F7pgamma" ++ dd, key ("7pgamma" ++ dd) / (kg : ℂ)),
   ("F8pg" ++ dd, key ("8pg" ++ dd) / (k8 : ℂ))]

/-- wet.py:753-764 `Bern_to_Fierz_chrom`: the factors are divisors here. -/
noncomputable def bernFierzChrom (P : PEnv) (dd : String) : Except PyErr (Block String) := do
  let (kg, k8) ← bernChromFactors P
  let _ ← divE 1 kg
  let _ ← divE 1 k8
  return bernFierzChromTable dd kg k8

/-- The factors `(16 * pi**2) / e / mb` and `(16 * pi**2) / gs / mb` of wet.py:781-783, 808-810. -/
noncomputable def flavioChromFactors (P : PEnv) : Except PyErr (ℝ × ℝ) := do
  let e ← P.e
  let gs ← P.gs
  let a ← divE (16 * Real.pi ^ 2) e
  let k7 ← divE a P.p.m_b
  let b ← divE (16 * Real.pi ^ 2) gs
  let k8 ← divE b P.p.m_b
  return (k7, k8)

/-- wet.py:784-789. -/
noncomputable def fierzFlavioChromTable (dd ddfl : String) (k7 k8 : ℝ) : Block String :=
  [("C7_" ++ ddfl, (k7 : ℂ) * key ("F7gamma" ++ dd)),
   ("C8_" ++ ddfl, (k8 : ℂ) * key ("F8g" ++ dd)),
   ("C7p_" ++ ddfl, (k7 : ℂ) * key ("F7pgamma" ++ dd)),
   ("C8p_" ++ ddfl, (k8 : ℂ) * key ("F8pg" ++ dd))]

/-- wet.py:767-791 `Fierz_to_Flavio_chrom`. -/
noncomputable def fierzFlavioChrom (P : PEnv) (dd : String) : Except PyErr (Block String) := do
  let xi ← xiOf P dd
  let (k7, k8) ← flavioChromFactors P
  let pre ← prefXi P xi
  return scaleBy pre (fierzFlavioChromTable dd (pyRev dd) k7 k8)

/-- wet.py:811-816. -/
noncomputable def flavioFierzChromTable (dd ddfl : String) (k7 k8 : ℝ) : Block String :=
  [("F7gamma" ++ dd, key ("C7_" ++ ddfl) / (k7 : ℂ)),
   ("F8g" ++ dd, key ("C8_" ++ ddfl) / (k8 : ℂ)),
   ("F7pgamma" ++ dd, key ("C7p_" ++ ddfl) / (k7 : ℂ)),
   ("F8pg" ++ dd, key ("C8p_" ++ ddfl) / (k8 : ℂ))]

/-- wet.py:794-818 `Flavio_to_Fierz_chrom`. -/
noncomputable def flavioFierzChrom (P : PEnv) (dd : String) : Except PyErr (Block String) := do
  let xi ← xiOf P dd
  let (k7, k8) ← flavioChromFactors P
  let pre ← prefXi P xi
  return divideBy pre (flavioFierzChromTable dd (pyRev dd) k7 k8)

/-- wet.py:832-844. `eb = 16 * pi**2 * mb / e`, `es = 16 * pi**2 * ms / e`, `gb`, `gS` with `gs` instead of `e`,
`den = mb**2 - ms**2`. -/
noncomputable def fierzEosChromTable (dd : String) (eb es gb gS den : ℝ) : Block String :=
  [("b->s::c7", (eb : ℂ) * key ("F7gamma" ++ dd) / (den : ℂ) - (es : ℂ) * key ("F7pgamma" ++ dd) / (den : ℂ)),
   ("b->s::c7'", (-es : ℂ) * key ("F7gamma" ++ dd) / (den : ℂ) + (eb : ℂ) * key ("F7pgamma" ++ dd) / (den : ℂ)),
   ("b->s::c8", (gb : ℂ) * key ("F8g" ++ dd) / (den : ℂ) - (gS : ℂ) * key ("F8pg" ++ dd) / (den : ℂ)),
   ("b->s::c8'", (-gS : ℂ) * key ("F8g" ++ dd) / (den : ℂ) + (gb : ℂ) * key ("F8pg" ++ dd) / (den : ℂ))]

/-- wet.py:821-846 `Fierz_to_EOS_chrom`. -/
noncomputable def fierzEosChrom (P : PEnv) (dd : String) : Except PyErr (Block String) := do
  let e ← P.e
  let gs ← P.gs
  let eb ← divE (16 * Real.pi ^ 2 * P.p.m_b) e
  let es ← divE (16 * Real.pi ^ 2 * P.p.m_s) e
  let gb ← divE (16 * Real.pi ^ 2 * P.p.m_b) gs
  let gS ← divE (16 * Real.pi ^ 2 * P.p.m_s) gs
  let den := P.p.m_b ^ 2 - P.p.m_s ^ 2
  let _ ← divC 1 (den : ℂ)
  let pre ← prefEos P
  return scaleBy pre (fierzEosChromTable dd eb es gb gS den)

/-- wet.py:857-862. -/
noncomputable def formFlavorDownTable (qq : String) (s b : Fin 3) (e gs : ℝ) : Block JSrc :=
  [("CAR_" ++ qq, el "dgamma" [s, b] / (e : ℂ)),
   ("CGR_" ++ qq, el "dG" [s, b] / (gs : ℂ)),
   ("CAL_" ++ qq, cj (el "dgamma" [b, s]) / (e : ℂ)),
   ("CGL_" ++ qq, cj (el "dG" [b, s]) / (gs : ℂ))]

/-- wet.py:866-869. -/
noncomputable def formFlavorLepTable (qq : String) (l1 l2 : Fin 3) (e gs : ℝ) : Block JSrc :=
  [("CAR_" ++ qq, el "egamma" [l1, l2] / (e : ℂ)),
   ("CAL_" ++ qq, cj (el "egamma" [l2, l1]) / (gs : ℂ))]

/-- wet.py:873-878. -/
noncomputable def formFlavorUpTable (qq : String) (u c : Fin 3) (e gs : ℝ) : Block JSrc :=
  [("CAR_" ++ qq, el "ugamma" [u, c] / (e : ℂ)),
   ("CGR_" ++ qq, el "uG" [u, c] / (gs : ℂ)),
   ("CAL_" ++ qq, cj (el "ugamma" [c, u]) / (e : ℂ)),
   ("CGL_" ++ qq, cj (el "uG" [c, u]) / (gs : ℂ))]

/-- wet.py:849-880 `JMS_to_FormFlavor_chrom`. Division of a numpy number by zero is outside the model. -/
noncomputable def formFlavorChrom (P : PEnv) (qq : String) : Except PyErr (Block JSrc) := do
  let e ← P.e
  let gs ← P.gs
  let _ ← divC 1 (e : ℂ)
  let _ ← divC 1 (gs : ℂ)
  if chr qq 0 ∈ Dict.keys dflav then
    let s ← Dict.get dflav (chr qq 0)
    let b ← Dict.get dflav (chr qq 1)
    return formFlavorDownTable qq s b e gs
  else if chr qq 0 ∈ Dict.keys llflav then
    let l1 ← Dict.get llflav (chr qq 0)
    let l2 ← Dict.get llflav (chr qq 1)
    return formFlavorLepTable qq l1 l2 e gs
  else if chr qq 0 ∈ Dict.keys uflav then
    let u ← Dict.get uflav (chr qq 0)
    let c ← Dict.get uflav (chr qq 1)
    return formFlavorUpTable qq u c e gs
  else .error .unmodelled

end Verif
