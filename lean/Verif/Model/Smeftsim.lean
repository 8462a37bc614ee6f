import Verif.Model.SmeftsimSetA
import Verif.Model.SmeftsimSetB
import Verif.Model.IO
import Mathlib.Analysis.SpecialFunctions.Complex.Arg

/-!
Model of wcxf/converters/smeftsim.py and SMEFTsim_param_card_elements.py.

Numbers are exact. The distinction between Python's `float` and `complex` is kept, because `format(z, '.6e')`
writes a complex number as `1.000000e+00+0.000000e+00j`, which is not an entry of a parameter card. A cell of the card is the
number given to `format`; the formatting itself (six decimals) and `pylha.dump` are external.
`abs` and `numpy.angle` are the absolute value and the argument in (-pi, pi] (no signed zeros, infinities, NaN,
overflow of `lambda_smeft_value**2`).
-/

set_option autoImplicit false

namespace Verif

/-- A Python number as `WC._to_number` (classes.py:331-338) returns it. -/
inductive CNum where
  | float (x : ℝ)
  | complex (z : ℂ)

/-- The value. -/
def CNum.val : CNum → ℂ
  | .float x => x
  | .complex z => z

/-- classes.py:331-338 `_to_number`, with the type of the result. -/
noncomputable def toCNum (fl : String → Option ℝ) : JVal → Except PyErr CNum
  | .obj d => do
    let re ← pyFloat fl (Dict.getD d "Re" (.num 0))
    let im ← pyFloat fl (Dict.getD d "Im" (.num 0))
    return .complex ((re : ℂ) + Complex.I * (im : ℂ))
  | v => do
    let x ← pyFloat fl v
    return .float x

/-- classes.py:367-373 `WC.dict` of an object whose dictionary has not been computed, with the types of the numbers. A raw
`_dict` from a file is outside the model. -/
noncomputable def WC.numDict (fl : String → Option ℝ) (w : WC) : Except PyErr (Dict String CNum) :=
  match w.cache with
  | .none => do
    let d ← itemsOf w.values
    d.mapM fun p => do
      let z ← toCNum fl p.2
      return (p.1, z)
  | _ => .error .unmodelled

/-- `--model-set` -/
inductive ModelSet where
  | A | B
  deriving DecidableEq, Repr

/-- `--input-scheme` -/
inductive Scheme where
  | alpha | mw
  deriving DecidableEq, Repr

/-- An entry of a block: address, number given to `format`, comment. -/
structure CEntry where
  addr : List ℕ
  num : CNum
  comment : String

/-- The value of `card['Block']`: `none` is the empty `OrderedDict()`. -/
abbrev Card := Dict String (Option (List CEntry))

/-- smeftsim.py:10-46, block names of set A. -/
def initA : List String :=
  ["FRBlock", "FRBlock10", "FRBlock11", "FRBlock12", "FRBlock13", "FRBlock14", "FRBlock15", "FRBlock16",
  "FRBlock17", "FRBlock18", "FRBlock19", "FRBlock2", "FRBlock20", "FRBlock21", "FRBlock25", "FRBlock26",
  "FRBlock27", "FRBlock28", "FRBlock29", "FRBlock3", "FRBlock30", "FRBlock31", "FRBlock32", "FRBlock4",
  "FRBlock48", "FRBlock5", "FRBlock6", "FRBlock7", "FRBlock70", "FRBlock71", "FRBlock72", "FRBlock73", "FRBlock74",
  "FRBlock8", "FRBlock9"]

/-- smeftsim.py:48-86, block names of set B. -/
def initB : List String :=
  ["FRBlock", "FRBlock10", "FRBlock11", "FRBlock15", "FRBlock16", "FRBlock18", "FRBlock19", "FRBlock21",
  "FRBlock22", "FRBlock24", "FRBlock25", "FRBlock27", "FRBlock28", "FRBlock30", "FRBlock31", "FRBlock33",
  "FRBlock34", "FRBlock36", "FRBlock37", "FRBlock45", "FRBlock46", "FRBlock6", "FRBlock69", "FRBlock7",
  "FRBlock70", "FRBlock72", "FRBlock73", "FRBlock75", "FRBlock76", "FRBlock78", "FRBlock79", "FRBlock8",
  "FRBlock81", "FRBlock82", "FRBlock9", "NEWCOUP"]

/-- smeftsim.py:8-88 `initialize_smeftsim_card`. -/
def initializeCard : ModelSet → Card
  | .A => initA.map fun b => (b, none)
  | .B => initB.map fun b => (b, none)

/-- One expression `format(..., '.6e')` of a row. A coefficient that is not in the dictionary raises `KeyError`. -/
noncomputable def CRow.num (d : Dict String CNum) (lam : ℝ) (r : CRow) : Except PyErr CNum :=
  match r.kind with
  | .lam => .ok (.float lam)
  | .abs => do
    let z ← Dict.get d r.key
    return .float (‖z.val‖ * lam ^ 2)
  | .absOf => do
    let z ← Dict.get d r.key
    return .float ‖z.val * ((lam ^ 2 : ℝ) : ℂ)‖
  | .ph => do
    let z ← Dict.get d r.key
    return .float (Complex.arg z.val)
  | .val => do
    let z ← Dict.get d r.key
    match z with
    | .float x => return .float (x * lam ^ 2)
    | .complex z => return .complex (z * ((lam ^ 2 : ℝ) : ℂ))

/-- A row. -/
noncomputable def CRow.entry (d : Dict String CNum) (lam : ℝ) (r : CRow) : Except PyErr CEntry := do
  let x ← r.num d lam
  return ⟨r.addr, x, r.comment⟩

/-- The assignments of one model set, in order. -/
noncomputable def setBlocks : ModelSet → List (String × List CRow)
  | .A => blocksA
  | .B => blocksB

/-- `card['Block'][b] = {'values': [...]}` for the blocks in order. -/
noncomputable def fillBlocks (d : Dict String CNum) (lam : ℝ) : Card → List (String × List CRow) → Except PyErr Card
  | card, [] => .ok card
  | card, (b, rs) :: l => do
    let es ← rs.mapM (CRow.entry d lam)
    fillBlocks d lam (Dict.put card b (some es)) l

/-- smeftsim.py:2701. -/
noncomputable def mwRow : CEntry := ⟨[1475], .float 80.387, "# MW0"⟩

/-- smeftsim.py:91-5313 `smeftsim_card_fill`. -/
noncomputable def cardFill (card : Card) (d : Dict String CNum) (m : ModelSet) (lam : ℝ) (s : Scheme) : Except PyErr Card := do
  let card ← fillBlocks d lam card (setBlocks m)
  match m, s with
  | .A, .mw =>
    match ← Dict.get card "FRBlock" with
    | some es => return Dict.put card "FRBlock" (some (es.insertIdx (min 1474 es.length) mwRow))
    | none => .error .keyError
  | _, _ => return card

/-- SMEFTsim_param_card_elements.py:1-89 `preamble_A`, the lines. -/
def preambleA : List String := [
  "",
  "######################################################################",
  "## PARAM_CARD FOR SMEFTSIM SET A v2.0 - FLAVOR_GENERAL ALPHA_INPUTS  #####",
  "######################################################################",
  "",
  "###################################",
  "## INFORMATION FOR SMINPUTS",
  "###################################",
  "Block SMINPUTS ",
  "    1 7.815553e-03 # aEW ",
  "    2 1.166379e-05 # Gf ",
  "    3 1.181000e-01 # aS ",
  "",
  "###################################",
  "## INFORMATION FOR MASS",
  "###################################",
  "Block MASS ",
  "    1 4.700000e-03 # MD ",
  "    2 2.200000e-03 # MU ",
  "    3 9.600000e-02 # MS ",
  "    4 1.280000e+00 # MC ",
  "    5 4.180000e+00 # MB ",
  "    6 1.732000e+02 # MT ",
  "   11 5.110000e-04 # Me ",
  "   13 1.056600e-01 # MMU ",
  "   15 1.777000e+00 # MTA ",
  "   23 9.118760e+01 # MZ ",
  "   25 1.250900e+02 # MH ",
  "##  Not dependent paramater.",
  "## Those values should be edited following analytical the ",
  "## analytical expression. Some generator could simply ignore ",
  "## those values and use the analytical expression",
  "  22 0.000000 # a : 0.0 ",
  "  24 73.187688 # W+ : dMW + MW0 ",
  "  21 0.000000 # g : 0.0 ",
  "  9000001 0.000000 # ghA : 0.0 ",
  "  9000003 73.187688 # ghWp : dMW + MW0 ",
  "  9000004 73.187688 # ghWm : dMW + MW0 ",
  "  82 0.000000 # ghG : 0.0 ",
  "  12 0.000000 # ve : 0.0 ",
  "  14 0.000000 # vm : 0.0 ",
  "  16 0.000000 # vt : 0.0 ",
  "  251 73.187688 # G+ : dMW + MW0 ",
  "  9000002 91.187600 # ghZ : MZ ",
  "  250 91.187600 # G0 : MZ ",
  "",
  "###################################",
  "## INFORMATION FOR DECAY",
  "###################################",
  "DECAY   6 1.508336e+00 ",
  "DECAY  23 2.495200e+00 ",
  "DECAY  24 2.085000e+00 ",
  "DECAY  25 4.070000e-03 ",
  "##  Not dependent paramater.",
  "## Those values should be edited following analytical the ",
  "## analytical expression. Some generator could simply ignore ",
  "## those values and use the analytical expression",
  "DECAY  22 0.000000 # a : 0.0 ",
  "DECAY  21 0.000000 # g : 0.0 ",
  "DECAY  9000001 0.000000 # ghA : 0.0 ",
  "DECAY  82 0.000000 # ghG : 0.0 ",
  "DECAY  12 0.000000 # ve : 0.0 ",
  "DECAY  14 0.000000 # vm : 0.0 ",
  "DECAY  16 0.000000 # vt : 0.0 ",
  "DECAY  11 0.000000 # e- : 0.0 ",
  "DECAY  13 0.000000 # mu- : 0.0 ",
  "DECAY  15 0.000000 # ta- : 0.0 ",
  "DECAY  2 0.000000 # u : 0.0 ",
  "DECAY  4 0.000000 # c : 0.0 ",
  "DECAY  1 0.000000 # d : 0.0 ",
  "DECAY  3 0.000000 # s : 0.0 ",
  "DECAY  5 0.000000 # b : 0.0 ",
  "DECAY  9000002 2.495200 # ghZ : WZ ",
  "DECAY  9000003 2.085000 # ghWp : WW ",
  "DECAY  9000004 2.085000 # ghWm : WW ",
  "DECAY  250 2.495200 # G0 : WZ ",
  "DECAY  251 2.085000 # G+ : WW ",
  "",
  "###################################",
  "## INFORMATION FOR CKMBLOCK",
  "###################################",
  "Block CKMBLOCK ",
  "    1 2.277360e-01 # cabi ",
  "    2 2.250600e-01 # CKMlambda ",
  "    3 8.110000e-01 # CKMA ",
  "    4 1.240000e-01 # CKMrho ",
  "    5 3.560000e-01 # CKMeta ",
  "    ",
  ""]

/-- SMEFTsim_param_card_elements.py:91-145 `postamble_A`, the lines. -/
def postambleA : List String := [
  "",
  "",
  "###################################",
  "## INFORMATION FOR YUKAWA",
  "###################################",
  "Block YUKAWA ",
  "    1 4.700000e-03 # ymdo ",
  "    2 2.200000e-03 # ymup ",
  "    3 9.600000e-02 # yms ",
  "    4 1.280000e+00 # ymc ",
  "    5 4.180000e+00 # ymb ",
  "    6 1.732000e+02 # ymt ",
  "   11 5.110000e-04 # yme ",
  "   13 1.056600e-01 # ymm ",
  "   15 1.777000e+00 # ymtau ",
  "#===========================================================",
  "# QUANTUM NUMBERS OF NEW STATE(S) (NON SM PDG CODE)",
  "#===========================================================",
  "",
  "Block QNUMBERS 9000001  # ghA ",
  "        1 0  # 3 times electric charge",
  "        2 -1  # number of spin states (2S+1)",
  "        3 1  # colour rep (1: singlet, 3: triplet, 8: octet)",
  "        4 1  # Particle/Antiparticle distinction (0=own anti)",
  "Block QNUMBERS 9000002  # ghZ ",
  "        1 0  # 3 times electric charge",
  "        2 -1  # number of spin states (2S+1)",
  "        3 1  # colour rep (1: singlet, 3: triplet, 8: octet)",
  "        4 1  # Particle/Antiparticle distinction (0=own anti)",
  "Block QNUMBERS 9000003  # ghWp ",
  "        1 3  # 3 times electric charge",
  "        2 -1  # number of spin states (2S+1)",
  "        3 1  # colour rep (1: singlet, 3: triplet, 8: octet)",
  "        4 1  # Particle/Antiparticle distinction (0=own anti)",
  "Block QNUMBERS 9000004  # ghWm ",
  "        1 -3  # 3 times electric charge",
  "        2 -1  # number of spin states (2S+1)",
  "        3 1  # colour rep (1: singlet, 3: triplet, 8: octet)",
  "        4 1  # Particle/Antiparticle distinction (0=own anti)",
  "Block QNUMBERS 82  # ghG ",
  "        1 0  # 3 times electric charge",
  "        2 -1  # number of spin states (2S+1)",
  "        3 8  # colour rep (1: singlet, 3: triplet, 8: octet)",
  "        4 1  # Particle/Antiparticle distinction (0=own anti)",
  "Block QNUMBERS 250  # G0 ",
  "        1 0  # 3 times electric charge",
  "        2 1  # number of spin states (2S+1)",
  "        3 1  # colour rep (1: singlet, 3: triplet, 8: octet)",
  "        4 0  # Particle/Antiparticle distinction (0=own anti)",
  "Block QNUMBERS 251  # G+ ",
  "        1 3  # 3 times electric charge",
  "        2 1  # number of spin states (2S+1)",
  "        3 1  # colour rep (1: singlet, 3: triplet, 8: octet)",
  "        4 1  # Particle/Antiparticle distinction (0=own anti)",
  ""]

/-- SMEFTsim_param_card_elements.py:149-242 `preamble_B`, the lines. -/
def preambleB : List String := [
  "",
  "######################################################################",
  "## PARAM_CARD FOR SMEFTSIM SET B  - FLAVOR_GENERAL ALPHA_INPUTS  #####",
  "######################################################################",
  "",
  "###################################",
  "## INFORMATION FOR SMINPUTS",
  "###################################",
  "Block SMINPUTS ",
  "    1 1.279000e+02 # aEWM1 ",
  "    2 1.166370e-05 # Gf ",
  "    3 1.181000e-01 # aS ",
  "",
  "###################################",
  "## INFORMATION FOR MASS",
  "###################################",
  "Block MASS ",
  "    1 4.700000e-03 # MD ",
  "    2 2.200000e-03 # MU ",
  "    3 9.600000e-02 # MS ",
  "    4 1.280000e+00 # MC ",
  "    5 4.180000e+00 # MB ",
  "    6 1.731000e+02 # MT ",
  "   11 5.110000e-04 # Me ",
  "   13 1.056600e-01 # MMU ",
  "   15 1.777000e+00 # MTA ",
  "   23 9.118750e+01 # MZ ",
  "   25 1.250900e+02 # MH ",
  "##  Not dependent paramater.",
  "## Those values should be edited following analytical the ",
  "## analytical expression. Some generator could simply ignore ",
  "## those values and use the analytical expression",
  "  22 0.000000 # a : 0.0 ",
  "  24 79.824234 # W+ : dMW + MW0 ",
  "  21 0.000000 # g : 0.0 ",
  "  9000001 0.000000 # ghA : 0.0 ",
  "  9000003 79.824234 # ghWp : dMW + MW0 ",
  "  9000004 79.824234 # ghWm : dMW + MW0 ",
  "  82 0.000000 # ghG : 0.0 ",
  "  12 0.000000 # ve : 0.0 ",
  "  14 0.000000 # vm : 0.0 ",
  "  16 0.000000 # vt : 0.0 ",
  "  251 79.824234 # G+ : dMW + MW0 ",
  "  9000002 91.187500 # ghZ : MZ ",
  "  250 91.187500 # G0 : MZ ",
  "",
  "###################################",
  "## INFORMATION FOR DECAY",
  "###################################",
  "DECAY   6 1.508336e+00 ",
  "DECAY  23 2.495200e+00 ",
  "DECAY  24 2.085000e+00 ",
  "DECAY  25 4.070000e-03 ",
  "##  Not dependent paramater.",
  "## Those values should be edited following analytical the ",
  "## analytical expression. Some generator could simply ignore ",
  "## those values and use the analytical expression",
  "DECAY  22 0.000000 # a : 0.0 ",
  "DECAY  21 0.000000 # g : 0.0 ",
  "DECAY  9000001 0.000000 # ghA : 0.0 ",
  "DECAY  82 0.000000 # ghG : 0.0 ",
  "DECAY  12 0.000000 # ve : 0.0 ",
  "DECAY  14 0.000000 # vm : 0.0 ",
  "DECAY  16 0.000000 # vt : 0.0 ",
  "DECAY  11 0.000000 # e- : 0.0 ",
  "DECAY  13 0.000000 # mu- : 0.0 ",
  "DECAY  15 0.000000 # ta- : 0.0 ",
  "DECAY  2 0.000000 # u : 0.0 ",
  "DECAY  4 0.000000 # c : 0.0 ",
  "DECAY  1 0.000000 # d : 0.0 ",
  "DECAY  3 0.000000 # s : 0.0 ",
  "DECAY  5 0.000000 # b : 0.0 ",
  "DECAY  9000002 2.495200 # ghZ : WZ ",
  "DECAY  9000003 2.085000 # ghWp : WW ",
  "DECAY  9000004 2.085000 # ghWm : WW ",
  "DECAY  250 2.495200 # G0 : WZ ",
  "DECAY  251 2.085000 # G+ : WW ",
  "",
  "###################################",
  "## INFORMATION FOR CKMBLOCK",
  "###################################",
  "Block CKMBLOCK ",
  "    1 2.277360e-01 # cabi ",
  "    2 9.743400e-01 # CKM11 ",
  "    3 2.250600e-01 # CKM12 ",
  "    4 3.570000e-03 # CKM13 ",
  "    5 2.249200e-01 # CKM21 ",
  "    6 9.735100e-01 # CKM22 ",
  "    7 4.110000e-02 # CKM23 ",
  "    8 8.750000e-03 # CKM31 ",
  "    9 4.030000e-02 # CKM32 ",
  "   10 9.991500e-01 # CKM33 ",
  "    ",
  ""]

/-- SMEFTsim_param_card_elements.py:244-304 `postamble_B`, the lines. -/
def postambleB : List String := [
  "",
  "",
  "###################################",
  "## INFORMATION FOR NEWCOUPAUX",
  "###################################",
  "Block NEWCOUPaux ",
  "    0 1.000000e+00 # WC ",
  "",
  "###################################",
  "## INFORMATION FOR YUKAWA",
  "###################################",
  "Block YUKAWA ",
  "    1 4.700000e-03 # ymdo ",
  "    2 2.200000e-03 # ymup ",
  "    3 9.600000e-02 # yms ",
  "    4 1.280000e+00 # ymc ",
  "    5 4.180000e+00 # ymb ",
  "    6 1.731000e+02 # ymt ",
  "   11 5.110000e-04 # yme ",
  "   13 1.056600e-01 # ymm ",
  "   15 1.777000e+00 # ymtau ",
  "#===========================================================",
  "# QUANTUM NUMBERS OF NEW STATE(S) (NON SM PDG CODE)",
  "#===========================================================",
  "",
  "Block QNUMBERS 9000001  # ghA ",
  "        1 0  # 3 times electric charge",
  "        2 -1  # number of spin states (2S+1)",
  "        3 1  # colour rep (1: singlet, 3: triplet, 8: octet)",
  "        4 1  # Particle/Antiparticle distinction (0=own anti)",
  "Block QNUMBERS 9000002  # ghZ ",
  "        1 0  # 3 times electric charge",
  "        2 -1  # number of spin states (2S+1)",
  "        3 1  # colour rep (1: singlet, 3: triplet, 8: octet)",
  "        4 1  # Particle/Antiparticle distinction (0=own anti)",
  "Block QNUMBERS 9000003  # ghWp ",
  "        1 3  # 3 times electric charge",
  "        2 -1  # number of spin states (2S+1)",
  "        3 1  # colour rep (1: singlet, 3: triplet, 8: octet)",
  "        4 1  # Particle/Antiparticle distinction (0=own anti)",
  "Block QNUMBERS 9000004  # ghWm ",
  "        1 -3  # 3 times electric charge",
  "        2 -1  # number of spin states (2S+1)",
  "        3 1  # colour rep (1: singlet, 3: triplet, 8: octet)",
  "        4 1  # Particle/Antiparticle distinction (0=own anti)",
  "Block QNUMBERS 82  # ghG ",
  "        1 0  # 3 times electric charge",
  "        2 -1  # number of spin states (2S+1)",
  "        3 8  # colour rep (1: singlet, 3: triplet, 8: octet)",
  "        4 1  # Particle/Antiparticle distinction (0=own anti)",
  "Block QNUMBERS 250  # G0 ",
  "        1 0  # 3 times electric charge",
  "        2 1  # number of spin states (2S+1)",
  "        3 1  # colour rep (1: singlet, 3: triplet, 8: octet)",
  "        4 0  # Particle/Antiparticle distinction (0=own anti)",
  "Block QNUMBERS 251  # G+ ",
  "        1 3  # 3 times electric charge",
  "        2 1  # number of spin states (2S+1)",
  "        3 1  # colour rep (1: singlet, 3: triplet, 8: octet)",
  "        4 1  # Particle/Antiparticle distinction (0=own anti)",
  ""]
/-- `del l[i]`; an index that does not exist raises `IndexError`. -/
def pyDel (i : ℕ) (l : List String) : Except PyErr (List String) :=
  if i < l.length then .ok (l.eraseIdx i) else .error .indexError

/-- `l[i] = x`; an index that does not exist raises `IndexError`. -/
def pySet (i : ℕ) (x : String) (l : List String) : Except PyErr (List String) :=
  if i < l.length then .ok (l.set i x) else .error .indexError

/-- `l.insert(i, x)`. -/
def pyInsert (i : ℕ) (x : String) (l : List String) : Except PyErr (List String) := .ok (l.insertIdx (min i l.length) x)

/-- smeftsim.py:5318-5353 `smeftsim_card_text`, the lines of the two texts. `split('\n')` and `'\n'.join` are inverse to each
other on these texts. -/
def cardLines : ModelSet → Scheme → Except PyErr (List String × List String)
  | .A, .mw => do
    let p ← pyDel 9 preambleA
    let p ← pySet 2 "## PARAM_CARD FOR SMEFTSIM SET A v2.0 - FLAVOR_GENERAL MW_INPUTS  ########" p
    let p ← pySet 32 "24 80.387000 # W+ : MW0" p
    let p ← pySet 35 "9000003 80.387000 # ghWp : MW0" p
    let p ← pySet 36 "9000004 80.387000 # ghWm : MW0" p
    let p ← pySet 41 "251 80.387000 # G+ : MW0" p
    return (p, postambleA)
  | .B, .mw => do
    let p ← pyDel 9 preambleB
    let p ← pyDel 32 p
    let p ← pyDel 34 p
    let p ← pyDel 34 p
    let p ← pyDel 38 p
    let p ← pySet 2 "## PARAM_CARD FOR SMEFTSIM SET B  - FLAVOR_GENERAL MW_INPUTS  ########" p
    let p ← pySet 10 "    3 1.185000e-01 # aS" p
    let p ← pyInsert 26 "   24 8.038700e+01 # MW" p
    let p ← pyInsert 40 "   9000003 80.387000 # ghWp : MW" p
    let p ← pyInsert 41 "   9000004 80.387000 # ghWm : MW" p
    let p ← pyInsert 43 "   251 80.387000 # G+ : MW" p
    return (p, postambleB)
  | .A, .alpha => .ok (preambleA, postambleA)
  | .B, .alpha => .ok (preambleB, postambleB)

/-- The two texts. -/
def cardText (m : ModelSet) (s : Scheme) : Except PyErr (String × String) := do
  let (p, q) ← cardLines m s
  return ("\n".intercalate p, "\n".intercalate q)

end Verif
