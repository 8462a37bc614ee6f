import Verif.Spec.Wet

/-! The names of the coefficients that the translators between WET bases return. -/

set_option autoImplicit false

namespace Verif.Spec

/-- `flavio`: everything listed, and `s -> d nu nu`. -/
def flavioTargets : List String := flavioNames ++ flavioSdNuNu

/-- Bern, four quarks of which not two are alike apart from `d_i -> d_j`: twenty structures. -/
def bernQuark20 : List String :=
  words ["1", "2", "3", "4", "5", "6", "7", "8", "9", "10", "1p", "2p", "3p", "4p", "5p", "6p", "7p", "8p", "9p", "10p"]
    (words ["sb", "db", "ds"] (words ["u", "c"] ["u", "c"]) ++ ["sbdd", "dbss", "dsbb"])

/-- Bern, four down quarks with two alike: ten structures. -/
def bernQuark10 : List String :=
  words ["1", "3", "5", "7", "9", "1p", "3p", "5p", "7p", "9p"]
    ["sbss", "sbbb", "dbdd", "dbbb", "dsdd", "dsss", "dbds", "sbsd"]

/-- Bern, from JMS. -/
def bernTargets : List String :=
  bernNames ++ words ["7gamma", "8g", "7pgamma", "8pg"] ["ds"] ++ bernQuark20 ++ bernQuark10

/-- Bern, from flavio: no four-quark operators with `Delta F = 1`, and no `s -> d`. -/
def bernFromFlavio : List String :=
  words ["1", "2", "3", "4", "5", "1p", "2p", "3p"] ["sbsb", "dbdb", "dsds"] ++
  words ["1", "5", "1p", "5p", "7p"] (words ["u", "c"] (words ["d", "s", "b"] (words leptons leptons))) ++
  words ["1", "3", "5", "7", "9", "1p", "3p", "5p", "7p", "9p", "nu1", "nu1p"] (words ["sb", "db"] (words leptons leptons)) ++
  words ["7gamma", "8g", "7pgamma", "8pg"] ["sb", "db"]

/-- EOS. -/
def eosTargets : List String :=
  words ["b->uenue::", "b->umunumu::"] ["cVL", "cVR", "cSR", "cSL", "cT"] ++
  words ["b->s::"] ["c1", "c2", "c3", "c4", "c5", "c6", "c7", "c7'", "c8", "c8'"] ++
  words ["b->see::", "b->smumu::"] ["c9", "c9'", "c10", "c10'", "cS", "cS'", "cP", "cP'", "cT", "cT5"]

/-- FormFlavor. -/
def formFlavorTargets : List String :=
  words ["CVLL_", "CSLL_", "CTLL_", "CVLR_", "CVRR_", "CSRR_", "CTRR_", "CSLR_"] ["bsbs", "bdbd", "sdsd", "cucu"] ++
  words ["CVLL_", "CVRR_", "CVLR_", "CVRL_", "CSLL_", "CSRR_", "CSLR_", "CSRL_", "CTLL_", "CTRR_"] ["bsmm", "bdmm"] ++
  ["CVLL_sdnn", "CVRL_sdnn"] ++
  words ["CAR_", "CAL_", "CGR_", "CGL_"] ["sb", "db", "uu", "dd"] ++ words ["CAR_", "CAL_"] ["em", "mt", "et"]

end Verif.Spec
