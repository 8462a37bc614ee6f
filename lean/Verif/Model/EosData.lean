import Verif.Model.Eos

/-! The tables wcxf/data/eos_btos.yaml and wcxf/data/eos_btou.yaml with the Standard Model values of the EOS parameters, as parsed by
YAML. -/

set_option autoImplicit false

namespace Verif

/-- A parameter: name, central value, minimum, maximum. -/
abbrev EosRow := String × ℝ × ℝ × ℝ

/-- A parameter as data. -/
def EosRow.entry (r : EosRow) : String × JVal :=
  (r.1, .obj [("central", .num r.2.1), ("min", .num r.2.2.1), ("max", .num r.2.2.2)])

/-- A file (eos_btos.yaml:3-4, eos_btou.yaml:2-3 for the first entry). -/
def eosFileDoc (rows : List EosRow) : JVal := .obj (("@metadata@", .obj [("wcxf-relevant", .bool true)]) :: rows.map EosRow.entry)

/-- eos_btos.yaml:5-216. -/
noncomputable def eosBtos : List EosRow :=
  [("b->s::c1", -0.29063621, -0.29063621, -0.29063621),
   ("b->s::c2", 1.01029623, 1.01029623, 1.01029623),
   ("b->s::c3", -0.00616220, -0.00616220, -0.00616220),
   ("b->s::c4", -0.08730376, -0.08730376, -0.08730376),
   ("b->s::c5", 0.00042854, 0.00042854, 0.00042854),
   ("b->s::c6", 0.00115807, 0.00115807, 0.00115807),
   ("b->s::Re{c7}", -0.33726473, -1.0, 1.0),
   ("b->s::Im{c7}", 0.0, -1.0, 1.0),
   ("b->s::c8", -0.18288898, -0.18288898, -0.18288898),
   ("b->see::Re{c9}", 4.27342842, -15.0, 15.0),
   ("b->see::Im{c9}", 0.0, -15.0, 15.0),
   ("b->see::Re{c10}", -4.16611761, -15.0, 15.0),
   ("b->see::Im{c10}", 0.0, -15.0, 15.0),
   ("b->smumu::Re{c9}", 4.27342842, -15.0, 15.0),
   ("b->smumu::Im{c9}", 0.0, -15.0, 15.0),
   ("b->smumu::Re{c10}", -4.16611761, -15.0, 15.0),
   ("b->smumu::Im{c10}", 0.0, -15.0, 15.0),
   ("b->s::Re{c7'}", 0.0, -1.0, 1.0),
   ("b->s::Im{c7'}", 0.0, -1.0, 1.0),
   ("b->s::c8'", 0.0, 0.0, 0.0),
   ("b->see::Re{c9'}", 0.0, -15.0, 15.0),
   ("b->see::Im{c9'}", 0.0, -15.0, 15.0),
   ("b->see::Re{c10'}", 0.0, -15.0, 15.0),
   ("b->see::Im{c10'}", 0.0, -15.0, 15.0),
   ("b->smumu::Re{c9'}", 0.0, -15.0, 15.0),
   ("b->smumu::Im{c9'}", 0.0, -15.0, 15.0),
   ("b->smumu::Re{c10'}", 0.0, -15.0, 15.0),
   ("b->smumu::Im{c10'}", 0.0, -15.0, 15.0),
   ("b->see::Re{cS}", 0.0, -1.0, 1.0),
   ("b->see::Im{cS}", 0.0, -1.0, 1.0),
   ("b->see::Re{cS'}", 0.0, -1.0, 1.0),
   ("b->see::Im{cS'}", 0.0, -1.0, 1.0),
   ("b->see::Re{cP}", 0.0, -1.0, 1.0),
   ("b->see::Im{cP}", 0.0, -1.0, 1.0),
   ("b->see::Re{cP'}", 0.0, -1.0, 1.0),
   ("b->see::Im{cP'}", 0.0, -1.0, 1.0),
   ("b->see::Re{cT}", 0.0, -1.0, 1.0),
   ("b->see::Im{cT}", 0.0, -1.0, 1.0),
   ("b->see::Re{cT5}", 0.0, -1.0, 1.0),
   ("b->see::Im{cT5}", 0.0, -1.0, 1.0),
   ("b->smumu::Re{cS}", 0.0, -1.0, 1.0),
   ("b->smumu::Im{cS}", 0.0, -1.0, 1.0),
   ("b->smumu::Re{cS'}", 0.0, -1.0, 1.0),
   ("b->smumu::Im{cS'}", 0.0, -1.0, 1.0),
   ("b->smumu::Re{cP}", 0.0, -1.0, 1.0),
   ("b->smumu::Im{cP}", 0.0, -1.0, 1.0),
   ("b->smumu::Re{cP'}", 0.0, -1.0, 1.0),
   ("b->smumu::Im{cP'}", 0.0, -1.0, 1.0),
   ("b->smumu::Re{cT}", 0.0, -1.0, 1.0),
   ("b->smumu::Im{cT}", 0.0, -1.0, 1.0),
   ("b->smumu::Re{cT5}", 0.0, -1.0, 1.0),
   ("b->smumu::Im{cT5}", 0.0, -1.0, 1.0)]

/-- eos_btou.yaml:4-43. -/
noncomputable def eosBtou : List EosRow :=
  [("b->ulnu::Re{cVL}", 1.0, 1.0, 1.0),
   ("b->ulnu::Im{cVL}", 0.0, 0.0, 0.0),
   ("b->ulnu::Re{cVR}", 0.0, 0.0, 0.0),
   ("b->ulnu::Im{cVR}", 0.0, 0.0, 0.0),
   ("b->ulnu::Re{cSL}", 0.0, 0.0, 0.0),
   ("b->ulnu::Im{cSL}", 0.0, 0.0, 0.0),
   ("b->ulnu::Re{cSR}", 0.0, 0.0, 0.0),
   ("b->ulnu::Im{cSR}", 0.0, 0.0, 0.0),
   ("b->ulnu::Re{cT}", 0.0, 0.0, 0.0),
   ("b->ulnu::Im{cT}", 0.0, 0.0, 0.0)]

end Verif
