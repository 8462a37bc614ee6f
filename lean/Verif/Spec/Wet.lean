import Verif.Model.Wet
import Verif.Spec.Flat

/-!
Vocabulary for the WET translators: admissible parameters and the coefficient names of the bases, written from the
definition of the bases (operator, flavours), not from the code.
-/

set_option autoImplicit false

namespace Verif.Spec

/-- Parameters for which no normalisation vanishes: non-zero `G_F`, couplings, b quark mass and CKM elements. -/
structure Admissible (P : PEnv) : Prop where
  GF : P.p.GF ≠ 0
  alpha_e : 0 < P.p.alpha_e
  alpha_s : 0 < P.p.alpha_s
  m_b : P.p.m_b ≠ 0
  V : ∀ i j, P.V i j ≠ 0

/-- Operators of the JMS basis (five flavours) that carry quarks, with the ranges of the flavour indices: 3 for down
quarks, charged leptons and neutrinos, 2 for up quarks. -/
def jmsRanges : List (String × List ℕ) :=
  [("VddLL", [3, 3, 3, 3]), ("VddRR", [3, 3, 3, 3]), ("V1ddLR", [3, 3, 3, 3]), ("V8ddLR", [3, 3, 3, 3]),
   ("S1ddRR", [3, 3, 3, 3]), ("S8ddRR", [3, 3, 3, 3]),
   ("VuuLL", [2, 2, 2, 2]), ("VuuRR", [2, 2, 2, 2]), ("V1uuLR", [2, 2, 2, 2]), ("V8uuLR", [2, 2, 2, 2]),
   ("S1uuRR", [2, 2, 2, 2]), ("S8uuRR", [2, 2, 2, 2]),
   ("V1udLL", [2, 2, 3, 3]), ("V8udLL", [2, 2, 3, 3]), ("V1udRR", [2, 2, 3, 3]), ("V8udRR", [2, 2, 3, 3]),
   ("V1udLR", [2, 2, 3, 3]), ("V8udLR", [2, 2, 3, 3]), ("V1duLR", [3, 3, 2, 2]), ("V8duLR", [3, 3, 2, 2]),
   ("S1udRR", [2, 2, 3, 3]), ("S8udRR", [2, 2, 3, 3]), ("S1udduRR", [2, 3, 3, 2]), ("S8udduRR", [2, 3, 3, 2]),
   ("V1udduLR", [2, 3, 3, 2]), ("V8udduLR", [2, 3, 3, 2]),
   ("VedLL", [3, 3, 3, 3]), ("VedRR", [3, 3, 3, 3]), ("VedLR", [3, 3, 3, 3]), ("VdeLR", [3, 3, 3, 3]),
   ("SedRR", [3, 3, 3, 3]), ("SedRL", [3, 3, 3, 3]), ("TedRR", [3, 3, 3, 3]),
   ("VnudLL", [3, 3, 3, 3]), ("VnudLR", [3, 3, 3, 3]),
   ("VnueduLL", [3, 3, 3, 2]), ("VnueduLR", [3, 3, 3, 2]), ("SnueduRL", [3, 3, 3, 2]), ("SnueduRR", [3, 3, 3, 2]),
   ("TnueduRR", [3, 3, 3, 2]),
   ("dgamma", [3, 3]), ("dG", [3, 3]), ("ugamma", [2, 2]), ("uG", [2, 2]), ("egamma", [3, 3])]

/-- An entry of the full tensors of the JMS basis. -/
def IsJms (s : JSrc) : Prop := ∃ r, (s.1, r) ∈ jmsRanges ∧ List.Forall₂ (fun (i : Fin 3) n => i.val < n) s.2 r

/-- Concatenations of one string from each list. -/
def words (a b : List String) : List String := a.flatMap fun x => b.map fun y => x ++ y

/-- Charged leptons. -/
def leptons : List String := ["e", "mu", "tau"]

/-- Names of the Bern basis: `Delta F = 2`, charged currents, semileptonic neutral currents, dipoles. -/
def bernNames : List String :=
  words ["1", "2", "3", "4", "5", "1p", "2p", "3p"] ["sbsb", "dbdb", "dsds"] ++
  words ["1", "5", "1p", "5p", "7p"] (words ["u", "c"] (words ["d", "s", "b"] (words leptons leptons))) ++
  words ["1", "3", "5", "7", "9", "1p", "3p", "5p", "7p", "9p", "nu1", "nu1p"]
    (words ["sb", "db", "ds"] (words leptons leptons)) ++
  words ["7gamma", "8g", "7pgamma", "8pg"] ["sb", "db"]

/-- Names of the flavio basis: `Delta F = 2`, charged currents, semileptonic neutral currents, dipoles. -/
def flavioNames : List String :=
  words ["CVLL_", "CSLL_", "CTLL_", "CVLR_", "CVRR_", "CSRR_", "CTRR_", "CSLR_"] ["bsbs", "bdbd", "sdsd"] ++
  words ["CVL_", "CVR_", "CSR_", "CSL_", "CT_"]
    (words ["d", "s", "b"] (words ["u", "c"] (words leptons (words ["nu"] leptons)))) ++
  words ["C9_", "C9p_", "C10_", "C10p_", "CS_", "CSp_", "CP_", "CPp_"] (words ["bs", "bd"] (words leptons leptons)) ++
  words ["CL_", "CR_"] (words ["bs", "bd"] (words ["nu"] (words leptons (words ["nu"] leptons)))) ++
  words ["C7_", "C8_", "C7p_", "C8p_"] ["bs", "bd"]

/-- Names of the flavio basis without counterpart in `flavio_to_Bern`: `s -> d nu nu`. -/
def flavioSdNuNu : List String := words ["CL_", "CR_"] (words ["sdnu"] (words leptons (words ["nu"] leptons)))

/-! ### Relations between the entries of the JMS tensors -/

/-- Operators with `C[p, r, s, t] = conj C[r, p, t, s]`. -/
def jmsHermitian : List String :=
  ["VnueLL", "VnuuLL", "VnudLL", "VeuLL", "VedLL", "V1udLL", "V8udLL", "VeuRR", "VedRR", "V1udRR", "V8udRR", "VnueLR",
   "VeeLR", "VnuuLR", "VnudLR", "VeuLR", "VedLR", "VueLR", "VdeLR", "V1uuLR", "V8uuLR", "V1udLR", "V8udLR", "V1duLR",
   "V8duLR", "V1ddLR", "V8ddLR", "VuuLL", "VddLL", "VuuRR", "VddRR"]

/-- Operators with `C[p, r, s, t] = C[s, t, p, r]`. -/
def jmsExchange : List String := ["S1uuRR", "S8uuRR", "S1ddRR", "S8ddRR", "VuuLL", "VddLL", "VuuRR", "VddRR"]

/-- Entries `i` and `j` of operator `k` are tied by the relations; `c` tells whether one is the conjugate of the
other. -/
inductive Tied (k : String) : Bool → List (Fin 3) → List (Fin 3) → Prop
  | refl (i : List (Fin 3)) : Tied k false i i
  | herm (c : Bool) (i : List (Fin 3)) (p r s t : Fin 3) : k ∈ jmsHermitian → Tied k c i [p, r, s, t] → Tied k (!c) i [r, p, t, s]
  | exch (c : Bool) (i : List (Fin 3)) (p r s t : Fin 3) : k ∈ jmsExchange → Tied k c i [p, r, s, t] → Tied k c i [s, t, p, r]

/-- A basis listing with a fixed number of indices `rank k` for every operator `k`; operators with relations have
four. -/
structure IsListing (rank : String → ℕ) (L : List String) : Prop where
  name : ∀ n ∈ L, ∃ k i, '_' ∉ k.toList ∧ i.length = rank k ∧ n = label k i
  four : ∀ k i, '_' ∉ k.toList → label k i ∈ L → k ∈ jmsHermitian ∨ k ∈ jmsExchange → rank k = 4

/-- A listing of the JMS basis: for every entry of the tensors one of the entries tied to it is listed. -/
structure JmsListing (L : List String) : Prop where
  listing : ∃ rank, IsListing rank L
  full : ∀ s, IsJms s → ∃ c j, Tied s.1 c s.2 j ∧ label s.1 j ∈ L

end Verif.Spec
