import Verif.Spec.Eos
import Verif.Spec.Targets

/-! Which EOS parameters there are and which coefficients they contain. -/

set_option autoImplicit false

namespace Verif.Spec

/-- Coefficients with a real parameter of the same name. -/
def eosReal : List String := words ["b->s::"] ["c1", "c2", "c3", "c4", "c5", "c6", "c8", "c8'"]

/-- Coefficients with a parameter for the real and one for the imaginary part: process and name. -/
def eosComplex : List (String × String) :=
  [("b->s::", "c7"), ("b->s::", "c7'")] ++
  ["b->see::", "b->smumu::"].flatMap fun q => ["c9", "c9'", "c10", "c10'", "cS", "cS'", "cP", "cP'", "cT", "cT5"].map fun c => (q, c)

/-- Charged currents, common to both leptons. -/
def eosCharged : List String := ["cVL", "cVR", "cSL", "cSR", "cT"]

/-- All parameters. -/
def eosParams : List String :=
  eosReal ++ eosComplex.flatMap (fun p => [p.1 ++ "Re{" ++ p.2 ++ "}", p.1 ++ "Im{" ++ p.2 ++ "}"]) ++
  eosCharged.flatMap fun c => ["b->ulnu::Re{" ++ c ++ "}", "b->ulnu::Im{" ++ c ++ "}"]

/-- The contribution of new physics to a parameter. -/
inductive EosValue (d : Dict String ℂ) : String → ℝ → Prop
  | real (n : String) : n ∈ eosReal → EosValue d n (coeff d n).re
  | re (p : String × String) : p ∈ eosComplex → EosValue d (p.1 ++ "Re{" ++ p.2 ++ "}") (coeff d (p.1 ++ p.2)).re
  | im (p : String × String) : p ∈ eosComplex → EosValue d (p.1 ++ "Im{" ++ p.2 ++ "}") (coeff d (p.1 ++ p.2)).im
  | chargedRe (c : String) : c ∈ eosCharged → EosValue d ("b->ulnu::Re{" ++ c ++ "}") (coeff d ("b->uenue::" ++ c)).re
  | chargedIm (c : String) : c ∈ eosCharged → EosValue d ("b->ulnu::Im{" ++ c ++ "}") (coeff d ("b->uenue::" ++ c)).im

/-- The charged currents are the same for electrons and muons. -/
def Universal (d : Dict String ℂ) : Prop := ∀ c ∈ eosCharged, coeff d ("b->uenue::" ++ c) = coeff d ("b->umunumu::" ++ c)

end Verif.Spec
