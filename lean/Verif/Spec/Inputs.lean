import Verif.Model.Wet

/-!
Which parameters a translated coefficient may depend on: those in the normalisation of the operators of the two bases.
Written from the names of the coefficients.

Normalisations: flavio and EOS divide by `4 G_F / sqrt 2` and the CKM elements of the process (charged currents: the element of the two quarks;
neutral currents: the two elements of the top quark with these quarks). Operators with charged leptons or neutrinos are also divided by
`e^2 / (16 pi^2)`. Scalar operators of flavio contain `m_b`. Dipoles contain the charge and the quark masses. Bern divides by
`4 G_F / sqrt 2`, its dipoles contain couplings and `m_b`. FormFlavor has dipoles with a coupling.
-/

set_option autoImplicit false

namespace Verif.Spec

/-- Parameters of the normalisations. -/
inductive Input where
  | GF | alpha_e | alpha_s | m_b | m_s
  | V (i j : Fin 3)
  deriving DecidableEq

/-- Both sets of parameters have the same value of the parameter. -/
def Input.Same (P P' : PEnv) : Input → Prop
  | .GF => P.p.GF = P'.p.GF
  | .alpha_e => P.p.alpha_e = P'.p.alpha_e
  | .alpha_s => P.p.alpha_s = P'.p.alpha_s
  | .m_b => P.p.m_b = P'.p.m_b
  | .m_s => P.p.m_s = P'.p.m_s
  | .V i j => P.V i j = P'.V i j

/-- Parameters that run. -/
def Input.running : Input → Bool
  | .alpha_s | .m_b | .m_s => true
  | _ => false

/-- Generation of an up quark. -/
def upQ : Char → Option (Fin 3)
  | 'u' => some 0
  | 'c' => some 1
  | _ => none

/-- Generation of a down quark. -/
def downQ : Char → Option (Fin 3)
  | 'd' => some 0
  | 's' => some 1
  | 'b' => some 2
  | _ => none

/-- CKM elements of a neutral current of two down quarks. -/
def ckmOf : List Char → Option (List Input)
  | a :: b :: _ => do
    let i ← downQ a
    let j ← downQ b
    return [.V 2 i, .V 2 j]
  | _ => none

/-- CKM element of a charged current. -/
def ckmOfCharged (up down : Char) : Option Input := do
  let u ← upQ up
  let d ← downQ down
  return .V u d

/-- JMS to flavio. The name is the operator, `_`, and the flavours. -/
def flavioInputs (n : String) : Option (List Input) :=
  let op := String.ofList (n.toList.takeWhile (· ≠ '_'))
  let fl := (n.toList.dropWhile (· ≠ '_')).tail
  if op ∈ ["CVLL", "CSLL", "CTLL", "CVLR", "CVRR", "CSRR", "CTRR", "CSLR"] then some []
  else if op ∈ ["CVL", "CVR", "CSR", "CSL", "CT"] then
    match fl with
    | d :: u :: _ => do return [.GF, ← ckmOfCharged u d]
    | _ => none
  else do
    let V ← ckmOf fl
    if op ∈ ["CL", "CR", "C9", "C9p", "C10", "C10p"] then return [.GF, .alpha_e] ++ V
    else if op ∈ ["CS", "CSp", "CP", "CPp"] then return [.GF, .alpha_e, .m_b] ++ V
    else if op ∈ ["C7", "C7p"] then return [.GF, .alpha_e, .m_b] ++ V
    else if op ∈ ["C8", "C8p"] then return [.GF, .alpha_s, .m_b] ++ V
    else none

/-- Operators of the Bern basis, longest first. -/
def bernOpNames : List String :=
  ["7pgamma", "7gamma", "nu1p", "nu1", "8pg", "8g", "10p", "10", "1p", "2p", "3p", "4p", "5p", "6p", "7p", "8p", "9p",
   "1", "2", "3", "4", "5", "6", "7", "8", "9"]

/-- Operator and flavours of a name of the Bern basis. -/
def bernSplit (n : String) : Option (String × List Char) :=
  (bernOpNames.find? fun op => op.toList.isPrefixOf n.toList).map fun op => (op, n.toList.drop op.toList.length)

/-- Couplings and masses in the dipoles of the Bern basis. -/
def bernDipoleInputs (op : String) : List Input :=
  if op ∈ ["7gamma", "7pgamma"] then [.alpha_e, .alpha_s, .m_b]
  else if op ∈ ["8g", "8pg"] then [.alpha_s, .m_b]
  else []

/-- JMS to Bern. -/
def bernInputs (n : String) : Option (List Input) := do
  let (op, _) ← bernSplit n
  return .GF :: bernDipoleInputs op

/-- Bern to flavio: the normalisations of both. -/
def bernFlavioInputs (n : String) : Option (List Input) := do
  let l ← flavioInputs n
  return .GF :: (l ++ if n.toList.take 2 = ['C', '7'] then [.alpha_s] else [])

/-- flavio to Bern: the normalisations of both. -/
def flavioBernInputs (n : String) : Option (List Input) := do
  let (op, fl) ← bernSplit n
  match fl with
  | a :: b :: rest =>
    if rest = [a, b] then return [.GF]
    else if (upQ a).isSome then return [.GF, ← ckmOfCharged a b]
    else do
      let V ← ckmOf fl
      if op ∈ ["7gamma", "7pgamma", "8g", "8pg"] then return .GF :: (bernDipoleInputs op ++ V)
      else if op ∈ ["1", "3", "1p", "3p", "nu1", "nu1p"] then return [.GF, .alpha_e] ++ V
      else return [.GF, .alpha_e, .m_b] ++ V
  | _ => none

/-- JMS to EOS: `b->` followed by the light quark, the leptons, `::` and the operator. -/
def eosInputs (n : String) : Option (List Input) :=
  match n.toList with
  | 'b' :: '-' :: '>' :: 'u' :: _ => some [.GF, .V 0 2]
  | 'b' :: '-' :: '>' :: 's' :: ':' :: ':' :: op =>
    if String.ofList op ∈ ["c7", "c7'"] then some [.GF, .V 2 2, .V 2 1, .alpha_e, .m_b, .m_s]
    else if String.ofList op ∈ ["c8", "c8'"] then some [.GF, .V 2 2, .V 2 1, .alpha_s, .m_b, .m_s]
    else some [.GF, .V 2 2, .V 2 1]
  | 'b' :: '-' :: '>' :: 's' :: _ => some [.GF, .V 2 2, .V 2 1, .alpha_e]
  | _ => none

/-- JMS to FormFlavor: only the dipoles `CA` and `CG` contain a parameter. -/
def formFlavorInputs (n : String) : Option (List Input) :=
  match n.toList with
  | 'C' :: 'A' :: _ => some [.alpha_e]
  | 'C' :: 'G' :: _ => some [.alpha_s]
  | 'C' :: _ => some []
  | _ => none

end Verif.Spec
