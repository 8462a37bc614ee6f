import Verif.Model.Value

/-!
Model of `wcxf/converters/eos.py`.

Names are strings; the scanning functions work on their lists of characters.
-/

set_option autoImplicit false

namespace Verif

/-- `pat in s`. -/
def contains (pat s : String) : Bool := decide (pat.toList <:+: s.toList)

/-- One attempt of the regular expression `TAG([^\}]+)\}` at the start of `s`: the group and the rest. -/
def matchTag (tag s : List Char) : Option (List Char × List Char) :=
  if tag <+: s then
    let t := s.drop tag.length
    let body := t.takeWhile (· ≠ '}')
    let rest := t.dropWhile (· ≠ '}')
    if body ≠ [] ∧ rest ≠ [] then some (body, rest.tail) else none
  else none

/-- `re.sub(TAG([^\}]+)\}, \1, s)` (eos.py:31, 40): left to right, non-overlapping. The first argument
bounds the number of steps. -/
def reSubAux (tag : List Char) : Nat → List Char → List Char
  | 0, s => s
  | _ + 1, [] => []
  | n + 1, c :: s => match matchTag tag (c :: s) with
    | some (body, rest) => body ++ reSubAux tag n rest
    | none => c :: reSubAux tag n s

/-- eos.py:31, 40. -/
def reSub (tag s : String) : String := String.ofList (reSubAux tag.toList s.toList.length s.toList)

/-- `s.replace(pat, new)` for a non-empty `pat`: left to right, non-overlapping. -/
def replaceAux (pat new : List Char) : Nat → List Char → List Char
  | 0, s => s
  | _ + 1, [] => []
  | n + 1, c :: s =>
    if pat <+: c :: s then new ++ replaceAux pat new n ((c :: s).drop pat.length)
    else c :: replaceAux pat new n s

/-- `s.replace(pat, new)` (eos.py:34-38, 43-47). -/
def pyReplace (pat new s : String) : String :=
  String.ofList (replaceAux pat.toList new.toList s.toList.length s.toList)

/-- eos.py:32-38 and 41-47 (same code, `part` is `.real` or `.imag`): value for the coefficient name
`k2`. -/
noncomputable def eosPart (d : Dict String ℂ) (part : ℂ → ℝ) (k2 : String) : Except PyErr ℝ :=
  match Dict.find d k2 with
  | some z => .ok (part z)
  | none =>
    let ke := pyReplace "lnu" "enue" k2
    let km := pyReplace "lnu" "munumu" k2
    if Dict.has d ke ∨ Dict.has d km then
      if Dict.getD d ke 0 ≠ Dict.getD d km 0 then
        .error (.valueError "Found lepton flavour non-universal charged-current coefficients")
      else .ok (part (Dict.getD d ke 0))
    else .ok 0

/-- eos.py:25-48 `get_eos_np`; `d` is `wc.dict`. -/
noncomputable def getEosNp (d : Dict String ℂ) (smKey : String) : Except PyErr ℝ :=
  match Dict.find d smKey with
  | some z => .ok z.re
  | none =>
    if contains "Re{" smKey then eosPart d Complex.re (reSub "Re{" smKey)
    else if contains "Im{" smKey then eosPart d Complex.im (reSub "Im{" smKey)
    else .ok 0

/-- `v['central']` (eos.py:57) on file data. -/
def centralOf : JVal → Except PyErr JVal
  | .obj d => Dict.get d "central"
  | _ => .error .typeError

/-- `sm + np` (eos.py:61) for a number `np`. -/
noncomputable def pyAdd (sm : JVal) (np : ℝ) : Except PyErr ℝ :=
  match sm with
  | .num x => .ok (x + np)
  | .bool b => .ok ((if b then 1 else 0) + np)
  | _ => .error .typeError

/-- Loop body of eos.py:56-61. -/
noncomputable def eosEntry (d : Dict String ℂ) (k : String) (v : JVal) : Except PyErr (Dict String ℝ) := do
  let sm ← centralOf v
  let np ← getEosNp d k
  let x ← pyAdd sm np
  return [("central", x), ("min", x), ("max", x)]

/-- eos.py:51-62 `wcxf2eos`. -/
noncomputable def wcxf2eos (d : Dict String ℂ) (sm : Dict String JVal) :
    Except PyErr (Dict String (Dict String ℝ)) :=
  sm.mapM fun p => do
    let e ← eosEntry d p.1 p.2
    return (p.1, e)

/-- Truth value of file data (`if ... and meta['wcxf-relevant']`, eos.py:19). -/
noncomputable def truthy : JVal → Bool
  | .null => false
  | .bool b => b
  | .num x => @decide (x ≠ 0) (Classical.propDecidable _)
  | .str s => decide (s ≠ "")
  | .list l => !l.isEmpty
  | .obj d => !d.isEmpty

/-- eos.py:18-19: is the file relevant? `wcs.get` needs a mapping. `'wcxf-relevant' in meta` is key
membership for a mapping; for a string it is the substring test and for a list element membership, and
in both cases a positive answer makes `meta['wcxf-relevant']` raise `TypeError`; other data raise
`TypeError` at `in`. -/
noncomputable def eosRelevant (w : JVal) : Except PyErr (Option (Dict String JVal)) :=
  match w with
  | .obj d =>
    match Dict.find d "@metadata@" with
    | none => .ok none
    | some (.obj m) =>
      match Dict.find m "wcxf-relevant" with
      | none => .ok none
      | some r => if truthy r then .ok (some (Dict.del d "@metadata@")) else .ok none
    | some (.str s) => if contains "wcxf-relevant" s then .error .typeError else .ok none
    | some (.list l) => if l.any (fun | .str s => decide (s = "wcxf-relevant") | _ => false)
        then .error .typeError else .ok none
    | some _ => .error .typeError
  | _ => .error .attributeError

/-- eos.py:10-22 `get_sm_wcs`; the argument holds the parsed YAML files in the order given by
`glob`. (`yaml.load` without a loader is the PyYAML < 6 interface; a file that is not YAML raises
before anything is returned and is left to the caller.) -/
noncomputable def getSmWcs (files : List JVal) : Except PyErr (Dict String JVal) :=
  files.foldlM (fun acc w => do
    match ← eosRelevant w with
    | none => return acc
    | some d => return Dict.upd acc d) []

end Verif
