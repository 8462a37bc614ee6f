import Verif.Model.WetExpr
import Verif.Model.SmeftTrans

/-!
Expansion of flat JMS coefficients to full tensors (translators/wet.py:885-939).

`np.nan` is used by the code as the marker for "not set"; it is modelled by `none`.
-/

set_option autoImplicit false

namespace Verif

/-- An entry of the dictionary returned by `_scalar2array`: a number (name without underscore) or an array with
`dim` axes of length 3. Entries of index lists of another length than `dim` have no meaning. -/
inductive NArr where
  | num (v : ℂ)
  | arr (dim : ℕ) (a : List (Fin 3) → Option ℂ)

/-- `''.join(k.split('_')[:-1])`: everything before the last underscore, without underscores. -/
def namePart (k : String) : String :=
  String.ofList (((k.toList.reverse.dropWhile (· ≠ '_')).reverse.dropLast).filter (· ≠ '_'))

/-- wet.py:889-900, loop body of `_scalar2array`. An existing array is indexed with as many indices as the
suffix has characters: too many raise `IndexError`, fewer set a slice. An array without axes (empty suffix)
fails at `da[name][:]`; a name that is already used by a number fails at the assignment. -/
def scalar2arrayStep (da : Dict String NArr) (kv : String × ℂ) : Except PyErr (Dict String NArr) :=
  let k := kv.1
  let v := kv.2
  if '_' ∉ k.toList then .ok (Dict.put da k (.num v))
  else do
    let name := namePart k
    let ind := lastPart k
    let da ← if Dict.has da name then .ok da
      else if ind.length = 0 then .error .indexError
      else .ok (Dict.put da name (.arr ind.length fun _ => none))
    let ns ← ind.mapM intChar
    let idx ← ns.mapM axisIndex
    match ← Dict.get da name with
    | .num _ => .error .typeError
    | .arr dim a =>
      if dim < idx.length then .error .indexError
      else .ok (Dict.put da name (.arr dim fun i => if idx.isPrefixOf i then some v else a i))

/-- wet.py:885-901 `_scalar2array`. -/
def scalar2array (d : Dict String ℂ) : Except PyErr (Dict String NArr) := d.foldlM scalar2arrayStep []

/-- Permutation of the four axes: `np.einsum('jilk', C)[i, j, k, l] = C[j, i, l, k]`. -/
def permHerm : List (Fin 3) → List (Fin 3)
  | [i, j, k, l] => [j, i, l, k]
  | i => i

/-- `np.einsum('klij', C)[i, j, k, l] = C[k, l, i, j]`. -/
def permCurrent : List (Fin 3) → List (Fin 3)
  | [i, j, k, l] => [k, l, i, j]
  | i => i

/-- wet.py:904-909 `_symm_herm`. `np.einsum` fails unless there are four axes; a number fails there, too. -/
noncomputable def symmHerm : NArr → Except PyErr NArr
  | .arr 4 a => .ok (.arr 4 fun i => (a i).or ((a (permHerm i)).map (starRingEnd ℂ)))
  | _ => .error (.valueError "einstein sum subscripts string contains too many subscripts")

/-- wet.py:912-917 `_symm_current`. -/
def symmCurrent : NArr → Except PyErr NArr
  | .arr 4 a => .ok (.arr 4 fun i => (a i).or (a (permCurrent i)))
  | _ => .error (.valueError "einstein sum subscripts string contains too many subscripts")

/-- wet.py:929-933. -/
def hermKeys : List String :=
  ["VnueLL", "VnuuLL", "VnudLL", "VeuLL", "VedLL", "V1udLL",
   "V8udLL", "VeuRR", "VedRR", "V1udRR", "V8udRR", "VnueLR",
   "VeeLR", "VnuuLR", "VnudLR", "VeuLR", "VedLR", "VueLR", "VdeLR",
   "V1uuLR", "V8uuLR", "V1udLR", "V8udLR", "V1duLR", "V8duLR",
   "V1ddLR", "V8ddLR"]

/-- wet.py:935. -/
def currentKeys : List String := ["S1uuRR", "S8uuRR", "S1ddRR", "S8ddRR"]

/-- wet.py:937. -/
def hermCurrentKeys : List String := ["VuuLL", "VddLL", "VuuRR", "VddRR"]

/-- Loop body wet.py:928-938 (the three lists are disjoint). -/
noncomputable def symmEntry (k : String) (a : NArr) : Except PyErr NArr :=
  if k ∈ hermKeys then symmHerm a
  else if k ∈ currentKeys then symmCurrent a
  else if k ∈ hermCurrentKeys then do symmHerm (← symmCurrent a)
  else .ok a

/-- `{k: C.get(k, 0) for k in wc_keys}` (wet.py:926, 1085, 1124). -/
def completed (allWcs : List String) (C : Dict String ℂ) : Dict String ℂ :=
  Dict.ofPairs (allWcs.map fun k => (k, Dict.getD C k 0))

/-- wet.py:921-939 `_JMS_to_array`; `allWcs` are the names listed in the basis WET JMS. -/
noncomputable def jmsToArray (allWcs : List String) (C : Dict String ℂ) : Except PyErr (Dict String NArr) := do
  let Ca ← scalar2array (completed allWcs C)
  Ca.mapM fun p => do
    let a ← symmEntry p.1 p.2
    return (p.1, a)

/-- `C[name][i, j, ...]`: `KeyError` for an unknown name; too many indices raise `IndexError`; too few would
give an array (outside the model); an entry that is still NaN is outside the numbers of the model. -/
def readArr (Ca : Dict String NArr) (s : JSrc) : Except PyErr ℂ := do
  match ← Dict.get Ca s.1 with
  | .num _ => .error .typeError
  | .arr dim a =>
    if dim < s.2.length then .error .indexError
    else if s.2.length < dim then .error .unmodelled
    else match a s.2 with
      | some v => .ok v
      | none => .error .nan

end Verif
