import Verif.Model.Classes

/-!
Model of the text forms in `wcxf/classes.py`: `repr` and `str` of bases and of Wilson coefficient objects
(`_repr_markdown_`, `_markdown_tables`).

`{}` of a string is the string itself. `{}` of other data is external: `sh` for file data and for numbers.
-/

set_option autoImplicit false

namespace Verif

/-- Python's truth value of file data. -/
noncomputable def mdTruthy : JVal → Bool
  | .null => false
  | .bool b => b
  | .num x => decide (x ≠ 0)
  | .str s => !s.toList.isEmpty
  | .list l => !l.isEmpty
  | .obj d => !d.isEmpty

/-- `k in d` for file data `d` and a string `k`: key of a mapping, element of a list, substring of a
string, otherwise `TypeError`. -/
def inData (k : String) : JVal → Except PyErr Bool
  | .obj d => .ok (Dict.has d k)
  | .list l => .ok (l.any fun
    | .str s => s == k
    | _ => false)
  | .str s => .ok (decide (k.toList <:+: s.toList))
  | _ => .error .typeError

/-- `d[k]` for file data `d` and a string `k`: strings and lists have no string indices. -/
def itemOf (k : String) : JVal → Except PyErr JVal
  | .obj d => Dict.get d k
  | _ => .error .typeError

/-- `d.get(k, '')` for file data `d`: mappings only. -/
def getOrEmpty (k : String) : JVal → Except PyErr JVal
  | .obj d => .ok (Dict.getD d k (.str ""))
  | _ => .error .attributeError

/-- `{}` of file data; `sh` is used for everything but strings. -/
def fmtData (sh : JVal → String) : JVal → String
  | .str s => s
  | j => sh j

/-- `v + "\n\n"` for file data `v` (classes.py:284). -/
def addBreak : JVal → Except PyErr String
  | .str s => .ok (s ++ "\n\n")
  | _ => .error .typeError

/-- classes.py:278-279 `Basis.__repr__`. -/
def reprBasis (o : BasisObj) : String := "wcxf.Basis('" ++ o.eft ++ "', '" ++ o.basis ++ "', {...})"

/-- classes.py:281-285 `Basis._repr_markdown_`. -/
def mdBasis (o : BasisObj) : Except PyErr String :=
  let md := "# Basis `" ++ o.basis ++ "` (EFT `" ++ o.eft ++ "`)\n\n"
  match Dict.find o.extra "metadata" with
  | none => .ok md
  | some m => do
    if ← inData "description" m then
      let v ← itemOf "description" m
      let t ← addBreak v
      return md ++ t
    else return md

/-- classes.py:287-294: the text before the first sector. -/
def mdIntro : String :=
  "## Sectors\n\n" ++ "The effective Lagrangian is defined as\n" ++
  ("$$\\mathcal L_\\text{eff} = -\\mathcal H_\\text{eff} =" ++
   "\\sum_{O_i= O_i^\\dagger} C_i \\, O_i + \\sum_{O_i\\neq O_i^\\dagger}" ++
   "\\left( C_i \\, O_i + C^*_i \\, O^\\dagger_i\\right).$$") ++ "\n\n"

/-- classes.py:305-308: the letter in the column "Type". -/
noncomputable def mdType (d : JVal) : Except PyErr String := do
  if ← inData "real" d then
    let r ← itemOf "real" d
    return if mdTruthy r then "R" else "C"
  else return "C"

/-- classes.py:304-310: one row of the table of a sector. -/
noncomputable def mdRow (sh : JVal → String) (p : String × JVal) : Except PyErr String := do
  let t ← mdType p.2
  let x ← getOrEmpty "tex" p.2
  return "| `" ++ p.1 ++ "` | $" ++ fmtData sh x ++ "$ | " ++ t ++ " |\n"

/-- classes.py:296-310: one sector. -/
noncomputable def mdSector (sh : JVal → String) (p : String × JVal) : Except PyErr String := do
  let h := "### `" ++ p.1 ++ "`\n\n"
  if mdTruthy p.2 then
    let wcs ← itemsOf p.2
    let rows ← wcs.mapM (mdRow sh)
    return h ++ ("| WC name | Operator | Type |\n" ++ ("|" ++ String.ofList (List.replicate 18 '-') ++ "|" ++
      String.ofList (List.replicate 48 '-') ++ "|" ++ String.ofList (List.replicate 6 '-') ++ "|\n")) ++
      String.join rows
  else return h

/-- classes.py:287-311 `Basis._markdown_tables`. -/
noncomputable def mdTables (sh : JVal → String) (s : Sectors) : Except PyErr String := do
  let l ← s.mapM (mdSector sh)
  return mdIntro ++ String.join l

/-- classes.py:313-316 `Basis.__str__`. -/
noncomputable def strBasis (sh : JVal → String) (st : Store) (i : Id) : Except PyErr String := do
  match st.objs[i]? with
  | some (.basis o) =>
    let md ← mdBasis o
    let s ← sectorsOf st i
    let t ← mdTables sh s
    return md ++ t
  | _ => .error .attributeError

/-- How numbers are written by `{}`: the scale, and the value of the coefficient with the given name (a
value can be a Python `float` or a `complex`, which are written differently). -/
structure NumText where
  scale : ℝ → String
  value : String → ℂ → String

/-- classes.py:375-377 `WC.__repr__`. -/
def reprWC (n : NumText) (w : WC) : String :=
  "wcxf.WC(eft='" ++ w.eft ++ "', basis='" ++ w.basis ++ "', scale='" ++ n.scale w.scale ++ "', values={...})"

/-- classes.py:382-392: the text before the first row. -/
def mdHead (n : NumText) (w : WC) : String :=
  "## WCxf Wilson coefficients\n\n" ++ ("**EFT:** `" ++ w.eft ++ "`\n\n") ++
  ("**Basis:** `" ++ w.basis ++ "`\n\n") ++ ("**Scale:** " ++ n.scale w.scale ++ " GeV\n\n") ++
  "### Values\n\n" ++ "| WC name | Value |\n" ++
  ("|" ++ String.ofList (List.replicate 20 '-') ++ "|" ++ String.ofList (List.replicate 52 '-') ++ "|\n")

/-- classes.py:393-394: one row. -/
def mdValue (n : NumText) (p : String × ℂ) : String := "| `" ++ p.1 ++ "` | " ++ n.value p.1 p.2 ++ " |\n"

/-- classes.py:379-395 `WC.__str__` and `_repr_markdown_`: the text, and the object with its cache filled. A
raw `_dict` from a file is outside the model. -/
noncomputable def strWC (fl : String → Option ℝ) (n : NumText) (w : WC) : Except PyErr String × WC :=
  match w.readDict fl with
  | (.error e, w') => (.error e, w')
  | (.ok (.nums d), w') => (.ok (mdHead n w ++ String.join (d.map (mdValue n))), w')
  | (.ok _, w') => (.error .unmodelled, w')

end Verif
