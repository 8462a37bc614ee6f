import Verif.Model.Classes

/-!
Model of reading and writing files: `wcxf/classes.py:28-52, 156-191` and
`wcxf/converters/yamljson.py`.

The JSON and YAML libraries are external: `Codec` is a parameter. Keyword arguments passed on to the
libraries (indentation, flow style) do not change the data and are not modelled.
-/

set_option autoImplicit false

namespace Verif

/-- The two libraries. `none` of a parser: `json` raises `ValueError`, `yaml` raises `YAMLError`. -/
structure Codec where
  printJson : JVal → String
  printYaml : JVal → String
  parseJson : String → Option JVal
  parseYaml : String → Option JVal

/-- classes.py:28-37 `_load_yaml_json`. -/
def Codec.load (cd : Codec) (t : String) : Except PyErr JVal :=
  match cd.parseJson t with
  | some j => .ok j
  | none => match cd.parseYaml t with
    | some j => .ok j
    | none => .error .yamlError

/-- Attribute values of an object: file data, or the numeric dictionary held by `_dict`. -/
inductive AVal where
  | file (j : JVal)
  | nums (d : Dict String ℂ)

/-- `k[0] != '_'` (classes.py:177). -/
def isPublic (k : String) : Bool := k.toList.head? != some '_'

/-- Data of an attribute value as written by the libraries. A dictionary of complex numbers cannot be
written to JSON (`TypeError`). -/
def AVal.toFile : AVal → Except PyErr JVal
  | .file j => .ok j
  | .nums _ => .error .typeError

/-- classes.py:177: the public attributes. The empty attribute name makes `k[0]` raise `IndexError`. -/
def publicAttrs (attrs : Dict String AVal) : Except PyErr (Dict String AVal) :=
  if "" ∈ Dict.keys attrs then .error .indexError
  else .ok (Dict.filt (fun k _ => isPublic k) attrs)

/-- `fmt.lower()`: only ASCII letters can become letters of `json` or `yaml`, so lowering ASCII
letters is enough for the comparison. -/
def lower (s : String) : String := String.ofList (s.toList.map Char.toLower)

/-- classes.py:165-191 `dump` to a stream with previous contents `out`: new contents and result. -/
def dump (cd : Codec) (attrs : Dict String AVal) (fmt : String) (out : String) :
    String × Except PyErr Unit :=
  match publicAttrs attrs with
  | .error e => (out, .error e)
  | .ok d =>
    if lower fmt = "json" then
      match d.mapM (fun p => do let j ← p.2.toFile; return (p.1, j)) with
      | .error e => (out, .error e)
      | .ok d' => (out ++ cd.printJson (.obj d'), .ok ())
    else if lower fmt = "yaml" then
      match d.mapM (fun p => do let j ← p.2.toFile; return (p.1, j)) with
      | .error e => (out, .error e)
      | .ok d' => (out ++ cd.printYaml (.obj d'), .ok ())
    else (out, .error (.valueError "Format unknown"))

/-- `self.__dict__` of a `WC` object in the order of assignment (classes.py:322-329). -/
def WC.attrs (w : WC) : Dict String AVal :=
  [("eft", .file (.str w.eft)), ("basis", .file (.str w.basis)), ("scale", .file (.num w.scale)),
   ("values", .file w.values),
   ("_dict", match w.cache with
      | .none => .file .null
      | .nums d => .nums d
      | .raw j => .file j)] ++
  w.extra.map fun p => (p.1, AVal.file p.2)

/-- `self.__dict__` of a `Basis` object (classes.py:218-231); `s` is the current sector dictionary. The
name tuple `_name` is private and written as a list. -/
def BasisObj.attrs (o : BasisObj) (s : Sectors) : Dict String AVal :=
  [("eft", .file (.str o.eft)), ("basis", .file (.str o.basis)),
   ("_name", .file (.list [.str o.eft, .str o.basis]))] ++
  (o.extra.map fun p => (p.1, AVal.file p.2)) ++
  [("sectors", .file (.obj s)),
   ("_all_wcs", match o.allWcs with
      | some (some l) => .file (.list (l.map .str))
      | _ => .file .null)]

/-- A required keyword argument. -/
def needArg (d : Dict String JVal) (k : String) : Except PyErr JVal :=
  match Dict.find d k with
  | some v => .ok v
  | none => .error .typeError

/-- A keyword argument modelled as a string (names of EFTs and bases); other data are outside the
model. -/
def asStr : JVal → Except PyErr String
  | .str s => .ok s
  | _ => .error .unmodelled

/-- A keyword argument modelled as a mapping; other data are outside the model. -/
def asObj : JVal → Except PyErr (Dict String JVal)
  | .obj d => .ok d
  | _ => .error .unmodelled

/-- classes.py:163 `cls(**wcxf)`: the document must be a mapping; a key `self` clashes with the
positional argument. -/
def docArgs : JVal → Except PyErr (Dict String JVal)
  | .obj d => if "self" ∈ Dict.keys d then .error .typeError else .ok d
  | _ => .error .typeError

/-- classes.py:159-163 with `cls = WC`. -/
noncomputable def loadWC (cd : Codec) (fl : String → Option ℝ) (t : String) : Except PyErr WC := do
  let j ← cd.load t
  let d ← docArgs j
  let eft ← needArg d "eft"
  let basis ← needArg d "basis"
  let scale ← needArg d "scale"
  let values ← needArg d "values"
  let e ← asStr eft
  let b ← asStr basis
  newWC fl e b scale values (Dict.filt (fun k _ => k ∉ ["eft", "basis", "scale", "values"]) d)

/-- classes.py:159-163 with `cls = Basis`. -/
def loadBasis (cd : Codec) (st : Store) (t : String) : Store × Except PyErr Id :=
  let args : Except PyErr (String × String × Sectors × Dict String JVal) := do
    let j ← cd.load t
    let d ← docArgs j
    let eft ← needArg d "eft"
    let basis ← needArg d "basis"
    let sectors ← needArg d "sectors"
    let e ← asStr eft
    let b ← asStr basis
    let s ← asObj sectors
    return (e, b, s, Dict.filt (fun k _ => k ∉ ["eft", "basis", "sectors"]) d)
  match args with
  | .error e => (st, .error e)
  | .ok (e, b, s, kw) => newBasis st e b s kw

/-- classes.py:46-48 `_yaml_to_json` and yamljson.py:7-12 `convert_json`: contents of the output and
return value (`none` is Python's `None`). The input is parsed before anything is written. -/
def convertJson (cd : Codec) (inp out : String) : String × Except PyErr (Option Nat) :=
  match cd.parseYaml inp with
  | none => (out, .ok (some 1))
  | some j => (out ++ cd.printJson j, .ok none)

/-- classes.py:50-52 `_json_to_yaml` and yamljson.py:15-21 `convert_yaml`. -/
def convertYaml (cd : Codec) (inp out : String) : String × Except PyErr (Option Nat) :=
  match cd.parseJson inp with
  | none => (out, .ok (some 1))
  | some j => (out ++ cd.printYaml j, .ok none)

end Verif
