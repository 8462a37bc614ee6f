import Verif.Model.Value

/-!
Model of `wcxf/classes.py`: named registries, EFT, Basis, WC, Translator, Matcher.

Objects live in an explicit store because their sharing is observable: a child basis uses the very
same `sectors` dictionary as its parent (classes.py:225-226), and `all_wcs` is cached
(classes.py:246-247).
-/

set_option autoImplicit false

namespace Verif

/-- The classes that own (or inherit) an `instances` attribute. `base` is `NamedInstanceClass`
itself, whose attribute the others would inherit. -/
inductive Cls where
  | base | eft | basis | translator | matcher
  deriving DecidableEq, Repr

/-- Registry key: the EFT name, or the tuple of names, as a list. -/
abbrev Name := List String

/-- Identity of a Python object: its position in the object store. -/
abbrev Id := Nat

/-- `sectors` of an EFT or basis: sector name to file data. -/
abbrev Sectors := Dict String JVal

/-- User parameters (`parameters=` argument): name to number. -/
abbrev Params := Dict String ℝ

/-- A translation or matching function `f(C, scale, parameters)`. It is modelled as a function of
its arguments (no in-place modification of `C`). -/
abbrev Fn := Dict String ℂ → ℝ → Option Params → Except PyErr (Dict String ℂ)

/-- classes.py:193-201. `extra` are the attributes set from `**kwargs`. -/
structure EFTObj where
  eft : String
  sectors : Sectors
  extra : Dict String JVal

/-- classes.py:214-231. `sectors = none` and `allWcs = none` mean that the attribute has not been
set (construction failed before). `allWcs = some none` is `None`. `sectors = some a` is the address
of the (possibly shared) dictionary in the heap. -/
structure BasisObj where
  eft : String
  basis : String
  extra : Dict String JVal
  sectors : Option Nat
  allWcs : Option (Option (List String))

/-- classes.py:416-424. -/
structure TrObj where
  eft : String
  fromBasis : String
  toBasis : String
  fn : Fn

/-- classes.py:436-445. -/
structure MaObj where
  fromEft : String
  fromBasis : String
  toEft : String
  toBasis : String
  fn : Fn

inductive Obj where
  | eft (o : EFTObj)
  | basis (o : BasisObj)
  | translator (o : TrObj)
  | matcher (o : MaObj)

/-- Interpreter state: the class attributes `instances` (`none` = attribute absent), the objects, and
the heap of `sectors` dictionaries. -/
structure Store where
  instances : Cls → Option (Dict Name Id)
  objs : List Obj
  heap : List Sectors

/-- State before any definition. -/
def Store.empty : Store := ⟨fun _ => none, [], []⟩

namespace Store

/-- The class whose own attribute `c.instances` resolves to (attribute lookup goes to the base class
if the class has no own attribute). -/
def slot (st : Store) (c : Cls) : Option Cls :=
  if (st.instances c).isSome then some c
  else if (st.instances .base).isSome then some .base
  else none

/-- The dictionary that `c.instances` denotes, if any. -/
def registry (st : Store) (c : Cls) : Option (Dict Name Id) :=
  (st.instances c).or (st.instances .base)

/-- classes.py:136-140 `NamedInstanceClass.__init__`: create `instances` unless an attribute of that
name is visible, then store the object under its name. -/
def register (st : Store) (c : Cls) (n : Name) (i : Id) : Store :=
  match st.slot c with
  | none => { st with instances := Function.update st.instances c (some [(n, i)]) }
  | some c' => { st with
      instances := Function.update st.instances c' ((st.instances c').map fun d => Dict.put d n i) }

/-- classes.py:112-113, 142-144 `get_instance`. -/
def lookup (st : Store) (c : Cls) (n : Name) : Except PyErr Id :=
  match st.registry c with
  | none => .error .attributeError
  | some d => Dict.get d n

/-- classes.py:115-116, 146-148 `del_instance`. -/
def delete (st : Store) (c : Cls) (n : Name) : Store × Except PyErr Unit :=
  match st.slot c, st.registry c with
  | some c', some d =>
    if Dict.has d n then
      ({ st with instances := Function.update st.instances c' (some (Dict.del d n)) }, .ok ())
    else (st, .error .keyError)
  | _, _ => (st, .error .attributeError)

/-- classes.py:150-153 `clear_all`. -/
def clearAll (st : Store) (c : Cls) : Store :=
  { st with instances := Function.update st.instances c (some []) }

/-- Replace an object. -/
def setObj (st : Store) (i : Id) (o : Obj) : Store := { st with objs := st.objs.set i o }

end Store

/-- `for k, v in kwargs.items(): setattr(self, k, v)` (classes.py:200-201, 221-222, 328-329): assigning
to a read-only property raises `AttributeError`; the attributes before it stay set. -/
def setAttrs (props : List String) : Dict String JVal → Dict String JVal × Option PyErr
  | [] => ([], none)
  | p :: kw =>
    if p.1 ∈ props then ([], some .attributeError)
    else let r := setAttrs props kw; (p :: r.1, r.2)

/-- classes.py:195-201 `EFT.__init__`. -/
def newEFT (st : Store) (eft : String) (sectors : Sectors) (kw : Dict String JVal) :
    Store × Except PyErr Id :=
  let i := st.objs.length
  let r := setAttrs ["known_bases", "known_translators"] kw
  let st1 := { st with objs := st.objs ++ [Obj.eft ⟨eft, sectors, r.1⟩] }
  let st2 := st1.register .eft [eft] i
  match r.2 with
  | none => (st2, .ok i)
  | some e => (st2, .error e)

/-- classes.py:216-231 `Basis.__init__`. The object is registered (line 220) before the parent is
looked up (line 225); the parent's dictionary itself becomes the child's (line 225) and is updated
in place (line 226). A `parent` that is not a string: unhashable data raise `TypeError`, other
data are never a registered name. -/
def newBasis (st : Store) (eft basis : String) (sectors : Sectors) (kw : Dict String JVal) :
    Store × Except PyErr Id :=
  let i := st.objs.length
  let r := setAttrs ["known_translators", "all_wcs"] kw
  let o : BasisObj := ⟨eft, basis, r.1, none, none⟩
  let st1 := { st with objs := st.objs ++ [Obj.basis o] }
  let st2 := st1.register .basis [eft, basis] i
  match r.2 with
  | some e => (st2, .error e)
  | none =>
    match Dict.find r.1 "parent" with
    | none =>
      ({ st2 with heap := st2.heap ++ [sectors] }.setObj i
          (.basis { o with sectors := some st2.heap.length, allWcs := some none }), .ok i)
    | some (.str par) =>
      match st2.lookup .basis [eft, par] with
      | .error _ => (st2, .error (.valueError "Parent basis not found"))
      | .ok pid =>
        match st2.objs[pid]? with
        | some (.basis po) =>
          match po.sectors with
          | none => (st2, .error (.valueError "Parent basis not found"))
          | some a =>
            ({ st2 with heap := st2.heap.modify a fun d => Dict.upd d sectors }.setObj i
              (.basis { o with sectors := some a, allWcs := some none }), .ok i)
        | _ => (st2, .error .unmodelled)
    | some (.list _) => (st2, .error .typeError)
    | some (.obj _) => (st2, .error .typeError)
    | some _ => (st2, .error (.valueError "Parent basis not found"))

/-- classes.py:418-424 `Translator.__init__`, also the decorator classes.py:466-480. -/
def newTranslator (st : Store) (eft fromB toB : String) (fn : Fn) : Store × Except PyErr Id :=
  let i := st.objs.length
  let st1 := st.register .translator [eft, fromB, toB] i
  ({ st1 with objs := st1.objs ++ [Obj.translator ⟨eft, fromB, toB, fn⟩] }, .ok i)

/-- classes.py:438-445 `Matcher.__init__`, also the decorator classes.py:483-497. -/
def newMatcher (st : Store) (fromE fromB toE toB : String) (fn : Fn) : Store × Except PyErr Id :=
  let i := st.objs.length
  let st1 := st.register .matcher [fromE, fromB, toE, toB] i
  ({ st1 with objs := st1.objs ++ [Obj.matcher ⟨fromE, fromB, toE, toB, fn⟩] }, .ok i)

/-! ### Listings -/

/-- classes.py:203-206 `EFT.known_bases`. -/
def knownBases (st : Store) (eft : String) : Except PyErr (List String) :=
  match st.registry .basis with
  | none => .error .attributeError
  | some d => .ok ((Dict.keys d).filterMap fun
    | [e, b] => if e = eft then some b else none
    | _ => none)

/-- classes.py:208-211 `EFT.known_translators`. -/
def knownTranslatorsEFT (st : Store) (eft : String) : Except PyErr (List Name) :=
  match st.registry .translator with
  | none => .error .attributeError
  | some d => .ok ((Dict.keys d).filter fun n => n[0]? = some eft)

/-- classes.py:233-241 `Basis.known_translators`: the pair (`'from'`, `'to'`). -/
def knownTranslatorsBasis (st : Store) (eft basis : String) :
    Except PyErr (List Name × List Name) :=
  match st.registry .translator with
  | none => .error .attributeError
  | some d => .ok
    ((Dict.keys d).filter fun n => n[0]? = some eft ∧ n[1]? = some basis,
     (Dict.keys d).filter fun n => n[0]? = some eft ∧ n[2]? = some basis)

/-! ### Basis -/

/-- The `sectors` attribute of the object `i`, read through the heap. -/
def sectorsOf (st : Store) (i : Id) : Except PyErr Sectors :=
  match st.objs[i]? with
  | some (.basis o) =>
    match o.sectors.bind fun a => st.heap[a]? with
    | some s => .ok s
    | none => .error .attributeError
  | some (.eft o) => .ok o.sectors
  | _ => .error .attributeError

/-- classes.py:247: names of all coefficients, sector by sector. -/
def namesOf (s : Sectors) : Except PyErr (List String) := do
  let l ← s.mapM fun p => iterNames p.2
  return l.flatten

/-- classes.py:243-248 `Basis.all_wcs`. -/
def readAllWcs (st : Store) (i : Id) : Store × Except PyErr (List String) :=
  match st.objs[i]? with
  | some (.basis o) =>
    match o.allWcs with
    | none => (st, .error .attributeError)
    | some (some l) => (st, .ok l)
    | some none =>
      match sectorsOf st i with
      | .error e => (st, .error e)
      | .ok s =>
        match namesOf s with
        | .error e => (st, .error e)
        | .ok l => (st.setObj i (.basis { o with allWcs := some (some l) }), .ok l)
  | _ => (st, .error .attributeError)

/-- classes.py:267-270: the `tex` strings of all coefficients with non-null data. -/
def texOf : JVal → Except PyErr (Option String)
  | .null => .ok none
  | .obj d => match Dict.find d "tex" with
    | none => .ok (some "")
    | some (.str s) => .ok (some s)
    | some _ => .error .typeError
  | _ => .error .attributeError

/-- classes.py:267-270 `alltex`. -/
def allTex (items : List (Dict String JVal)) : Except PyErr String := do
  let l ← (items.flatten.map Prod.snd).mapM texOf
  return "$" ++ String.intercalate "$, $" (l.filterMap id) ++ "$"

/-- classes.py:250-276 `Basis.validate`; `tex` is `_testtex` (returns the `success` flag). -/
def validateBasis (tex : String → Except PyErr Bool) (st : Store) (i : Id) : Except PyErr Unit := do
  match st.objs[i]? with
  | some (.basis o) =>
    let e ← match st.lookup .eft [o.eft] with
      | .error _ => .error (.valueError "EFT not defined")
      | .ok j => .ok j
    let es ← sectorsOf st e
    let s ← sectorsOf st i
    if ∃ k ∈ Dict.keys s, k ∉ Dict.keys es then .error (.valueError "Unknown sectors") else pure ()
    let items ← s.mapM fun p => itemsOf p.2
    let allKeys := (items.map Dict.keys).flatten
    if ¬ allKeys.Nodup then .error (.valueError "Duplicate coefficients in different sectors") else pure ()
    let t ← allTex items
    let ok ← tex t
    if ok then pure () else .error (.valueError "LaTeX compilation errors encountered")
  | _ => .error .attributeError

/-! ### Wilson coefficients -/

/-- The private attribute `_dict` (classes.py:326, 371-373). `raw` is the case of a file that
itself contains a key `_dict` (assigned by line 329). -/
inductive DCache where
  | none
  | nums (d : Dict String ℂ)
  | raw (j : JVal)

/-- classes.py:318-329. `values` is arbitrary file data. -/
structure WC where
  eft : String
  basis : String
  scale : ℝ
  values : JVal
  cache : DCache
  extra : Dict String JVal

/-- classes.py:331-338 `_to_number`. -/
noncomputable def toNumber (fl : String → Option ℝ) : JVal → Except PyErr ℂ
  | .obj d => do
    let re ← pyFloat fl (Dict.getD d "Re" (.num 0))
    let im ← pyFloat fl (Dict.getD d "Im" (.num 0))
    return (re : ℂ) + Complex.I * (im : ℂ)
  | v => do
    let x ← pyFloat fl v
    return (x : ℂ)

/-- classes.py:340-347 `_to_complex_dict`. -/
noncomputable def toComplexDict (v : ℂ) : JVal :=
  if v.im ≠ 0 then .obj [("Re", .num v.re), ("Im", .num v.im)] else .num v.re

/-- classes.py:349-351 `dict2values`. -/
noncomputable def dict2values (d : Dict String ℂ) : Dict String JVal := Dict.mapVals toComplexDict d

/-- classes.py:320-329 `WC.__init__`. A keyword `_dict` overwrites the cache, a keyword `dict` names a
read-only property. -/
noncomputable def newWC (fl : String → Option ℝ) (eft basis : String) (scale values : JVal)
    (kw : Dict String JVal) : Except PyErr WC := do
  let s ← pyFloat fl scale
  match (setAttrs ["dict"] kw).2 with
  | some e => .error e
  | none => return {
      eft, basis, scale := s, values
      cache := match Dict.find kw "_dict" with
        | some .null => .none
        | some j => .raw j
        | none => .none
      extra := Dict.filt (fun k _ => k ≠ "_dict") kw }

/-- classes.py:372: convert every value. -/
noncomputable def convertValues (fl : String → Option ℝ) (values : JVal) :
    Except PyErr (Dict String ℂ) := do
  let d ← itemsOf values
  d.mapM fun p => do
    let z ← toNumber fl p.2
    return (p.1, z)

/-- classes.py:367-373 `WC.dict`: cached result, object with updated cache. -/
noncomputable def WC.readDict (fl : String → Option ℝ) (w : WC) : Except PyErr DCache × WC :=
  match w.cache with
  | .none =>
    match convertValues fl w.values with
    | .error e => (.error e, w)
    | .ok d => (.ok (.nums d), { w with cache := .nums d })
  | c => (.ok c, w)

/-- `WC.dict` as a dictionary of numbers. A raw `_dict` from a file is outside the model of the
callers. -/
noncomputable def WC.dict (fl : String → Option ℝ) (w : WC) : Except PyErr (Dict String ℂ) :=
  match (w.readDict fl).1 with
  | .error e => .error e
  | .ok (.nums d) => .ok d
  | .ok _ => .error .unmodelled

/-- classes.py:353-365 `WC.validate`. -/
def validateWC (st : Store) (w : WC) : Except PyErr Unit := do
  let _ ← match st.lookup .eft [w.eft] with
    | .error _ => .error (.valueError "EFT not defined")
    | .ok i => .ok i
  let b ← match st.lookup .basis [w.eft, w.basis] with
    | .error _ => .error (.valueError "Basis not defined for EFT")
    | .ok i => .ok i
  let d ← itemsOf w.values
  let l ← (readAllWcs st b).2
  if ∀ k ∈ Dict.keys d, k ∈ l then pure () else .error .assertionError

/-- classes.py:426-433 `Translator.translate` and classes.py:447-455 `Matcher.match` (same body): apply the
function to the numeric dictionary, drop zeros, build the result. -/
noncomputable def applyFn (fl : String → Option ℝ) (fn : Fn) (eft basis : String) (w : WC)
    (params : Option Params) : Except PyErr WC := do
  let d ← w.dict fl
  let out ← fn d w.scale params
  let out' := Dict.filt (fun _ v => decide (v ≠ 0)) out
  newWC fl eft basis (.num w.scale) (.obj (dict2values out')) []

/-- classes.py:397-404 `WC.translate`. -/
noncomputable def WC.translate (fl : String → Option ℝ) (st : Store) (w : WC) (toB : String)
    (params : Option Params) : Except PyErr WC :=
  match st.lookup .translator [w.eft, w.basis, toB] with
  | .error _ => .error (.valueError "No translator found")
  | .ok i => match st.objs[i]? with
    | some (.translator t) => applyFn fl t.fn t.eft t.toBasis w params
    | _ => .error .unmodelled

/-- classes.py:406-413 `WC.match`. -/
noncomputable def WC.matchTo (fl : String → Option ℝ) (st : Store) (w : WC) (toE toB : String)
    (params : Option Params) : Except PyErr WC :=
  match st.lookup .matcher [w.eft, w.basis, toE, toB] with
  | .error _ => .error (.valueError "No matcher found")
  | .ok i => match st.objs[i]? with
    | some (.matcher m) => applyFn fl m.fn m.toEft m.toBasis w params
    | _ => .error .unmodelled

end Verif
