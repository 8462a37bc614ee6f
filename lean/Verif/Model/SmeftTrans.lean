import Mathlib.Data.Real.Basic
import Verif.Model.Smeft

/-!
Translators between SMEFT bases (translators/smeft.py), the default parameters (parameters.py) and the SMEFT
part of translators/__init__.py.

Not modelled: the bodies of `ckmutil.ckm.ckm_tree` and `ckmutil.diag.msvd` (external package, parameters `ckm`
and `msvd` here). The basis registry access `wcxf.Basis[...].all_wcs` is the parameter `allWcs`. Numbers
are exact.
-/

set_option autoImplicit false

namespace Verif

/-- `k.split('_')[0]`. -/
def headPart (k : String) : String := String.ofList (k.toList.takeWhile (· ≠ '_'))

/-- `k.split('_')[-1]`. -/
def lastPart (k : String) : List Char := (k.toList.reverse.takeWhile (· ≠ '_')).reverse

/-- `int(c)` for a character. Simplified: only ASCII digits are accepted (Python also accepts other Unicode
decimal digits). -/
def intChar (c : Char) : Except PyErr ℕ :=
  if c.isDigit then .ok (c.toNat - '0'.toNat) else .error (.valueError "invalid literal for int()")

/-- `n - 1` as index of an axis of length 3: 0 gives -1, which is the last entry. -/
def axisIndex : ℕ → Except PyErr (Fin 3)
  | 0 => .ok 2
  | 1 => .ok 0
  | 2 => .ok 1
  | 3 => .ok 2
  | _ => .error .indexError

/-- `a[idx] = v` for a tuple of indices; fewer indices than axes assign a whole slice. -/
def Arr.setAt (a : Arr) (idx : List (Fin 3)) (v : ℂ) : Except PyErr Arr :=
  match a with
  | .mat m => if 2 < idx.length then .error .indexError
      else .ok (.mat fun i => if idx.isPrefixOf [i.1, i.2] then v else m i)
  | .ten t => if 4 < idx.length then .error .indexError
      else .ok (.ten fun i => if idx.isPrefixOf [i.1, i.2.1, i.2.2.1, i.2.2.2] then v else t i)
  | _ => .error .unmodelled

/-- `a[tuple([int(i) - 1 for i in ind])] = v`. -/
def Arr.setInd (a : Arr) (ind : List Char) (v : ℂ) : Except PyErr Arr := do
  let ns ← ind.mapM intChar
  let idx ← ns.mapM axisIndex
  a.setAt idx v

/-- translators/smeft.py:34-43, loop body of `wcxf2arrays`. -/
def wcxf2arraysStep (C : Dict String Arr) (kv : String × ℂ) : Except PyErr (Dict String Arr) := do
  let (k, v) := kv
  let name := headPart k
  let s ← Dict.get shapeTable name
  if s = .one then return Dict.put C k (.num v)
  else
    let C := if Dict.has C name then C else Dict.put C name s.zeros
    let a ← Dict.get C name
    let a' ← a.setInd (lastPart k) v
    return Dict.put C name a'

/-- translators/smeft.py:27-44 `wcxf2arrays`. -/
def wcxf2arrays (d : Dict String ℂ) : Except PyErr (Dict String Arr) := d.foldlM wcxf2arraysStep []

/-- `str(int(j) + 1)` for an index. -/
def digit : Fin 3 → Char
  | 0 => '1'
  | 1 => '2'
  | 2 => '3'

/-- `k + '_' + ''.join([str(int(j) + 1) for j in i])`. -/
def flatName (k : String) (i : List (Fin 3)) : String := String.ofList (k.toList ++ '_' :: i.map digit)

/-- Index tuples of a 3x3 array in row-major order. -/
def ix2s : List Ix2 := do let p ← List.finRange 3; let r ← List.finRange 3; return (p, r)

/-- Index tuples of a 3x3x3x3 array in row-major order. -/
def ix4s : List Ix4 := do
  let p ← List.finRange 3; let r ← List.finRange 3; let s ← List.finRange 3; let t ← List.finRange 3
  return (p, r, s, t)

/-- translators/smeft.py:16-23, the entries written for one array. -/
def flatEntries (k : String) : Arr → List (String × ℂ)
  | .num v => [(k, v)]
  | .one v => [(flatName k [0], v)]
  | .mat m => ix2s.map fun i => (flatName k [i.1, i.2], m i)
  | .ten t => ix4s.map fun i => (flatName k [i.1, i.2.1, i.2.2.1, i.2.2.2], t i)

/-- translators/smeft.py:10-24 `arrays2wcxf`. -/
def arrays2wcxf (C : Dict String Arr) : Dict String ℂ := Dict.ofPairs (C.flatMap fun p => flatEntries p.1 p.2)

/-- translators/smeft.py:53-58, the loop of `smeft_toarray`. -/
def toarrayStep (name : String) (C : Arr) (kv : String × ℂ) : Except PyErr Arr :=
  if headPart kv.1 ≠ name then .ok C else C.setInd (lastPart kv.1) kv.2

/-- translators/smeft.py:47-60 `smeft_toarray`. -/
def smeftToarray (name : String) (d : Dict String ℂ) : Except PyErr Arr := do
  let s ← Dict.get shapeTable name
  let C ← d.foldlM (toarrayStep name) s.zeros
  let C' ← symmetrize [(name, C)]
  Dict.get C' name

/-- translators/smeft.py:63-69 `smeft_fromarray` (arrays of more than zero dimensions). -/
def smeftFromarray (name : String) (C : Arr) : Dict String ℂ := Dict.ofPairs (flatEntries name C)

/-- A parameter dictionary. -/
abbrev Par := Dict String ℝ

/-- parameters.py `p`. -/
noncomputable def defaultPar : Par := [
  ("m_W", 80.385), ("m_Z", 91.1876), ("GF", 1.1663787e-5), ("alpha_e", 1 / 127.9), ("alpha_s", 0.1185),
  ("Vus", 0.2243), ("Vub", 3.62e-3), ("Vcb", 4.221e-2), ("gamma", 1.27), ("m_b", 4.18), ("m_s", 0.095),
  ("m_e", 0.0005109989461), ("m_mu", 0.1056583745), ("m_tau", 1.77686)]

/-- translators/smeft.py:80-83: `p = default_parameters.copy(); if parameters is not None: p.update(parameters)`. -/
def withPar (default : Par) : Option Par → Par
  | none => default
  | some p => Dict.upd default p

/-- `ckmutil.ckm.ckm_tree(p["Vus"], p["Vub"], p["Vcb"], p["gamma"])`. -/
def ckmOf (ckm : ℝ → ℝ → ℝ → ℝ → M3) (p : Par) : Except PyErr M3 := do
  let a ← Dict.get p "Vus"
  let b ← Dict.get p "Vub"
  let c ← Dict.get p "Vcb"
  let g ← Dict.get p "gamma"
  return ckm a b c g

/-- translators/smeft.py:88-94, one pass of the loop over `C_rotate_u`; the arguments are the input, the
parameters and the output so far. -/
def rotateU (ckm : ℝ → ℝ → ℝ → ℝ → M3) (p : Par) (C : Dict String ℂ) (out : Dict String ℂ) (name : String) :
    Except PyErr (Dict String ℂ) := do
  let a ← smeftToarray name C
  let V ← ckmOf ckm p
  let UuL := V.conjTranspose
  let a ← a.onMat fun m i => (UuL.conjTranspose * Matrix.of fun x y => m (x, y)) i.1 i.2
  return Dict.upd out (smeftFromarray name a)

/-- translators/smeft.py:72-100 `warsaw_to_warsawmass`. `msvd` gives the singular values (second component of the
result of `ckmutil.diag.msvd`). -/
def warsawToWarsawmass (ckm : ℝ → ℝ → ℝ → ℝ → M3) (msvd : M3 → Fin 3 → ℝ) (default : Par) (C : Dict String ℂ)
    (parameters : Option Par) : Except PyErr (Dict String ℂ) := do
  let p := withPar default parameters
  let out ← ["uphi", "uG", "uW", "uB"].foldlM (rotateU ckm p C) C
  let a ← smeftToarray "llphiphi" C
  let a ← a.onMat fun m i => if i.1 = i.2 then (msvd (Matrix.of fun x y => m (x, y)) i.1 : ℂ) else 0
  return Dict.upd out (smeftFromarray "llphiphi" a)

/-- The common body of the two functions below: `Uq` as a function of the CKM matrix. -/
def rotateWarsaw (Uq : M3 → M3) (ckm : ℝ → ℝ → ℝ → ℝ → M3) (allWcs : List String) (default : Par) (C : Dict String ℂ)
    (parameters : Option Par) : Except PyErr (Dict String ℂ) := do
  let A ← wcxf2arrays C
  let A ← symmetrize A
  let p := withPar default parameters
  let V ← ckmOf ckm p
  let A ← flavorRotation A ⟨Uq V, 1, 1, 1, 1⟩
  return Dict.filt (fun k _ => decide (k ∈ allWcs)) (arrays2wcxf A)

/-- translators/smeft.py:103-123 `warsaw_to_warsaw_up`; `allWcs` of the basis Warsaw up. -/
def warsawToWarsawUp := rotateWarsaw fun V => V.conjTranspose

/-- translators/smeft.py:126-146 `warsaw_up_to_warsaw`; `allWcs` of the basis Warsaw. -/
def warsawUpToWarsaw := rotateWarsaw fun V => V

/-- translators/__init__.py:6-18: the registered SMEFT translators take a scale and parameters and pass neither
on. `f` is the function of translators/smeft.py. -/
def registeredSmeft (f : Dict String ℂ → Option Par → Except PyErr (Dict String ℂ)) (C : Dict String ℂ) (_scale : ℝ)
    (_parameters : Option Par) : Except PyErr (Dict String ℂ) := f C none

end Verif
