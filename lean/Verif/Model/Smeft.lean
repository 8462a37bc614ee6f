import Mathlib.Data.Matrix.Basic
import Mathlib.LinearAlgebra.Matrix.ConjTranspose
import Verif.Model.Symm

/-!
Names, shapes, symmetrisation and flavour rotation of SMEFT coefficients (smeftutil.py).
-/

set_option autoImplicit false

namespace Verif

/-- Shapes in `C_keys_shape`: `1`, `(3, 3)`, `(3, 3, 3, 3)`. -/
inductive Shape where
  | one
  | two
  | four
  deriving DecidableEq, Repr

/-- smeftutil.py:7-8 `SM_keys`. -/
def smKeys : List String := [
  "g", "gp", "gs", "Lambda", "m2", "Gu", "Gd", "Ge", "Theta", "Thetap", "Thetas"]

/-- smeftutil.py:13-15 `WC_keys_0f`. -/
def wcKeys0f : List String := [
  "G", "Gtilde", "W", "Wtilde", "phi", "phiBox", "phiD", "phiG", "phiB", "phiW", "phiWB", "phiGtilde",
  "phiBtilde", "phiWtilde", "phiWtildeB"]

/-- smeftutil.py:16-18 `WC_keys_2f`. -/
def wcKeys2f : List String := [
  "uphi", "dphi", "ephi", "eW", "eB", "uG", "uW", "uB", "dG", "dW", "dB", "phil1", "phil3", "phie", "phiq1",
  "phiq3", "phiu", "phid", "phiud", "llphiphi"]

/-- smeftutil.py:19-22 `WC_keys_4f`. -/
def wcKeys4f : List String := [
  "ll", "qq1", "qq3", "lq1", "lq3", "ee", "uu", "dd", "eu", "ed", "ud1", "ud8", "le", "lu", "ld", "qe", "qu1",
  "qd1", "qu8", "qd8", "ledq", "quqd1", "quqd8", "lequ1", "lequ3", "duql", "qque", "qqql", "duue"]

/-- smeftutil.py:26 `WC_keys`. -/
def wcKeys : List String := wcKeys0f ++ wcKeys2f ++ wcKeys4f

/-- smeftutil.py:28-104 `C_keys_shape`. -/
def shapeTable : Dict String Shape := [
  ("g", .one), ("gp", .one), ("gs", .one), ("Lambda", .one), ("m2", .one),
  ("Gu", .two), ("Gd", .two), ("Ge", .two), ("Theta", .one), ("Thetap", .one),
  ("Thetas", .one), ("G", .one), ("Gtilde", .one), ("W", .one), ("Wtilde", .one),
  ("phi", .one), ("phiBox", .one), ("phiD", .one), ("phiG", .one), ("phiB", .one),
  ("phiW", .one), ("phiWB", .one), ("phiGtilde", .one), ("phiBtilde", .one), ("phiWtilde", .one),
  ("phiWtildeB", .one), ("uphi", .two), ("dphi", .two), ("ephi", .two), ("eW", .two),
  ("eB", .two), ("uG", .two), ("uW", .two), ("uB", .two), ("dG", .two),
  ("dW", .two), ("dB", .two), ("phil1", .two), ("phil3", .two), ("phie", .two),
  ("phiq1", .two), ("phiq3", .two), ("phiu", .two), ("phid", .two), ("phiud", .two),
  ("llphiphi", .two), ("ll", .four), ("qq1", .four), ("qq3", .four), ("lq1", .four),
  ("lq3", .four), ("ee", .four), ("uu", .four), ("dd", .four), ("eu", .four),
  ("ed", .four), ("ud1", .four), ("ud8", .four), ("le", .four), ("lu", .four),
  ("ld", .four), ("qe", .four), ("qu1", .four), ("qd1", .four), ("qu8", .four),
  ("qd8", .four), ("ledq", .four), ("quqd1", .four), ("quqd8", .four), ("lequ1", .four),
  ("lequ3", .four), ("duql", .four), ("qque", .four), ("qqql", .four), ("duue", .four)]

/-- smeftutil.py:109 `C_symm_keys[0]`. -/
def symmKeys0 : List String := [
  "G", "Gtilde", "W", "Wtilde", "phi", "phiBox", "phiD", "phiG", "phiB", "phiW", "phiWB", "phiGtilde",
  "phiBtilde", "phiWtilde", "phiWtildeB"]

/-- smeftutil.py:111 `C_symm_keys[1]`. -/
def symmKeys1 : List String := [
  "uphi", "dphi", "ephi", "eW", "eB", "uG", "uW", "uB", "dG", "dW", "dB", "phiud"]

/-- smeftutil.py:113 `C_symm_keys[2]`. -/
def symmKeys2 : List String := [
  "phil1", "phil3", "phie", "phiq1", "phiq3", "phiu", "phid"]

/-- smeftutil.py:115 `C_symm_keys[3]`. -/
def symmKeys3 : List String := [
  "ledq", "quqd1", "quqd8", "lequ1", "lequ3", "duql", "duue"]

/-- smeftutil.py:117 `C_symm_keys[4]`. -/
def symmKeys4 : List String := [
  "ll", "qq1", "qq3", "uu", "dd"]

/-- smeftutil.py:119 `C_symm_keys[5]`. -/
def symmKeys5 : List String := [
  "lq1", "lq3", "eu", "ed", "ud1", "ud8", "le", "lu", "ld", "qe", "qu1", "qd1", "qu8", "qd8"]

/-- smeftutil.py:121 `C_symm_keys[6]`. -/
def symmKeys6 : List String := [
  "ee"]

/-- smeftutil.py:123 `C_symm_keys[7]`. -/
def symmKeys7 : List String := [
  "qque"]

/-- smeftutil.py:125 `C_symm_keys[8]`. -/
def symmKeys8 : List String := [
  "qqql"]

/-- smeftutil.py:127 `C_symm_keys[9]`. -/
def symmKeys9 : List String := [
  "llphiphi"]

/-- A number or a numpy array: a number, an array of shape (1,) (from `np.zeros(1)`), (3, 3) or
(3, 3, 3, 3). -/
inductive Arr where
  | num (v : ℂ)
  | one (v : ℂ)
  | mat (m : Ix2 → ℂ)
  | ten (t : Ix4 → ℂ)

/-- `v.real`. -/
def Arr.real : Arr → Arr
  | .num v => .num (v.re : ℂ)
  | .one v => .one (v.re : ℂ)
  | .mat m => .mat fun i => ((m i).re : ℂ)
  | .ten t => .ten fun i => ((t i).re : ℂ)

/-- A function on 3x3 arrays; other shapes are outside the model (they do not occur in the callers). -/
def Arr.onMat (f : (Ix2 → ℂ) → Ix2 → ℂ) : Arr → Except PyErr Arr
  | .mat m => .ok (.mat (f m))
  | _ => .error .unmodelled

/-- A function on 3x3x3x3 arrays. -/
def Arr.onTen (f : (Ix4 → ℂ) → Ix4 → ℂ) : Arr → Except PyErr Arr
  | .ten t => .ok (.ten (f t))
  | _ => .error .unmodelled

/-- The body of the loop smeftutil.py:550-568: the new entry for `i`, or none. -/
def symEntry (i : String) (v : Arr) : Except PyErr (Option Arr) :=
  if i ∈ symmKeys0 then .ok (some v.real)
  else if i ∈ symmKeys1 ++ symmKeys3 then .ok (some v)
  else if i ∈ symmKeys2 then (v.onMat symmetrize2).map some
  else if i ∈ symmKeys4 then (v.onTen symmetrize4).map some
  else if i ∈ symmKeys5 then (v.onTen symmetrize5).map some
  else if i ∈ symmKeys6 then (v.onTen symmetrize6).map some
  else if i ∈ symmKeys7 then (v.onTen symmetrize7).map some
  else if i ∈ symmKeys8 then (v.onTen symmetrize8).map some
  else if i ∈ symmKeys9 then (v.onMat symmetrize9).map some
  else .ok none

/-- smeftutil.py:548-569 `symmetrize`. -/
def symmetrize : Dict String Arr → Except PyErr (Dict String Arr)
  | [] => .ok []
  | (i, v) :: C => do
    let o ← symEntry i v
    let rest ← symmetrize C
    return match o with
      | some v' => (i, v') :: rest
      | none => rest

/-- `np.zeros` of a shape. -/
def Shape.zeros : Shape → Arr
  | .one => .one 0
  | .two => .mat fun _ => 0
  | .four => .ten fun _ => 0

/-- smeftutil.py:572-577 `add_missing`. The loop runs over a set; its order is not fixed, here it is the
order of `WC_keys` (the theorems do not depend on it). -/
def addMissing (C : Dict String Arr) : Dict String Arr :=
  C ++ (wcKeys.filter fun k => !Dict.has C k).map fun k =>
    (k, ((Dict.find shapeTable k).getD .one).zeros)

/-- 3x3 complex matrices. -/
abbrev M3 := Matrix (Fin 3) (Fin 3) ℂ

/-- `A.conj()`. -/
def conj (A : M3) : M3 := A.map (starRingEnd ℂ)

/-- Rotation matrices of the five fermion fields. -/
structure Rot where
  q : M3
  u : M3
  d : M3
  l : M3
  e : M3

/-- `L @ C @ R`. -/
def matmul (L R : M3) : Arr → Except PyErr Arr :=
  Arr.onMat fun m i => (L * Matrix.of (fun a b => m (a, b)) * R) i.1 i.2

/-- `np.einsum('jb,ld,ia,kc,ijkl->abcd', U1, U2, U3, U4, C)`. -/
def einsum4 (U1 U2 U3 U4 : M3) : Arr → Except PyErr Arr :=
  Arr.onTen fun C i => ∑ i', ∑ j, ∑ k, ∑ l,
    U1 j i.2.1 * U2 l i.2.2.2 * U3 i' i.1 * U4 k i.2.2.1 * C (i', j, k, l)

/-- The assignments of `flavor_rotation` in order, smeftutil.py:583-674. -/
def rotRules (U : Rot) : List (String × (Arr → Except PyErr Arr)) :=
  (wcKeys0f.map fun k => (k, Except.ok)) ++
  (["ephi", "eW", "eB"].map fun k => (k, matmul (conj U.l).transpose U.e)) ++
  (["uphi", "uW", "uB", "uG"].map fun k => (k, matmul (conj U.q).transpose U.u)) ++
  (["dphi", "dW", "dB", "dG"].map fun k => (k, matmul (conj U.q).transpose U.d)) ++
  (["phil1", "phil3"].map fun k => (k, matmul (conj U.l).transpose U.l)) ++
  (["phiq1", "phiq3"].map fun k => (k, matmul (conj U.q).transpose U.q)) ++
  [("llphiphi", matmul U.l.transpose U.l),
   ("phie", matmul (conj U.e).transpose U.e),
   ("phiu", matmul (conj U.u).transpose U.u),
   ("phid", matmul (conj U.d).transpose U.d),
   ("phiud", matmul (conj U.u).transpose U.d)] ++
  [("ll", einsum4 U.l U.l (conj U.l) (conj U.l)),
   ("ee", einsum4 U.e U.e (conj U.e) (conj U.e)),
   ("le", einsum4 U.l U.e (conj U.l) (conj U.e)),
   ("qq1", einsum4 U.q U.q (conj U.q) (conj U.q)),
   ("qq3", einsum4 U.q U.q (conj U.q) (conj U.q)),
   ("dd", einsum4 U.d U.d (conj U.d) (conj U.d)),
   ("uu", einsum4 U.u U.u (conj U.u) (conj U.u)),
   ("ud8", einsum4 U.u U.d (conj U.u) (conj U.d)),
   ("ud1", einsum4 U.u U.d (conj U.u) (conj U.d)),
   ("qu1", einsum4 U.q U.u (conj U.q) (conj U.u)),
   ("qu8", einsum4 U.q U.u (conj U.q) (conj U.u)),
   ("qd1", einsum4 U.q U.d (conj U.q) (conj U.d)),
   ("qd8", einsum4 U.q U.d (conj U.q) (conj U.d)),
   ("quqd1", einsum4 U.u U.d (conj U.q) (conj U.q)),
   ("quqd8", einsum4 U.u U.d (conj U.q) (conj U.q)),
   ("lq1", einsum4 U.l U.q (conj U.l) (conj U.q)),
   ("lq3", einsum4 U.l U.q (conj U.l) (conj U.q)),
   ("ld", einsum4 U.l U.d (conj U.l) (conj U.d)),
   ("lu", einsum4 U.l U.u (conj U.l) (conj U.u)),
   ("qe", einsum4 U.q U.e (conj U.q) (conj U.e)),
   ("ed", einsum4 U.e U.d (conj U.e) (conj U.d)),
   ("eu", einsum4 U.e U.u (conj U.e) (conj U.u)),
   ("ledq", einsum4 U.e U.q (conj U.l) (conj U.d)),
   ("lequ1", einsum4 U.e U.u (conj U.l) (conj U.q)),
   ("lequ3", einsum4 U.e U.u (conj U.l) (conj U.q)),
   ("duql", einsum4 U.u U.l U.d U.q),
   ("qque", einsum4 U.q U.e U.q U.u),
   ("qqql", einsum4 U.q U.l U.q U.q),
   ("duue", einsum4 U.u U.e U.d U.u)]

/-- One pass over the rules: entries present in `C` are rotated. -/
def applyRules (C : Dict String Arr) : List (String × (Arr → Except PyErr Arr)) → Except PyErr (Dict String Arr)
  | [] => .ok []
  | (k, f) :: rules => match Dict.find C k with
    | none => applyRules C rules
    | some v => do
      let v' ← f v
      let rest ← applyRules C rules
      return (k, v') :: rest

/-- smeftutil.py:580-675 `flavor_rotation`. -/
def flavorRotation (C : Dict String Arr) (U : Rot) : Except PyErr (Dict String Arr) := applyRules C (rotRules U)

end Verif
