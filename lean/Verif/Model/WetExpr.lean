import Mathlib.Data.Complex.Basic
import Mathlib.Analysis.Real.Sqrt
import Verif.Py.Dict

/-!
Right hand sides of the coefficient tables in translators/wet.py.

The functions of wet.py return dictionary displays whose values are arithmetic expressions in entries of
the input. These expressions are kept as syntax (`Ex`), written with the operators of the source, and
evaluated with exceptions: reading a missing entry raises.
-/

set_option autoImplicit false

namespace Verif

/-- Arithmetic expressions over entries `S` of the input; scalars are complex numbers. -/
inductive Ex (S : Type) where
  | src (s : S)
  | zero
  | cj (e : Ex S)
  | neg (e : Ex S)
  | add (a b : Ex S)
  | sub (a b : Ex S)
  | smul (c : ℂ) (e : Ex S)
  | sdiv (e : Ex S) (c : ℂ)

namespace Ex

variable {S : Type}

instance : Add (Ex S) := ⟨Ex.add⟩
instance : Sub (Ex S) := ⟨Ex.sub⟩
instance : Neg (Ex S) := ⟨Ex.neg⟩
instance : HMul ℂ (Ex S) (Ex S) := ⟨Ex.smul⟩
instance : HDiv (Ex S) ℂ (Ex S) := ⟨Ex.sdiv⟩

/-- Evaluation; `rd` reads an entry of the input. Divisors that can vanish are checked where they are
computed (see `divE`), so `sdiv` divides by a non-zero number. -/
noncomputable def eval (rd : S → Except PyErr ℂ) : Ex S → Except PyErr ℂ
  | src s => rd s
  | zero => .ok 0
  | cj e => do let a ← e.eval rd; return starRingEnd ℂ a
  | neg e => do let a ← e.eval rd; return -a
  | add a b => do let x ← a.eval rd; let y ← b.eval rd; return x + y
  | sub a b => do let x ← a.eval rd; let y ← b.eval rd; return x - y
  | smul c e => do let a ← e.eval rd; return c * a
  | sdiv e c => do let a ← e.eval rd; return a / c

/-- `x.conj()`. -/
abbrev conj (e : Ex S) : Ex S := Ex.cj e

end Ex

/-- A dictionary display: keys and value expressions. -/
abbrev Block (S : Type) := List (String × Ex S)

/-- Value of a dictionary display. (The keys of every display in wet.py are distinct.) -/
noncomputable def evalBlock {S : Type} (rd : S → Except PyErr ℂ) (b : Block S) : Except PyErr (Dict String ℂ) :=
  b.mapM fun p => do
    let v ← p.2.eval rd
    return (p.1, v)

/-- Entry `C[name][i, j, ...]` of a dictionary of arrays. -/
abbrev JSrc := String × List (Fin 3)

/-- `C[name][i, j, ...]`. -/
abbrev el (name : String) (idx : List (Fin 3)) : Ex JSrc := .src (name, idx)

/-- `C[k]`. -/
abbrev key (k : String) : Ex String := .src k

/-- `D[k]` where several dictionaries are read; `D` is the name of the dictionary. -/
abbrev key2 (D k : String) : Ex (String × String) := .src (D, k)

/-- `x / y` of two Python floats. -/
noncomputable def divE (x y : ℝ) : Except PyErr ℝ :=
  open Classical in if y = 0 then .error .zeroDivision else .ok (x / y)

/-- `x / z` for a numpy complex number `z`: division by zero gives infinities and NaN, which are outside the
model. -/
noncomputable def divC (x z : ℂ) : Except PyErr ℂ :=
  open Classical in if z = 0 then .error .nan else .ok (x / z)

/-- `math.sqrt(x)`. -/
noncomputable def sqrtE (x : ℝ) : Except PyErr ℝ :=
  open Classical in if x < 0 then .error (.valueError "math domain error") else .ok (Real.sqrt x)

end Verif
