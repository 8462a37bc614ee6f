import Mathlib.Data.Complex.Basic
import Verif.Py.Dict

/-!
Symmetrisation of flavour tensors (smeftutil.py:130-545).

A numpy array of shape (3, 3) or (3, 3, 3, 3) is a function on its index tuples. The functions
`symmetrize_N` consist of assignments only; they are given as lists of assignments (transcribed from the
source by a script, in the same order) that are executed one after the other.
-/

set_option autoImplicit false

namespace Verif

/-- Index tuple of a 3x3 array. -/
abbrev Ix2 := Fin 3 × Fin 3

/-- Index tuple of a 3x3x3x3 array. -/
abbrev Ix4 := Fin 3 × Fin 3 × Fin 3 × Fin 3

/-- One assignment statement. -/
inductive Asg (I : Type) where
  /-- `a.real[dst] = a.real[src]` -/
  | re (dst src : I)
  /-- `a.imag[dst] = a.imag[src]` -/
  | im (dst src : I)
  /-- `a.imag[dst] = -a.imag[src]` -/
  | imNeg (dst src : I)
  /-- `a.imag[dst] = 0` -/
  | imZero (dst : I)
  /-- `a[dst] = a[src].conj()` -/
  | conj (dst src : I)
  /-- `a[dst] = a[src]` -/
  | copy (dst src : I)
  /-- `a[dst] = a[x]+a[y]-a[z]` -/
  | lin (dst x y z : I)
  deriving DecidableEq, Repr

/-- Execution of one assignment. -/
def Asg.exec {I : Type} [DecidableEq I] (a : I → ℂ) : Asg I → I → ℂ
  | .re d s => Function.update a d ⟨(a s).re, (a d).im⟩
  | .im d s => Function.update a d ⟨(a d).re, (a s).im⟩
  | .imNeg d s => Function.update a d ⟨(a d).re, -(a s).im⟩
  | .imZero d => Function.update a d ⟨(a d).re, 0⟩
  | .conj d s => Function.update a d ⟨(a s).re, -(a s).im⟩
  | .copy d s => Function.update a d (a s)
  | .lin d x y z => Function.update a d (a x + a y - a z)

/-- Execution of a list of assignments on a copy of `b`. -/
def execProg {I : Type} [DecidableEq I] (prog : List (Asg I)) (b : I → ℂ) : I → ℂ := prog.foldl Asg.exec b

/-- smeftutil.py:130-138, the assignments of `symmetrize_2` in order. -/
def prog2 : List (Asg Ix2) := [
  .conj (1, 0) (0, 1), .conj (2, 0) (0, 2), .conj (2, 1) (1, 2), .imZero (0, 0), .imZero (1, 1), .imZero (2, 2)]

/-- smeftutil.py:140-259, the assignments of `symmetrize_4` in order. -/
def prog4 : List (Asg Ix4) := [
  .re (0, 0, 1, 0) (0, 0, 0, 1), .re (0, 0, 2, 0) (0, 0, 0, 2), .re (0, 0, 2, 1) (0, 0, 1, 2),
  .re (0, 1, 0, 0) (0, 0, 0, 1), .re (0, 2, 0, 0) (0, 0, 0, 2), .re (0, 2, 0, 1) (0, 1, 0, 2),
  .re (0, 2, 1, 0) (0, 1, 2, 0), .re (1, 0, 0, 0) (0, 0, 0, 1), .re (1, 0, 0, 1) (0, 1, 1, 0),
  .re (1, 0, 0, 2) (0, 1, 2, 0), .re (1, 0, 1, 0) (0, 1, 0, 1), .re (1, 0, 1, 1) (0, 1, 1, 1),
  .re (1, 0, 1, 2) (0, 1, 2, 1), .re (1, 0, 2, 0) (0, 1, 0, 2), .re (1, 0, 2, 1) (0, 1, 1, 2),
  .re (1, 0, 2, 2) (0, 1, 2, 2), .re (1, 1, 0, 0) (0, 0, 1, 1), .re (1, 1, 0, 1) (0, 1, 1, 1),
  .re (1, 1, 0, 2) (0, 2, 1, 1), .re (1, 1, 1, 0) (0, 1, 1, 1), .re (1, 1, 2, 0) (0, 2, 1, 1),
  .re (1, 1, 2, 1) (1, 1, 1, 2), .re (1, 2, 0, 0) (0, 0, 1, 2), .re (1, 2, 0, 1) (0, 1, 1, 2),
  .re (1, 2, 0, 2) (0, 2, 1, 2), .re (1, 2, 1, 0) (0, 1, 2, 1), .re (1, 2, 1, 1) (1, 1, 1, 2),
  .re (1, 2, 2, 0) (0, 2, 2, 1), .re (2, 0, 0, 0) (0, 0, 0, 2), .re (2, 0, 0, 1) (0, 1, 2, 0),
  .re (2, 0, 0, 2) (0, 2, 2, 0), .re (2, 0, 1, 0) (0, 1, 0, 2), .re (2, 0, 1, 1) (0, 2, 1, 1),
  .re (2, 0, 1, 2) (0, 2, 2, 1), .re (2, 0, 2, 0) (0, 2, 0, 2), .re (2, 0, 2, 1) (0, 2, 1, 2),
  .re (2, 0, 2, 2) (0, 2, 2, 2), .re (2, 1, 0, 0) (0, 0, 1, 2), .re (2, 1, 0, 1) (0, 1, 2, 1),
  .re (2, 1, 0, 2) (0, 2, 2, 1), .re (2, 1, 1, 0) (0, 1, 1, 2), .re (2, 1, 1, 1) (1, 1, 1, 2),
  .re (2, 1, 1, 2) (1, 2, 2, 1), .re (2, 1, 2, 0) (0, 2, 1, 2), .re (2, 1, 2, 1) (1, 2, 1, 2),
  .re (2, 1, 2, 2) (1, 2, 2, 2), .re (2, 2, 0, 0) (0, 0, 2, 2), .re (2, 2, 0, 1) (0, 1, 2, 2),
  .re (2, 2, 0, 2) (0, 2, 2, 2), .re (2, 2, 1, 0) (0, 1, 2, 2), .re (2, 2, 1, 1) (1, 1, 2, 2),
  .re (2, 2, 1, 2) (1, 2, 2, 2), .re (2, 2, 2, 0) (0, 2, 2, 2), .re (2, 2, 2, 1) (1, 2, 2, 2),
  .imZero (0, 0, 0, 0), .imNeg (0, 0, 1, 0) (0, 0, 0, 1), .imZero (0, 0, 1, 1),
  .imNeg (0, 0, 2, 0) (0, 0, 0, 2), .imNeg (0, 0, 2, 1) (0, 0, 1, 2), .imZero (0, 0, 2, 2),
  .im (0, 1, 0, 0) (0, 0, 0, 1), .imZero (0, 1, 1, 0), .im (0, 2, 0, 0) (0, 0, 0, 2),
  .im (0, 2, 0, 1) (0, 1, 0, 2), .imNeg (0, 2, 1, 0) (0, 1, 2, 0), .imZero (0, 2, 2, 0),
  .imNeg (1, 0, 0, 0) (0, 0, 0, 1), .imZero (1, 0, 0, 1), .imNeg (1, 0, 0, 2) (0, 1, 2, 0),
  .imNeg (1, 0, 1, 0) (0, 1, 0, 1), .imNeg (1, 0, 1, 1) (0, 1, 1, 1), .imNeg (1, 0, 1, 2) (0, 1, 2, 1),
  .imNeg (1, 0, 2, 0) (0, 1, 0, 2), .imNeg (1, 0, 2, 1) (0, 1, 1, 2), .imNeg (1, 0, 2, 2) (0, 1, 2, 2),
  .imZero (1, 1, 0, 0), .im (1, 1, 0, 1) (0, 1, 1, 1), .im (1, 1, 0, 2) (0, 2, 1, 1),
  .imNeg (1, 1, 1, 0) (0, 1, 1, 1), .imZero (1, 1, 1, 1), .imNeg (1, 1, 2, 0) (0, 2, 1, 1),
  .imNeg (1, 1, 2, 1) (1, 1, 1, 2), .imZero (1, 1, 2, 2), .im (1, 2, 0, 0) (0, 0, 1, 2),
  .im (1, 2, 0, 1) (0, 1, 1, 2), .im (1, 2, 0, 2) (0, 2, 1, 2), .imNeg (1, 2, 1, 0) (0, 1, 2, 1),
  .im (1, 2, 1, 1) (1, 1, 1, 2), .imNeg (1, 2, 2, 0) (0, 2, 2, 1), .imZero (1, 2, 2, 1),
  .imNeg (2, 0, 0, 0) (0, 0, 0, 2), .im (2, 0, 0, 1) (0, 1, 2, 0), .imZero (2, 0, 0, 2),
  .imNeg (2, 0, 1, 0) (0, 1, 0, 2), .imNeg (2, 0, 1, 1) (0, 2, 1, 1), .imNeg (2, 0, 1, 2) (0, 2, 2, 1),
  .imNeg (2, 0, 2, 0) (0, 2, 0, 2), .imNeg (2, 0, 2, 1) (0, 2, 1, 2), .imNeg (2, 0, 2, 2) (0, 2, 2, 2),
  .imNeg (2, 1, 0, 0) (0, 0, 1, 2), .im (2, 1, 0, 1) (0, 1, 2, 1), .im (2, 1, 0, 2) (0, 2, 2, 1),
  .imNeg (2, 1, 1, 0) (0, 1, 1, 2), .imNeg (2, 1, 1, 1) (1, 1, 1, 2), .imZero (2, 1, 1, 2),
  .imNeg (2, 1, 2, 0) (0, 2, 1, 2), .imNeg (2, 1, 2, 1) (1, 2, 1, 2), .imNeg (2, 1, 2, 2) (1, 2, 2, 2),
  .imZero (2, 2, 0, 0), .im (2, 2, 0, 1) (0, 1, 2, 2), .im (2, 2, 0, 2) (0, 2, 2, 2),
  .imNeg (2, 2, 1, 0) (0, 1, 2, 2), .imZero (2, 2, 1, 1), .im (2, 2, 1, 2) (1, 2, 2, 2),
  .imNeg (2, 2, 2, 0) (0, 2, 2, 2), .imNeg (2, 2, 2, 1) (1, 2, 2, 2), .imZero (2, 2, 2, 2)]

/-- smeftutil.py:262-345, the assignments of `symmetrize_5` in order. -/
def prog5 : List (Asg Ix4) := [
  .re (0, 0, 1, 0) (0, 0, 0, 1), .re (0, 0, 2, 0) (0, 0, 0, 2), .re (0, 0, 2, 1) (0, 0, 1, 2),
  .re (1, 0, 0, 0) (0, 1, 0, 0), .re (1, 0, 0, 1) (0, 1, 1, 0), .re (1, 0, 0, 2) (0, 1, 2, 0),
  .re (1, 0, 1, 0) (0, 1, 0, 1), .re (1, 0, 1, 1) (0, 1, 1, 1), .re (1, 0, 1, 2) (0, 1, 2, 1),
  .re (1, 0, 2, 0) (0, 1, 0, 2), .re (1, 0, 2, 1) (0, 1, 1, 2), .re (1, 0, 2, 2) (0, 1, 2, 2),
  .re (1, 1, 1, 0) (1, 1, 0, 1), .re (1, 1, 2, 0) (1, 1, 0, 2), .re (1, 1, 2, 1) (1, 1, 1, 2),
  .re (2, 0, 0, 0) (0, 2, 0, 0), .re (2, 0, 0, 1) (0, 2, 1, 0), .re (2, 0, 0, 2) (0, 2, 2, 0),
  .re (2, 0, 1, 0) (0, 2, 0, 1), .re (2, 0, 1, 1) (0, 2, 1, 1), .re (2, 0, 1, 2) (0, 2, 2, 1),
  .re (2, 0, 2, 0) (0, 2, 0, 2), .re (2, 0, 2, 1) (0, 2, 1, 2), .re (2, 0, 2, 2) (0, 2, 2, 2),
  .re (2, 1, 0, 0) (1, 2, 0, 0), .re (2, 1, 0, 1) (1, 2, 1, 0), .re (2, 1, 0, 2) (1, 2, 2, 0),
  .re (2, 1, 1, 0) (1, 2, 0, 1), .re (2, 1, 1, 1) (1, 2, 1, 1), .re (2, 1, 1, 2) (1, 2, 2, 1),
  .re (2, 1, 2, 0) (1, 2, 0, 2), .re (2, 1, 2, 1) (1, 2, 1, 2), .re (2, 1, 2, 2) (1, 2, 2, 2),
  .re (2, 2, 1, 0) (2, 2, 0, 1), .re (2, 2, 2, 0) (2, 2, 0, 2), .re (2, 2, 2, 1) (2, 2, 1, 2),
  .imZero (0, 0, 0, 0), .imNeg (0, 0, 1, 0) (0, 0, 0, 1), .imZero (0, 0, 1, 1),
  .imNeg (0, 0, 2, 0) (0, 0, 0, 2), .imNeg (0, 0, 2, 1) (0, 0, 1, 2), .imZero (0, 0, 2, 2),
  .imNeg (1, 0, 0, 0) (0, 1, 0, 0), .imNeg (1, 0, 0, 1) (0, 1, 1, 0), .imNeg (1, 0, 0, 2) (0, 1, 2, 0),
  .imNeg (1, 0, 1, 0) (0, 1, 0, 1), .imNeg (1, 0, 1, 1) (0, 1, 1, 1), .imNeg (1, 0, 1, 2) (0, 1, 2, 1),
  .imNeg (1, 0, 2, 0) (0, 1, 0, 2), .imNeg (1, 0, 2, 1) (0, 1, 1, 2), .imNeg (1, 0, 2, 2) (0, 1, 2, 2),
  .imZero (1, 1, 0, 0), .imNeg (1, 1, 1, 0) (1, 1, 0, 1), .imZero (1, 1, 1, 1),
  .imNeg (1, 1, 2, 0) (1, 1, 0, 2), .imNeg (1, 1, 2, 1) (1, 1, 1, 2), .imZero (1, 1, 2, 2),
  .imNeg (2, 0, 0, 0) (0, 2, 0, 0), .imNeg (2, 0, 0, 1) (0, 2, 1, 0), .imNeg (2, 0, 0, 2) (0, 2, 2, 0),
  .imNeg (2, 0, 1, 0) (0, 2, 0, 1), .imNeg (2, 0, 1, 1) (0, 2, 1, 1), .imNeg (2, 0, 1, 2) (0, 2, 2, 1),
  .imNeg (2, 0, 2, 0) (0, 2, 0, 2), .imNeg (2, 0, 2, 1) (0, 2, 1, 2), .imNeg (2, 0, 2, 2) (0, 2, 2, 2),
  .imNeg (2, 1, 0, 0) (1, 2, 0, 0), .imNeg (2, 1, 0, 1) (1, 2, 1, 0), .imNeg (2, 1, 0, 2) (1, 2, 2, 0),
  .imNeg (2, 1, 1, 0) (1, 2, 0, 1), .imNeg (2, 1, 1, 1) (1, 2, 1, 1), .imNeg (2, 1, 1, 2) (1, 2, 2, 1),
  .imNeg (2, 1, 2, 0) (1, 2, 0, 2), .imNeg (2, 1, 2, 1) (1, 2, 1, 2), .imNeg (2, 1, 2, 2) (1, 2, 2, 2),
  .imZero (2, 2, 0, 0), .imNeg (2, 2, 1, 0) (2, 2, 0, 1), .imZero (2, 2, 1, 1),
  .imNeg (2, 2, 2, 0) (2, 2, 0, 2), .imNeg (2, 2, 2, 1) (2, 2, 1, 2), .imZero (2, 2, 2, 2)]

/-- smeftutil.py:348-476, the assignments of `symmetrize_6` in order. -/
def prog6 : List (Asg Ix4) := [
  .re (0, 0, 1, 0) (0, 0, 0, 1), .re (0, 0, 2, 0) (0, 0, 0, 2), .re (0, 0, 2, 1) (0, 0, 1, 2),
  .re (0, 1, 0, 0) (0, 0, 0, 1), .re (0, 1, 1, 0) (0, 0, 1, 1), .re (0, 1, 2, 0) (0, 0, 1, 2),
  .re (0, 2, 0, 0) (0, 0, 0, 2), .re (0, 2, 0, 1) (0, 1, 0, 2), .re (0, 2, 1, 0) (0, 0, 1, 2),
  .re (0, 2, 1, 1) (0, 1, 1, 2), .re (0, 2, 2, 0) (0, 0, 2, 2), .re (0, 2, 2, 1) (0, 1, 2, 2),
  .re (1, 0, 0, 0) (0, 0, 0, 1), .re (1, 0, 0, 1) (0, 0, 1, 1), .re (1, 0, 0, 2) (0, 0, 1, 2),
  .re (1, 0, 1, 0) (0, 1, 0, 1), .re (1, 0, 1, 1) (0, 1, 1, 1), .re (1, 0, 1, 2) (0, 1, 2, 1),
  .re (1, 0, 2, 0) (0, 1, 0, 2), .re (1, 0, 2, 1) (0, 1, 1, 2), .re (1, 0, 2, 2) (0, 1, 2, 2),
  .re (1, 1, 0, 0) (0, 0, 1, 1), .re (1, 1, 0, 1) (0, 1, 1, 1), .re (1, 1, 0, 2) (0, 1, 1, 2),
  .re (1, 1, 1, 0) (0, 1, 1, 1), .re (1, 1, 2, 0) (0, 1, 1, 2), .re (1, 1, 2, 1) (1, 1, 1, 2),
  .re (1, 2, 0, 0) (0, 0, 1, 2), .re (1, 2, 0, 1) (0, 1, 1, 2), .re (1, 2, 0, 2) (0, 2, 1, 2),
  .re (1, 2, 1, 0) (0, 1, 2, 1), .re (1, 2, 1, 1) (1, 1, 1, 2), .re (1, 2, 2, 0) (0, 1, 2, 2),
  .re (1, 2, 2, 1) (1, 1, 2, 2), .re (2, 0, 0, 0) (0, 0, 0, 2), .re (2, 0, 0, 1) (0, 0, 1, 2),
  .re (2, 0, 0, 2) (0, 0, 2, 2), .re (2, 0, 1, 0) (0, 1, 0, 2), .re (2, 0, 1, 1) (0, 1, 1, 2),
  .re (2, 0, 1, 2) (0, 1, 2, 2), .re (2, 0, 2, 0) (0, 2, 0, 2), .re (2, 0, 2, 1) (0, 2, 1, 2),
  .re (2, 0, 2, 2) (0, 2, 2, 2), .re (2, 1, 0, 0) (0, 0, 1, 2), .re (2, 1, 0, 1) (0, 1, 2, 1),
  .re (2, 1, 0, 2) (0, 1, 2, 2), .re (2, 1, 1, 0) (0, 1, 1, 2), .re (2, 1, 1, 1) (1, 1, 1, 2),
  .re (2, 1, 1, 2) (1, 1, 2, 2), .re (2, 1, 2, 0) (0, 2, 1, 2), .re (2, 1, 2, 1) (1, 2, 1, 2),
  .re (2, 1, 2, 2) (1, 2, 2, 2), .re (2, 2, 0, 0) (0, 0, 2, 2), .re (2, 2, 0, 1) (0, 1, 2, 2),
  .re (2, 2, 0, 2) (0, 2, 2, 2), .re (2, 2, 1, 0) (0, 1, 2, 2), .re (2, 2, 1, 1) (1, 1, 2, 2),
  .re (2, 2, 1, 2) (1, 2, 2, 2), .re (2, 2, 2, 0) (0, 2, 2, 2), .re (2, 2, 2, 1) (1, 2, 2, 2),
  .imZero (0, 0, 0, 0), .imNeg (0, 0, 1, 0) (0, 0, 0, 1), .imZero (0, 0, 1, 1),
  .imNeg (0, 0, 2, 0) (0, 0, 0, 2), .imNeg (0, 0, 2, 1) (0, 0, 1, 2), .imZero (0, 0, 2, 2),
  .im (0, 1, 0, 0) (0, 0, 0, 1), .imZero (0, 1, 1, 0), .imNeg (0, 1, 2, 0) (0, 0, 1, 2),
  .im (0, 2, 0, 0) (0, 0, 0, 2), .im (0, 2, 0, 1) (0, 1, 0, 2), .im (0, 2, 1, 0) (0, 0, 1, 2),
  .im (0, 2, 1, 1) (0, 1, 1, 2), .imZero (0, 2, 2, 0), .im (0, 2, 2, 1) (0, 1, 2, 2),
  .imNeg (1, 0, 0, 0) (0, 0, 0, 1), .imZero (1, 0, 0, 1), .im (1, 0, 0, 2) (0, 0, 1, 2),
  .imNeg (1, 0, 1, 0) (0, 1, 0, 1), .imNeg (1, 0, 1, 1) (0, 1, 1, 1), .imNeg (1, 0, 1, 2) (0, 1, 2, 1),
  .imNeg (1, 0, 2, 0) (0, 1, 0, 2), .imNeg (1, 0, 2, 1) (0, 1, 1, 2), .imNeg (1, 0, 2, 2) (0, 1, 2, 2),
  .imZero (1, 1, 0, 0), .im (1, 1, 0, 1) (0, 1, 1, 1), .im (1, 1, 0, 2) (0, 1, 1, 2),
  .imNeg (1, 1, 1, 0) (0, 1, 1, 1), .imZero (1, 1, 1, 1), .imNeg (1, 1, 2, 0) (0, 1, 1, 2),
  .imNeg (1, 1, 2, 1) (1, 1, 1, 2), .imZero (1, 1, 2, 2), .im (1, 2, 0, 0) (0, 0, 1, 2),
  .im (1, 2, 0, 1) (0, 1, 1, 2), .im (1, 2, 0, 2) (0, 2, 1, 2), .imNeg (1, 2, 1, 0) (0, 1, 2, 1),
  .im (1, 2, 1, 1) (1, 1, 1, 2), .imNeg (1, 2, 2, 0) (0, 1, 2, 2), .imZero (1, 2, 2, 1),
  .imNeg (2, 0, 0, 0) (0, 0, 0, 2), .imNeg (2, 0, 0, 1) (0, 0, 1, 2), .imZero (2, 0, 0, 2),
  .imNeg (2, 0, 1, 0) (0, 1, 0, 2), .imNeg (2, 0, 1, 1) (0, 1, 1, 2), .imNeg (2, 0, 1, 2) (0, 1, 2, 2),
  .imNeg (2, 0, 2, 0) (0, 2, 0, 2), .imNeg (2, 0, 2, 1) (0, 2, 1, 2), .imNeg (2, 0, 2, 2) (0, 2, 2, 2),
  .imNeg (2, 1, 0, 0) (0, 0, 1, 2), .im (2, 1, 0, 1) (0, 1, 2, 1), .im (2, 1, 0, 2) (0, 1, 2, 2),
  .imNeg (2, 1, 1, 0) (0, 1, 1, 2), .imNeg (2, 1, 1, 1) (1, 1, 1, 2), .imZero (2, 1, 1, 2),
  .imNeg (2, 1, 2, 0) (0, 2, 1, 2), .imNeg (2, 1, 2, 1) (1, 2, 1, 2), .imNeg (2, 1, 2, 2) (1, 2, 2, 2),
  .imZero (2, 2, 0, 0), .im (2, 2, 0, 1) (0, 1, 2, 2), .im (2, 2, 0, 2) (0, 2, 2, 2),
  .imNeg (2, 2, 1, 0) (0, 1, 2, 2), .imZero (2, 2, 1, 1), .im (2, 2, 1, 2) (1, 2, 2, 2),
  .imNeg (2, 2, 2, 0) (0, 2, 2, 2), .imNeg (2, 2, 2, 1) (1, 2, 2, 2), .imZero (2, 2, 2, 2)]

/-- smeftutil.py:479-508, the assignments of `symmetrize_7` in order. -/
def prog7 : List (Asg Ix4) := [
  .copy (1, 0, 0, 0) (0, 1, 0, 0), .copy (1, 0, 0, 1) (0, 1, 0, 1), .copy (1, 0, 0, 2) (0, 1, 0, 2),
  .copy (1, 0, 1, 0) (0, 1, 1, 0), .copy (1, 0, 1, 1) (0, 1, 1, 1), .copy (1, 0, 1, 2) (0, 1, 1, 2),
  .copy (1, 0, 2, 0) (0, 1, 2, 0), .copy (1, 0, 2, 1) (0, 1, 2, 1), .copy (1, 0, 2, 2) (0, 1, 2, 2),
  .copy (2, 0, 0, 0) (0, 2, 0, 0), .copy (2, 0, 0, 1) (0, 2, 0, 1), .copy (2, 0, 0, 2) (0, 2, 0, 2),
  .copy (2, 0, 1, 0) (0, 2, 1, 0), .copy (2, 0, 1, 1) (0, 2, 1, 1), .copy (2, 0, 1, 2) (0, 2, 1, 2),
  .copy (2, 0, 2, 0) (0, 2, 2, 0), .copy (2, 0, 2, 1) (0, 2, 2, 1), .copy (2, 0, 2, 2) (0, 2, 2, 2),
  .copy (2, 1, 0, 0) (1, 2, 0, 0), .copy (2, 1, 0, 1) (1, 2, 0, 1), .copy (2, 1, 0, 2) (1, 2, 0, 2),
  .copy (2, 1, 1, 0) (1, 2, 1, 0), .copy (2, 1, 1, 1) (1, 2, 1, 1), .copy (2, 1, 1, 2) (1, 2, 1, 2),
  .copy (2, 1, 2, 0) (1, 2, 2, 0), .copy (2, 1, 2, 1) (1, 2, 2, 1), .copy (2, 1, 2, 2) (1, 2, 2, 2)]

/-- smeftutil.py:511-537, the assignments of `symmetrize_8` in order. -/
def prog8 : List (Asg Ix4) := [
  .copy (1, 0, 0, 0) (0, 0, 1, 0), .copy (1, 0, 0, 1) (0, 0, 1, 1), .copy (1, 0, 0, 2) (0, 0, 1, 2),
  .copy (1, 1, 0, 0) (0, 1, 1, 0), .copy (1, 1, 0, 1) (0, 1, 1, 1), .copy (1, 1, 0, 2) (0, 1, 1, 2),
  .copy (2, 0, 0, 0) (0, 0, 2, 0), .copy (2, 0, 0, 1) (0, 0, 2, 1), .copy (2, 0, 0, 2) (0, 0, 2, 2),
  .lin (2, 0, 1, 0) (1, 2, 0, 0) (1, 0, 2, 0) (0, 2, 1, 0), .lin (2, 0, 1, 1) (1, 2, 0, 1) (1, 0, 2, 1) (0, 2, 1, 1), .lin (2, 0, 1, 2) (1, 2, 0, 2) (1, 0, 2, 2) (0, 2, 1, 2),
  .lin (2, 1, 0, 0) (0, 2, 1, 0) (0, 1, 2, 0) (1, 2, 0, 0), .lin (2, 1, 0, 1) (0, 2, 1, 1) (0, 1, 2, 1) (1, 2, 0, 1), .lin (2, 1, 0, 2) (0, 2, 1, 2) (0, 1, 2, 2) (1, 2, 0, 2),
  .copy (2, 1, 1, 0) (1, 1, 2, 0), .copy (2, 1, 1, 1) (1, 1, 2, 1), .copy (2, 1, 1, 2) (1, 1, 2, 2),
  .copy (2, 2, 0, 0) (0, 2, 2, 0), .copy (2, 2, 0, 1) (0, 2, 2, 1), .copy (2, 2, 0, 2) (0, 2, 2, 2),
  .copy (2, 2, 1, 0) (1, 2, 2, 0), .copy (2, 2, 1, 1) (1, 2, 2, 1), .copy (2, 2, 1, 2) (1, 2, 2, 2)]

/-- smeftutil.py:540-545, the assignments of `symmetrize_9` in order. -/
def prog9 : List (Asg Ix2) := [
  .copy (1, 0) (0, 1), .copy (2, 0) (0, 2), .copy (2, 1) (1, 2)]

/-- smeftutil.py:130-138. -/
def symmetrize2 (b : Ix2 → ℂ) : Ix2 → ℂ := execProg prog2 b
/-- smeftutil.py:140-259. -/
def symmetrize4 (b : Ix4 → ℂ) : Ix4 → ℂ := execProg prog4 b
/-- smeftutil.py:262-345. -/
def symmetrize5 (b : Ix4 → ℂ) : Ix4 → ℂ := execProg prog5 b
/-- smeftutil.py:348-476. -/
def symmetrize6 (b : Ix4 → ℂ) : Ix4 → ℂ := execProg prog6 b
/-- smeftutil.py:479-508. -/
def symmetrize7 (b : Ix4 → ℂ) : Ix4 → ℂ := execProg prog7 b
/-- smeftutil.py:511-537. -/
def symmetrize8 (b : Ix4 → ℂ) : Ix4 → ℂ := execProg prog8 b
/-- smeftutil.py:540-545. -/
def symmetrize9 (b : Ix2 → ℂ) : Ix2 → ℂ := execProg prog9 b

end Verif
