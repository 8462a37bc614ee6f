import Mathlib.Data.Matrix.Basic
import Verif.Spec.Symm

/-!
The dimension-five and dimension-six operators of the SMEFT (Warsaw basis) by field content, the symmetry
class of each coefficient, and its transformation under flavour rotations. No reference to the model.
-/

set_option autoImplicit false

namespace Verif.Spec

/-- Fermion fields. -/
inductive Fld where
  | q | u | d | l | e
  deriving DecidableEq, Repr

/-- A flavour index of a coefficient: the field it belongs to, and whether the field is barred. -/
structure Slot where
  fld : Fld
  bar : Bool
  deriving DecidableEq, Repr

/-- Barred field. -/
def b (f : Fld) : Slot := ⟨f, true⟩
/-- Unbarred field. -/
def n (f : Fld) : Slot := ⟨f, false⟩

/-- Fermion content of an operator. -/
inductive Op where
  | boson
  | two (x y : Slot)
  | four (x y z w : Slot)
  deriving DecidableEq, Repr

/-- Operators by fermion content (tables 2 and 3 of arXiv:1008.4884, and the Weinberg operator). -/
def opTable : List (Op × List String) := [
  (.boson, ["G", "Gtilde", "W", "Wtilde", "phi", "phiBox", "phiD", "phiG", "phiGtilde", "phiW", "phiWtilde",
    "phiB", "phiBtilde", "phiWB", "phiWtildeB"]),
  (.two (b .l) (n .e), ["ephi", "eW", "eB"]),
  (.two (b .q) (n .u), ["uphi", "uG", "uW", "uB"]),
  (.two (b .q) (n .d), ["dphi", "dG", "dW", "dB"]),
  (.two (b .l) (n .l), ["phil1", "phil3"]),
  (.two (b .e) (n .e), ["phie"]),
  (.two (b .q) (n .q), ["phiq1", "phiq3"]),
  (.two (b .u) (n .u), ["phiu"]),
  (.two (b .d) (n .d), ["phid"]),
  (.two (b .u) (n .d), ["phiud"]),
  (.two (n .l) (n .l), ["llphiphi"]),
  (.four (b .l) (n .l) (b .l) (n .l), ["ll"]),
  (.four (b .q) (n .q) (b .q) (n .q), ["qq1", "qq3"]),
  (.four (b .l) (n .l) (b .q) (n .q), ["lq1", "lq3"]),
  (.four (b .e) (n .e) (b .e) (n .e), ["ee"]),
  (.four (b .u) (n .u) (b .u) (n .u), ["uu"]),
  (.four (b .d) (n .d) (b .d) (n .d), ["dd"]),
  (.four (b .e) (n .e) (b .u) (n .u), ["eu"]),
  (.four (b .e) (n .e) (b .d) (n .d), ["ed"]),
  (.four (b .u) (n .u) (b .d) (n .d), ["ud1", "ud8"]),
  (.four (b .l) (n .l) (b .e) (n .e), ["le"]),
  (.four (b .l) (n .l) (b .u) (n .u), ["lu"]),
  (.four (b .l) (n .l) (b .d) (n .d), ["ld"]),
  (.four (b .q) (n .q) (b .e) (n .e), ["qe"]),
  (.four (b .q) (n .q) (b .u) (n .u), ["qu1", "qu8"]),
  (.four (b .q) (n .q) (b .d) (n .d), ["qd1", "qd8"]),
  (.four (b .l) (n .e) (b .d) (n .q), ["ledq"]),
  (.four (b .q) (n .u) (b .q) (n .d), ["quqd1", "quqd8"]),
  (.four (b .l) (n .e) (b .q) (n .u), ["lequ1", "lequ3"]),
  (.four (n .d) (n .u) (n .q) (n .l), ["duql"]),
  (.four (n .q) (n .q) (n .u) (n .e), ["qque"]),
  (.four (n .q) (n .q) (n .q) (n .l), ["qqql"]),
  (.four (n .d) (n .u) (n .u) (n .e), ["duue"])]

/-- `IsOp k op`: the coefficient `k` belongs to an operator with fermion content `op`. -/
def IsOp (k : String) (op : Op) : Prop := ∃ ks, (op, ks) ∈ opTable ∧ k ∈ ks

/-- The symmetry class of a matrix: a current of a field with itself is Hermitian, two unbarred
identical fields give a symmetric matrix. -/
def cls2 (x y : Slot) : Option SymClass :=
  if x.fld = y.fld ∧ x.bar ∧ ¬ y.bar then some .herm
  else if x.fld = y.fld ∧ ¬ x.bar ∧ ¬ y.bar then some .symm
  else none

/-- The symmetry class of a tensor. -/
def cls4 (x y z w : Slot) : Option SymClass :=
  if x.fld = y.fld ∧ z.fld = w.fld ∧ x.bar ∧ ¬ y.bar ∧ z.bar ∧ ¬ w.bar then
    if x.fld = z.fld then (if x.fld = .e then some .singlet else some .twoIdentical) else some .twoDifferent
  else if [x, y, z, w] = [n .q, n .q, n .u, n .e] then some .qque
  else if [x, y, z, w] = [n .q, n .q, n .q, n .l] then some .qqql
  else none

/-- The matrix that acts on a flavour index. -/
def Slot.mat (U : Fld → Matrix (Fin 3) (Fin 3) ℂ) (s : Slot) : Matrix (Fin 3) (Fin 3) ℂ :=
  fun i j => if s.bar then (starRingEnd ℂ) (U s.fld i j) else U s.fld i j

/-- Rotation of both indices of a matrix. -/
def rot2 (A B : Matrix (Fin 3) (Fin 3) ℂ) (C : Fin 3 × Fin 3 → ℂ) (i : Fin 3 × Fin 3) : ℂ :=
  ∑ p, ∑ r, A p i.1 * B r i.2 * C (p, r)

/-- Rotation of the four indices of a tensor. -/
def rot4 (A B C D : Matrix (Fin 3) (Fin 3) ℂ) (T : Fin 3 × Fin 3 × Fin 3 × Fin 3 → ℂ)
    (i : Fin 3 × Fin 3 × Fin 3 × Fin 3) : ℂ :=
  ∑ p, ∑ r, ∑ s, ∑ t, A p i.1 * B r i.2.1 * C s i.2.2.1 * D t i.2.2.2 * T (p, r, s, t)

end Verif.Spec
