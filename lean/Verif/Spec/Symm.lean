import Mathlib.Data.Complex.Basic
import Mathlib.Algebra.Star.Basic

/-!
The symmetry relations of the flavour tensors of dimension-six operators, from the field content of the
operators, and the choice of independent entries. No reference to the model.
-/

set_option autoImplicit false

namespace Verif.Spec

open ComplexConjugate

/-- Operator classes with relations among the entries of their coefficient. -/
inductive SymClass where
  /-- Hermitian matrix: one current of a field with itself. -/
  | herm
  /-- symmetric matrix: Majorana mass term. -/
  | symm
  /-- product of two identical currents. -/
  | twoIdentical
  /-- product of two different currents. -/
  | twoDifferent
  /-- two identical singlet currents: in addition the Fierz identity. -/
  | singlet
  /-- two identical quark doublets contracted antisymmetrically in the gauge indices. -/
  | qque
  /-- three quark doublets. -/
  | qqql
  deriving DecidableEq

/-- Relations of a matrix. -/
def Rel2 (c : SymClass) (C : Fin 3 × Fin 3 → ℂ) : Prop :=
  match c with
  | .herm => ∀ p r, C (r, p) = conj (C (p, r))
  | .symm => ∀ p r, C (r, p) = C (p, r)
  | _ => True

/-- Relations of a tensor. -/
def Rel4 (c : SymClass) (C : Fin 3 × Fin 3 × Fin 3 × Fin 3 → ℂ) : Prop :=
  match c with
  | .twoIdentical => ∀ p r s t, C (r, p, t, s) = conj (C (p, r, s, t)) ∧ C (s, t, p, r) = C (p, r, s, t)
  | .twoDifferent => ∀ p r s t, C (r, p, t, s) = conj (C (p, r, s, t))
  | .singlet => ∀ p r s t, C (r, p, t, s) = conj (C (p, r, s, t)) ∧ C (s, t, p, r) = C (p, r, s, t) ∧
      C (p, t, s, r) = C (p, r, s, t)
  | .qque => ∀ p r s t, C (r, p, s, t) = C (p, r, s, t)
  | .qqql => ∀ p r s t, C (p, r, s, t) + C (r, p, s, t) = C (s, p, r, t) + C (s, r, p, t)
  | _ => True

/-- Position of an index tuple in lexicographic order. -/
def num4 (i : Fin 3 × Fin 3 × Fin 3 × Fin 3) : ℕ := 27 * i.1 + 9 * i.2.1 + 3 * i.2.2.1 + i.2.2.2

/-- Independent entries of a matrix: on and above the diagonal. -/
def Indep2 (i : Fin 3 × Fin 3) : Prop := i.1 ≤ i.2

/-- Independent entries of a tensor: the first in lexicographic order among those related to it. For three
quark doublets two entries remain for the index sets {a, a, b} and four for {1, 2, 3}. -/
def Indep4 (c : SymClass) (i : Fin 3 × Fin 3 × Fin 3 × Fin 3) : Prop :=
  let (p, r, s, t) := i
  match c with
  | .twoIdentical => num4 i ≤ num4 (r, p, t, s) ∧ num4 i ≤ num4 (s, t, p, r) ∧ num4 i ≤ num4 (t, s, r, p)
  | .twoDifferent => num4 i ≤ num4 (r, p, t, s)
  | .singlet => num4 i ≤ num4 (r, p, t, s) ∧ num4 i ≤ num4 (s, t, p, r) ∧ num4 i ≤ num4 (t, s, r, p) ∧
      num4 i ≤ num4 (p, t, s, r) ∧ num4 i ≤ num4 (t, p, r, s) ∧ num4 i ≤ num4 (s, r, p, t) ∧ num4 i ≤ num4 (r, s, t, p)
  | .qque => p ≤ r
  | .qqql => if p = r ∨ r = s ∨ p = s then p ≤ s else p ≠ 2
  | _ => True

/-- Independent entries that the relations force to be real. -/
def Real2 (c : SymClass) (i : Fin 3 × Fin 3) : Prop :=
  match c with
  | .herm => i.1 = i.2
  | _ => False

/-- Independent entries that the relations force to be real: related to their own conjugate. -/
def Real4 (c : SymClass) (i : Fin 3 × Fin 3 × Fin 3 × Fin 3) : Prop :=
  let (p, r, s, t) := i
  match c with
  | .twoIdentical => i = (r, p, t, s) ∨ i = (t, s, r, p)
  | .twoDifferent => i = (r, p, t, s)
  | .singlet => i = (r, p, t, s) ∨ i = (t, s, r, p) ∨ i = (t, p, r, s) ∨ i = (r, s, t, p)
  | _ => False

instance (i) : Decidable (Indep2 i) := by unfold Indep2; infer_instance
instance (c i) : Decidable (Real2 c i) := by unfold Real2; cases c <;> infer_instance
instance (c i) : Decidable (Indep4 c i) := by
  obtain ⟨p, r, s, t⟩ := i
  unfold Indep4; cases c <;> dsimp only <;> infer_instance
instance (c i) : Decidable (Real4 c i) := by
  obtain ⟨p, r, s, t⟩ := i
  unfold Real4; cases c <;> dsimp only <;> infer_instance

end Verif.Spec
