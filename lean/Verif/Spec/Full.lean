import Verif.Spec.MatchLag

/-!
When a set of coefficients fixes tensors: the listed values must not contradict the relations between the entries.
-/

set_option autoImplicit false

namespace Verif.Spec

/-- Listed coefficients that are tied by Hermiticity or exchange of the bilinears have the tied values. -/
def JmsConsistent (L : List String) (C : Dict String ℂ) : Prop :=
  ∀ k c i j, Tied k c i j → label k i ∈ L → label k j ∈ L →
    Dict.getD C (label k j) 0 = if c then starRingEnd ℂ (Dict.getD C (label k i) 0) else Dict.getD C (label k i) 0

/-- Of the entries that are tied to each other, at most one is listed. -/
def NoRepeats (L : List String) : Prop := ∀ k c i j, Tied k c i j → label k i ∈ L → label k j ∈ L → j = i

/-- Name of an independent coefficient of the Warsaw basis that Hermiticity makes real. -/
def RealName (key : String) : Prop := ∃ k op i, IsEntry key k op i ∧ Indep op i ∧ IsReal op i

/-- No field of the operator is a quark doublet. -/
def NoDoublet : Op → Prop
  | .boson => True
  | .two x y => x.fld ≠ .q ∧ y.fld ≠ .q
  | .four x y z w => x.fld ≠ .q ∧ y.fld ≠ .q ∧ z.fld ≠ .q ∧ w.fld ≠ .q

end Verif.Spec
