import Verif.Spec.Smeft

/-!
Flat coefficient names: the name of an operator, followed for operators with flavour indices by an underscore and
the indices counted from 1. No reference to the model.
-/

set_option autoImplicit false

namespace Verif.Spec

/-- Flavour 1, 2, 3. -/
def flavourDigit (i : Fin 3) : Char := if i = 0 then '1' else if i = 1 then '2' else '3'

/-- The flat name, e.g. `label "ll" [0, 0, 1, 1] = "ll_1122"`. -/
def label (k : String) : List (Fin 3) → String
  | [] => k
  | i :: is => String.ofList (k.toList ++ '_' :: (i :: is).map flavourDigit)

/-- Number of flavour indices. -/
def Op.rank : Op → ℕ
  | .boson => 0
  | .two _ _ => 2
  | .four _ _ _ _ => 4

/-- `key` is the flat name of entry `i` of operator `k`. -/
def IsEntry (key k : String) (op : Op) (i : List (Fin 3)) : Prop := IsOp k op ∧ i.length = op.rank ∧ key = label k i

/-- A flat name of some operator. -/
def IsFlat (key : String) : Prop := ∃ k op i, IsEntry key k op i

/-- Independent entries of an operator: all of them if no relations hold. -/
def Indep : Op → List (Fin 3) → Prop
  | .boson, [] => True
  | .two x y, [p, r] => ∀ c, cls2 x y = some c → Indep2 (p, r)
  | .four x y z w, [p, r, s, t] => ∀ c, cls4 x y z w = some c → Indep4 c (p, r, s, t)
  | _, _ => False

/-- Entries that Hermiticity makes real. -/
def IsReal : Op → List (Fin 3) → Prop
  | .boson, [] => True
  | .two x y, [p, r] => ∃ c, cls2 x y = some c ∧ Real2 c (p, r)
  | .four x y z w, [p, r, s, t] => ∃ c, cls4 x y z w = some c ∧ Real4 c (p, r, s, t)
  | _, _ => False

end Verif.Spec
