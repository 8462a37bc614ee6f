import Verif.Spec.Flat

/-!
The coefficients that a SMEFTsim parameter card must contain, and their SMEFTsim names. No reference to the model.
-/

set_option autoImplicit false

namespace Verif.Spec

/-- Three times the baryon number of a field. -/
def Fld.baryon : Fld → ℤ
  | .q => 1
  | .u => 1
  | .d => 1
  | .l => 0
  | .e => 0

/-- Lepton number of a field. -/
def Fld.lepton : Fld → ℤ
  | .q => 0
  | .u => 0
  | .d => 0
  | .l => 1
  | .e => 1

/-- A barred field carries the opposite charge. -/
def Slot.charge (c : Fld → ℤ) (s : Slot) : ℤ := if s.bar then -c s.fld else c s.fld

/-- The fermions of an operator. -/
def Op.slots : Op → List Slot
  | .boson => []
  | .two x y => [x, y]
  | .four x y z w => [x, y, z, w]

/-- Operators that conserve baryon and lepton number. -/
def Op.Conserving (op : Op) : Prop :=
  (op.slots.map (Slot.charge Fld.baryon)).sum = 0 ∧ (op.slots.map (Slot.charge Fld.lepton)).sum = 0

instance (op : Op) : Decidable op.Conserving := by unfold Op.Conserving; infer_instance

/-- `key` is the independent coefficient `i` of the operator `k`, which conserves baryon and lepton number. -/
def IsCoeff (key k : String) (op : Op) (i : List (Fin 3)) : Prop := IsEntry key k op i ∧ op.Conserving ∧ Indep op i

/-- The relations of an operator hold for the values `C`. -/
def Rel : Op → (List (Fin 3) → ℂ) → Prop
  | .boson, _ => True
  | .two x y, C => ∀ c, cls2 x y = some c → Rel2 c fun i => C [i.1, i.2]
  | .four x y z w, C => ∀ c, cls4 x y z w = some c → Rel4 c fun i => C [i.1, i.2.1, i.2.2.1, i.2.2.2]

/-- Entries that are equal (not only complex conjugate) for all values that satisfy the relations of the operator. -/
def SameEntry (op : Op) (i j : List (Fin 3)) : Prop :=
  i.length = op.rank ∧ j.length = op.rank ∧ ∀ C, Rel op C → C i = C j

/-- Names of the operators in SMEFTsim (arXiv:1709.06492), in lower case: the Higgs field is `H`. All others keep their
Warsaw basis name. -/
def simName (k : String) : String :=
  match k with
  | "phi" => "h" | "phiBox" => "hbox" | "phiD" => "hdd" | "phiG" => "hg" | "phiGtilde" => "hgtil" | "phiW" => "hw"
  | "phiWtilde" => "hwtil" | "phiB" => "hb" | "phiBtilde" => "hbtil" | "phiWB" => "hwb" | "phiWtildeB" => "hwbtil"
  | "G" => "g" | "Gtilde" => "gtil" | "W" => "w" | "Wtilde" => "wtil"
  | "ephi" => "eh" | "uphi" => "uh" | "dphi" => "dh"
  | "eW" => "ew" | "eB" => "eb" | "uG" => "ug" | "uW" => "uw" | "uB" => "ub" | "dG" => "dg" | "dW" => "dw" | "dB" => "db"
  | "phil1" => "hl1" | "phil3" => "hl3" | "phie" => "he" | "phiq1" => "hq1" | "phiq3" => "hq3" | "phiu" => "hu"
  | "phid" => "hd" | "phiud" => "hud"
  | k => k

/-- The flavour indices in a SMEFTsim name: `1112`, or `1x1x1x2` for coefficients in a block of their own. -/
def simIndices (sep : Bool) : List (Fin 3) → List Char
  | [] => []
  | [i] => [flavourDigit i]
  | i :: is => flavourDigit i :: (if sep then ['x'] else []) ++ simIndices sep is

/-- The SMEFTsim parameter for the magnitude (`abs`) or the phase (`ph`) of entry `i` of the operator `k`, or the parameter of an
operator without flavour, in lower case. -/
def simParam (k : String) (part : String) (sep : Bool) (i : List (Fin 3)) : List Char :=
  'c' :: (simName k).toList ++ part.toList ++ simIndices sep i

/-- The parameters of entry `i` of an operator: one without flavour, otherwise a magnitude and, unless the entry is real, a
phase. -/
def CardPart (op : Op) (i : List (Fin 3)) (part : String) : Prop :=
  (op = .boson ∧ part = "") ∨ (op ≠ .boson ∧ part = "abs") ∨ (op ≠ .boson ∧ part = "ph" ∧ ¬ IsReal op i)

end Verif.Spec
