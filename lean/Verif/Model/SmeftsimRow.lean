import Verif.Py.Dict

/-! Rows of the SMEFTsim parameter card (wcxf/converters/smeftsim.py:91-5313). -/

set_option autoImplicit false

namespace Verif

/-- The expressions that occur in the rows, for a coefficient `k` and the cutoff `lambda_smeft_value`. -/
inductive CKind where
  /-- `abs(wc.dict[k]) * lambda_smeft_value**2` -/
  | abs
  /-- `abs(wc.dict[k] * lambda_smeft_value**2)` -/
  | absOf
  /-- `angle(wc.dict[k])` -/
  | ph
  /-- `wc.dict[k] * lambda_smeft_value**2` -/
  | val
  /-- `lambda_smeft_value` -/
  | lam
  deriving DecidableEq, Repr

/-- A row `[address..., format(expression, '.6e'), comment]`. -/
structure CRow where
  addr : List ℕ
  kind : CKind
  key : String
  comment : String
  deriving DecidableEq, Repr

end Verif
