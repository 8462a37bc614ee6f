import Verif.Model.Classes

/-! Histories on one Wilson coefficient object. -/

set_option autoImplicit false

namespace Verif

/-- What a user can do with the public part of a `WC` object: read `dict` (classes.py:367-373), assign
the attribute `values`, or assign one entry of it (`wc.values[k] = v`; on data that are not a mapping
this raises and changes nothing). -/
inductive WOp where
  | read
  | setValues (j : JVal)
  | setItem (k : String) (v : JVal)

/-- Effect of one operation on the object. -/
noncomputable def WOp.exec (fl : String → Option ℝ) (w : WC) : WOp → WC
  | .read => (w.readDict fl).2
  | .setValues j => { w with values := j }
  | .setItem k v => match w.values with
    | .obj d => { w with values := .obj (Dict.put d k v) }
    | _ => w

/-- Run a history. -/
noncomputable def wrun (fl : String → Option ℝ) (w : WC) (ops : List WOp) : WC := ops.foldl (WOp.exec fl) w

end Verif
