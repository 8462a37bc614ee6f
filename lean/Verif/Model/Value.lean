import Verif.Py.Dict
import Mathlib.Data.Complex.Basic

/-!
File data: the values that `json.load` / `yaml.load` can return, and Python's `float(...)` on them.
-/

set_option autoImplicit false

namespace Verif

/-- Data read from a JSON or YAML file. Numbers (`int` and `float` alike) are exact reals. -/
inductive JVal where
  | null
  | bool (b : Bool)
  | num (x : ℝ)
  | str (s : String)
  | list (l : List JVal)
  | obj (d : List (String × JVal))

/-- Python's `float(v)` on file data. `fl` is the (external) string-to-float conversion; strings
occur because PyYAML reads e.g. `1e-3` as a string. -/
noncomputable def pyFloat (fl : String → Option ℝ) : JVal → Except PyErr ℝ
  | .num x => .ok x
  | .bool b => .ok (if b then 1 else 0)
  | .str s => match fl s with
    | some x => .ok x
    | none => .error (.valueError "could not convert string to float")
  | .null => .error .typeError
  | .list _ => .error .typeError
  | .obj _ => .error .typeError

/-- Names produced by `for wc in wcs` (classes.py:247). Iterating a mapping gives its keys, a list its
elements, a string its characters; other data raise `TypeError`. A list element that is not a
string is outside the model (coefficient names are strings). -/
def iterNames : JVal → Except PyErr (List String)
  | .obj d => .ok (Dict.keys d)
  | .list l => l.mapM fun
    | .str s => .ok s
    | _ => .error .unmodelled
  | .str s => .ok (s.toList.map fun c => String.singleton c)
  | .null => .error .typeError
  | .bool _ => .error .typeError
  | .num _ => .error .typeError

/-- `s.items()` (classes.py:259): mappings only, otherwise `AttributeError`. -/
def itemsOf : JVal → Except PyErr (Dict String JVal)
  | .obj d => .ok d
  | _ => .error .attributeError

end Verif
