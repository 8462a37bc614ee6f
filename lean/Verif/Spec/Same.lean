import Verif.Model.Value

/-!
Equality of file data up to the order of keys (YAML output sorts the keys of plain mappings).
-/

set_option autoImplicit false

namespace Verif.Spec

/-- Same data up to the order of keys in mappings. -/
inductive Same : JVal → JVal → Prop
  | null : Same .null .null
  | bool (b : Bool) : Same (.bool b) (.bool b)
  | num (x : ℝ) : Same (.num x) (.num x)
  | str (s : String) : Same (.str s) (.str s)
  | list {l l' : List JVal} (hlen : l.length = l'.length)
      (h : ∀ (i : Nat) (v v' : JVal), l[i]? = some v → l'[i]? = some v' → Same v v') :
      Same (.list l) (.list l')
  | obj {d d' : List (String × JVal)} (hkeys : (Dict.keys d).Perm (Dict.keys d'))
      (h : ∀ (k : String) (v v' : JVal), Dict.find d k = some v → Dict.find d' k = some v' → Same v v') :
      Same (.obj d) (.obj d')

end Verif.Spec
