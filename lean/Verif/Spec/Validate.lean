import Verif.Model.Classes

/-!
Specification of valid bases and coefficient files, in terms of the file data.
-/

set_option autoImplicit false

namespace Verif.Spec

/-- The sectors of a basis as a basis file must have them: every sector is a mapping from names to
either nothing or a mapping whose `tex` (if any) is a string. -/
structure Shape (s : Sectors) (sec : List (String × List (String × Option (Dict String JVal)))) : Prop where
  data : s = sec.map fun p => (p.1, .obj (p.2.map fun q => (q.1, match q.2 with
    | none => .null
    | some d => .obj d)))
  tex : ∀ p ∈ sec, ∀ q ∈ p.2, ∀ d, q.2 = some d → ∀ j, Dict.find d "tex" = some j → ∃ t, j = .str t

/-- All coefficient names, sector by sector. -/
def coeffNames (sec : List (String × List (String × Option (Dict String JVal)))) : List String :=
  sec.flatMap fun p => p.2.map Prod.fst

/-- The LaTeX strings of the coefficients with data, absent = empty. -/
def texStrings (sec : List (String × List (String × Option (Dict String JVal)))) : List String :=
  sec.flatMap fun p => p.2.filterMap fun q => q.2.map fun (d : Dict String JVal) =>
    match Dict.find d "tex" with
    | some (.str t) => t
    | _ => ""

end Verif.Spec
