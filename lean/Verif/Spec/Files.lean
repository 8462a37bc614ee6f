import Verif.Model.IO
import Verif.Spec.Same

/-!
Specification of written documents and of faithful JSON/YAML libraries.
-/

set_option autoImplicit false

namespace Verif.Spec

/-- The attribute name starts with an underscore. -/
def Private (k : String) : Prop := ∃ t, k.toList = '_' :: t

/-- Text `t` reads as `j`: as JSON if it is JSON, else as YAML. -/
def ReadsAs (cd : Codec) (t : String) (j : JVal) : Prop :=
  cd.parseJson t = some j ∨ cd.parseJson t = none ∧ cd.parseYaml t = some j

/-- The two supported format names, in any letter case. -/
def IsJson (fmt : String) : Prop := fmt.toList.map Char.toLower = "json".toList
def IsYaml (fmt : String) : Prop := fmt.toList.map Char.toLower = "yaml".toList

/-- The libraries keep this document: what is written in format `fmt` reads as the same data. (Asked
only for the document at hand: a library of finite texts cannot keep every real number.) -/
def Faithful (cd : Codec) (fmt : String) (doc : JVal) : Prop :=
  (IsJson fmt → ∃ j, Same doc j ∧ ReadsAs cd (cd.printJson doc) j) ∧
  (IsYaml fmt → ∃ j, Same doc j ∧ ReadsAs cd (cd.printYaml doc) j)

end Verif.Spec
