import Verif.Model.Value
import Mathlib.Data.Complex.Basic

/-! Specification of EOS parameter names, independent of the scanning code. -/

set_option autoImplicit false

namespace Verif.Spec

/-- `s` becomes `s'` when every group `TAG{body}` (non-empty body without closing brace) is replaced by
its body, from left to right. -/
inductive Unwraps (tag : List Char) : List Char → List Char → Prop
  | nil : Unwraps tag [] []
  | wrapped (body rest rest' : List Char) : body ≠ [] → '}' ∉ body → Unwraps tag rest rest' →
      Unwraps tag (tag ++ (body ++ '}' :: rest)) (body ++ rest')
  | char (c : Char) (s s' : List Char) :
      (¬ ∃ body rest, body ≠ [] ∧ '}' ∉ body ∧ c :: s = tag ++ (body ++ '}' :: rest)) →
      Unwraps tag s s' → Unwraps tag (c :: s) (c :: s')

/-- `s'` is `s` with every occurrence of `pat` replaced by `new`, from left to right. -/
inductive Replaced (pat new : List Char) : List Char → List Char → Prop
  | nil : Replaced pat new [] []
  | hit (rest rest' : List Char) : Replaced pat new rest rest' → Replaced pat new (pat ++ rest) (new ++ rest')
  | char (c : Char) (s s' : List Char) : (¬ ∃ rest, c :: s = pat ++ rest) →
      Replaced pat new s s' → Replaced pat new (c :: s) (c :: s')

/-- The EOS parameter `key` is the `tag` part (`Re` or `Im`) of the coefficient `name`. -/
def PartOf (tag key name : String) : Prop :=
  (tag.toList ++ ['{']) <:+: key.toList ∧ Unwraps (tag.toList ++ ['{']) key.toList name.toList

/-- `key` has no `TAG{`. -/
def NoPart (tag key : String) : Prop := ¬ (tag.toList ++ ['{']) <:+: key.toList

/-- `name` with every `lnu` replaced by the lepton's letters. -/
def Lepton (new name name' : String) : Prop := Replaced "lnu".toList new.toList name.toList name'.toList

/-- Value of the coefficient `name`, zero if absent. -/
noncomputable def coeff (d : Dict String ℂ) (name : String) : ℂ := (Dict.find d name).getD 0

/-- The new-physics contribution to the parameter `key` taken from the coefficient `name` with `part`
(`Re` or `Im`): the coefficient itself if present, else the common value of the electron and muon
versions (absent counts as zero). -/
inductive Contribution (d : Dict String ℂ) (part : ℂ → ℝ) (name : String) : ℝ → Prop
  | own (z : ℂ) : Dict.find d name = some z → Contribution d part name (part z)
  | universal (ke km : String) : Dict.find d name = none → Lepton "enue" name ke → Lepton "munumu" name km →
      coeff d ke = coeff d km → Contribution d part name (part (coeff d ke))

/-- The new-physics contribution to an EOS parameter. A parameter whose full name is a coefficient gets
its real part. -/
inductive NP (d : Dict String ℂ) (key : String) : ℝ → Prop
  | direct (z : ℂ) : Dict.find d key = some z → NP d key z.re
  | re (name : String) (x : ℝ) : Dict.find d key = none → PartOf "Re" key name →
      Contribution d Complex.re name x → NP d key x
  | im (name : String) (x : ℝ) : Dict.find d key = none → NoPart "Re" key → PartOf "Im" key name →
      Contribution d Complex.im name x → NP d key x
  | none : Dict.find d key = none → NoPart "Re" key → NoPart "Im" key → NP d key 0

/-- The electron and muon versions of the coefficient `name`, itself absent, differ. -/
def NonUniversal (d : Dict String ℂ) (name : String) : Prop :=
  Dict.find d name = none ∧ ∃ ke km, Lepton "enue" name ke ∧ Lepton "munumu" name km ∧ coeff d ke ≠ coeff d km

/-- The central value of an entry of the SM file. -/
def Central (v : JVal) (c : ℝ) : Prop :=
  ∃ m, v = .obj m ∧ (Dict.find m "central" = some (.num c) ∨
    ∃ b : Bool, Dict.find m "central" = some (.bool b) ∧ c = if b then 1 else 0)

/-- Data that count as true in Python. -/
def Truthy (r : JVal) : Prop :=
  r ≠ .null ∧ r ≠ .bool false ∧ r ≠ .num 0 ∧ r ≠ .str "" ∧ r ≠ .list [] ∧ r ≠ .obj []

/-- A file of the EOS parameter directory takes part in the conversion: it is a mapping `d` with a
`@metadata@` mapping whose entry `wcxf-relevant` is true. -/
def Relevant (d : Dict String JVal) : Prop :=
  ∃ m r, Dict.find d "@metadata@" = some (.obj m) ∧ Dict.find m "wcxf-relevant" = some r ∧ Truthy r

/-- The metadata of a file is absent or a mapping. -/
def MetaOk (d : Dict String JVal) : Prop :=
  Dict.find d "@metadata@" = none ∨ ∃ m, Dict.find d "@metadata@" = some (.obj m)

end Verif.Spec
