import Verif.Model.Registered

/-! What it means to honour the `parameters` argument. -/

set_option autoImplicit false

namespace Verif

namespace Spec

/-- A parameter is taken from the argument if present there and from the defaults otherwise. -/
def overrides (par default : Par) (k : String) : Option ℝ := match Dict.find par k with
  | some v => some v
  | none => Dict.find default k

/-- A function, given as a function of the default parameters, honours its argument: the result for an argument is the
result without argument in a package whose defaults are the overridden ones. -/
def Honours (F : Par → Fn) : Prop := ∀ (default default' par : Par) (C : Dict String ℂ) (scale : ℝ), Dict.WF par →
  (∀ k, Dict.find default' k = overrides par default k) → F default C scale (some par) = F default' C scale none

/-- The function ignores its argument. -/
def Ignores (F : Par → Fn) : Prop := ∀ (default : Par) (par par' : Option Par) (C : Dict String ℂ) (scale : ℝ),
  F default C scale par = F default C scale par'

end Spec

end Verif
