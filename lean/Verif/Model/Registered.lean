import Verif.Model.FlavorKit
import Verif.Model.Match

/-!
The functions registered by translators/__init__.py and matchers/__init__.py, as functions of the default parameters
(parameters.py `p`). Each entry is the key under which the function is registered, and the function.
-/

set_option autoImplicit false

namespace Verif

/-- What the registered functions use from outside: `ckmutil`, the running functions and the listings
`wcxf.Basis[eft, basis].all_wcs`. -/
structure REnv where
  ckm : ℝ → ℝ → ℝ → ℝ → M3
  msvd : M3 → Fin 3 → ℝ
  rd : RunDec
  all : String → String → List String

/-- What translators/wet.py uses. -/
def REnv.wet (E : REnv) (default : Par) : WEnv :=
  ⟨E.ckm, E.rd, default, E.all "WET" "JMS", E.all "WET" "Bern", E.all "WET" "flavio"⟩

/-- translators/__init__.py:101-104 `FlavorKit_to_flavio`. -/
noncomputable def fkToFlavio (E : WEnv) (C : Dict String ℂ) (scale : ℝ) (par : Option Par) :
    Except PyErr (Dict String ℂ) := do
  let CJ ← fkToJms E C scale par
  jmsToFlavio E CJ scale par

/-- translators/__init__.py:6-104. -/
noncomputable def translators (E : REnv) : List (List String × (Par → Fn)) := [
  (["SMEFT", "Warsaw", "Warsaw mass"], fun p => registeredSmeft (warsawToWarsawmass E.ckm E.msvd p)),
  (["SMEFT", "Warsaw", "Warsaw up"], fun p => registeredSmeft (warsawToWarsawUp E.ckm (E.all "SMEFT" "Warsaw up") p)),
  (["SMEFT", "Warsaw up", "Warsaw"], fun p => registeredSmeft (warsawUpToWarsaw E.ckm (E.all "SMEFT" "Warsaw") p)),
  (["WET", "JMS", "flavio"], fun p => jmsToFlavio (E.wet p)),
  (["WET-4", "JMS", "flavio"], fun p => jmsToFlavio (E.wet p)),
  (["WET-3", "JMS", "flavio"], fun p => jmsToFlavio (E.wet p)),
  (["WET", "Bern", "flavio"], fun p => bernToFlavio (E.wet p)),
  (["WET", "flavio", "Bern"], fun p => flavioToBern (E.wet p)),
  (["WET-4", "Bern", "flavio"], fun p => bernToFlavio (E.wet p)),
  (["WET-4", "flavio", "Bern"], fun p => flavioToBern (E.wet p)),
  (["WET-3", "Bern", "flavio"], fun p => bernToFlavio (E.wet p)),
  (["WET-3", "flavio", "Bern"], fun p => flavioToBern (E.wet p)),
  (["WET", "JMS", "EOS"], fun p => jmsToEos (E.wet p)),
  (["WET", "JMS", "Bern"], fun p => jmsToBern (E.wet p)),
  (["WET-4", "JMS", "Bern"], fun p => jmsToBern (E.wet p)),
  (["WET-3", "JMS", "Bern"], fun p => jmsToBern (E.wet p)),
  (["WET", "JMS", "formflavor"], fun p => jmsToFormFlavor (E.wet p)),
  (["WET", "FlavorKit", "JMS"], fun p => fkToJms (E.wet p)),
  (["WET", "JMS", "FlavorKit"], fun p => jmsToFk (E.wet p)),
  (["WET", "FlavorKit", "flavio"], fun p => fkToFlavio (E.wet p))]

/-- matchers/__init__.py:5-76. -/
noncomputable def matchers (E : REnv) : List (List String × (Par → Fn)) := [
  (["SMEFT", "Warsaw up", "WET", "JMS"], fun p => warsawUpToJms E.ckm (E.all "WET" "JMS") p),
  (["SMEFT", "Warsaw", "WET", "JMS"], fun p => warsawToJms E.ckm (E.all "SMEFT" "Warsaw up") (E.all "WET" "JMS") p),
  (["SMEFT", "Warsaw", "WET", "flavio"],
    fun p => warsawToVia (jmsToFlavio (E.wet p)) E.ckm (E.all "SMEFT" "Warsaw up") (E.all "WET" "JMS") p),
  (["SMEFT", "Warsaw", "WET", "EOS"],
    fun p => warsawToVia (jmsToEos (E.wet p)) E.ckm (E.all "SMEFT" "Warsaw up") (E.all "WET" "JMS") p),
  (["SMEFT", "Warsaw", "WET", "Bern"],
    fun p => warsawToVia (jmsToBern (E.wet p)) E.ckm (E.all "SMEFT" "Warsaw up") (E.all "WET" "JMS") p),
  (["WET", "flavio", "WET-4", "flavio"], fun _ => restrictTo (E.all "WET-4" "flavio")),
  (["WET-4", "flavio", "WET-3", "flavio"], fun _ => restrictTo (E.all "WET-3" "flavio")),
  (["WET", "Bern", "WET-4", "Bern"], fun _ => restrictTo (E.all "WET-4" "Bern")),
  (["WET-4", "Bern", "WET-3", "Bern"], fun _ => restrictTo (E.all "WET-3" "Bern")),
  (["WET", "JMS", "WET-4", "JMS"], fun _ => restrictTo (E.all "WET-4" "JMS")),
  (["WET-4", "JMS", "WET-3", "JMS"], fun _ => restrictTo (E.all "WET-3" "JMS")),
  (["WET-3", "JMS", "WET-2", "JMS"], fun _ => restrictTo (E.all "WET-2" "JMS"))]

end Verif
