import Verif.Spec.Params

/-! Functions depend on the parameters only through look-ups. -/

set_option autoImplicit false

namespace Verif

open Spec

/-- Two dictionaries with the same look-ups. -/
def SameP (p q : Par) : Prop := ∀ k, Dict.find p k = Dict.find q k

variable {p q : Par}

theorem SameP.get (h : SameP p q) (k : String) : Dict.get p k = Dict.get q k := by
  unfold Dict.get; rw [h k]

theorem SameP.ckmOf (h : SameP p q) (ckm : ℝ → ℝ → ℝ → ℝ → M3) : ckmOf ckm p = ckmOf ckm q := by
  unfold Verif.ckmOf; simp only [h.get]

theorem SameP.vT (h : SameP p q) (C : Src) : vT C p = vT C q := by
  unfold Verif.vT; rw [h.get]

theorem SameP.eps (h : SameP p q) (C : Src) : eps C p = eps C q := by
  unfold Verif.eps; rw [h.vT]

theorem SameP.g2b (h : SameP p q) (C : Src) : g2b C p = g2b C q := by
  unfold Verif.g2b; rw [h.get, h.vT]

theorem SameP.g1b (h : SameP p q) (C : Src) : g1b C p = g1b C q := by
  unfold Verif.g1b; rw [h.get, h.g2b, h.eps]

theorem SameP.sb (h : SameP p q) (C : Src) : sb C p = sb C q := by
  unfold Verif.sb; rw [h.g1b, h.g2b, h.eps]

theorem SameP.cb (h : SameP p q) (C : Src) : cb C p = cb C q := by
  unfold Verif.cb; rw [h.g1b, h.g2b, h.eps]

theorem SameP.eb (h : SameP p q) (C : Src) : eb C p = eb C q := by
  unfold Verif.eb; rw [h.g2b, h.sb, h.cb, h.vT]

theorem SameP.gzb (h : SameP p q) (C : Src) : gzb C p = gzb C q := by
  unfold Verif.gzb; rw [h.eb, h.sb, h.cb, h.g1b, h.g2b, h.vT]

theorem SameP.ewOf (h : SameP p q) (C : Src) : ewOf C p = ewOf C q := by
  unfold Verif.ewOf; rw [h.vT, h.g2b, h.sb, h.cb, h.gzb, h.get "m_W", h.get "m_Z"]

theorem SameP.matchAllArray (h : SameP p q) (C : Dict String Arr) : matchAllArray C p = matchAllArray C q := by
  unfold Verif.matchAllArray; simp only [h.ewOf]

theorem SameP.rotateDown (h : SameP p q) (ckm : ℝ → ℝ → ℝ → ℝ → M3) (C : Dict String Arr) :
    rotateDown ckm C p = rotateDown ckm C q := by
  unfold Verif.rotateDown; rw [h.ckmOf]

section Functions

variable {default default' : Par} {par par' : Option Par} (h : SameP (withPar default par) (withPar default' par'))
include h

theorem SameP.matchAll (ckm : ℝ → ℝ → ℝ → ℝ → M3) (L : List String) (d : Dict String ℂ) :
    matchAll ckm L default d par = matchAll ckm L default' d par' := by
  unfold Verif.matchAll; simp only [h.matchAllArray, h.rotateDown]

theorem SameP.rotateWarsaw (Uq : M3 → M3) (ckm : ℝ → ℝ → ℝ → ℝ → M3) (L : List String) (d : Dict String ℂ) :
    rotateWarsaw Uq ckm L default d par = rotateWarsaw Uq ckm L default' d par' := by
  unfold Verif.rotateWarsaw; simp only [h.ckmOf]

theorem SameP.warsawToWarsawmass (ckm : ℝ → ℝ → ℝ → ℝ → M3) (msvd : M3 → Fin 3 → ℝ) (d : Dict String ℂ) :
    warsawToWarsawmass ckm msvd default d par = warsawToWarsawmass ckm msvd default' d par' := by
  have : rotateU ckm (withPar default par) d = rotateU ckm (withPar default' par') d := by
    funext out name
    unfold rotateU; rw [h.ckmOf]
  unfold Verif.warsawToWarsawmass; simp only [this]

theorem SameP.getParameters (E : REnv) (scale : ℝ) :
    getParameters (E.wet default) scale par = getParameters (E.wet default') scale par' := by
  have hw : ∀ d, (E.wet d).default = d := fun _ => rfl
  have hr : ∀ d, (E.wet d).rd = E.rd := fun _ => rfl
  unfold Verif.getParameters
  simp only [hw, hr, h.get]

theorem SameP.penv (E : REnv) (scale : ℝ) : penv (E.wet default) scale par = penv (E.wet default') scale par' := by
  unfold Verif.penv; rw [h.getParameters]; rfl

theorem SameP.jmsToFlavio (E : REnv) (C : Dict String ℂ) (s : ℝ) :
    jmsToFlavio (E.wet default) C s par = jmsToFlavio (E.wet default') C s par' := by
  unfold Verif.jmsToFlavio; rw [h.penv]; rfl

theorem SameP.bernToFlavio (E : REnv) (C : Dict String ℂ) (s : ℝ) :
    bernToFlavio (E.wet default) C s par = bernToFlavio (E.wet default') C s par' := by
  unfold Verif.bernToFlavio; rw [h.penv]; rfl

theorem SameP.flavioToBern (E : REnv) (C : Dict String ℂ) (s : ℝ) :
    flavioToBern (E.wet default) C s par = flavioToBern (E.wet default') C s par' := by
  unfold Verif.flavioToBern; rw [h.penv]; rfl

theorem SameP.jmsToEos (E : REnv) (C : Dict String ℂ) (s : ℝ) :
    jmsToEos (E.wet default) C s par = jmsToEos (E.wet default') C s par' := by
  unfold Verif.jmsToEos; rw [h.penv]; rfl

theorem SameP.jmsToBern (E : REnv) (C : Dict String ℂ) (s : ℝ) :
    jmsToBern (E.wet default) C s par = jmsToBern (E.wet default') C s par' := by
  unfold Verif.jmsToBern; rw [h.penv]; rfl

theorem SameP.jmsToFormFlavor (E : REnv) (C : Dict String ℂ) (s : ℝ) :
    jmsToFormFlavor (E.wet default) C s par = jmsToFormFlavor (E.wet default') C s par' := by
  unfold Verif.jmsToFormFlavor; rw [h.penv]; rfl

theorem SameP.fkToJms (E : REnv) (C : Dict String ℂ) (s : ℝ) :
    fkToJms (E.wet default) C s par = fkToJms (E.wet default') C s par' := by
  unfold Verif.fkToJms; rw [h.getParameters]

theorem SameP.jmsToFk (E : REnv) (C : Dict String ℂ) (s : ℝ) :
    jmsToFk (E.wet default) C s par = jmsToFk (E.wet default') C s par' := by
  unfold Verif.jmsToFk; rw [h.getParameters]

theorem SameP.fkToFlavio (E : REnv) (C : Dict String ℂ) (s : ℝ) :
    fkToFlavio (E.wet default) C s par = fkToFlavio (E.wet default') C s par' := by
  unfold Verif.fkToFlavio; simp only [h.fkToJms, h.jmsToFlavio]

theorem SameP.warsawToJms (ckm : ℝ → ℝ → ℝ → ℝ → M3) (up L : List String) (C : Dict String ℂ) (s : ℝ) :
    warsawToJms ckm up L default C s par = warsawToJms ckm up L default' C s par' := by
  unfold Verif.warsawToJms
  simp only [h.matchAll]
  unfold warsawToWarsawUp
  rw [h.rotateWarsaw]

theorem SameP.warsawToVia {f f' : Fn} {s : ℝ} (hf : ∀ C, f C s par = f' C s par') (ckm : ℝ → ℝ → ℝ → ℝ → M3)
    (up L : List String) (C : Dict String ℂ) :
    warsawToVia f ckm up L default C s par = warsawToVia f' ckm up L default' C s par' := by
  unfold Verif.warsawToVia
  simp only [h.matchAll, hf]
  unfold warsawToWarsawUp
  rw [h.rotateWarsaw]

end Functions

theorem same_of_overrides {default default' par : Par} (hp : Dict.WF par)
    (h : ∀ k, Dict.find default' k = overrides par default k) : SameP (withPar default (some par)) (withPar default' none) := by
  intro k
  rw [withPar, withPar, Dict.find_upd hp, h]
  unfold overrides
  cases Dict.find par k <;> rfl

end Verif
