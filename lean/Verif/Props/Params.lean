import Verif.Lemmas.Params
import Verif.Props.MatchComp

/-! C37: the `parameters` argument. -/

set_option autoImplicit false

namespace Verif

open Spec

/-- The three registered functions that ignore the argument. -/
def ignoring : List (List String) :=
  [["SMEFT", "Warsaw", "Warsaw mass"], ["SMEFT", "Warsaw", "Warsaw up"], ["SMEFT", "Warsaw up", "Warsaw"]]

/-- **C37** for all registered translators but three, and for all registered matchers. -/
theorem C37_honoured_partial (E : REnv) :
    (∀ r ∈ translators E, r.1 ∉ ignoring → Honours r.2) ∧ ∀ r ∈ matchers E, Honours r.2 := by
  constructor
  · unfold translators
    simp only [List.forall_mem_cons]
    refine ⟨fun h => absurd (by decide) h, fun h => absurd (by decide) h, fun h => absurd (by decide) h,
      ?_, ?_, ?_, ?_, ?_, ?_, ?_, ?_, ?_, ?_, ?_, ?_, ?_, ?_, ?_, ?_, ?_, by simp⟩ <;>
    · intro _ default default' par C scale hp h
      have := same_of_overrides hp h
      beta_reduce
      first
        | with_reducible exact this.jmsToFlavio E C scale
        | with_reducible exact this.bernToFlavio E C scale
        | with_reducible exact this.flavioToBern E C scale
        | with_reducible exact this.jmsToEos E C scale
        | with_reducible exact this.jmsToBern E C scale
        | with_reducible exact this.jmsToFormFlavor E C scale
        | with_reducible exact this.fkToJms E C scale
        | with_reducible exact this.jmsToFk E C scale
        | with_reducible exact this.fkToFlavio E C scale
  · unfold matchers
    simp only [List.forall_mem_cons]
    refine ⟨?_, ?_, ?_, ?_, ?_, ?_, ?_, ?_, ?_, ?_, ?_, ?_, by simp⟩ <;>
    · intro default default' par C scale hp h
      have := same_of_overrides hp h
      beta_reduce
      first
        | with_reducible exact this.warsawToJms _ _ _ _ _
        | with_reducible exact this.warsawToVia (fun C => this.jmsToFlavio E C scale) _ _ _ _
        | with_reducible exact this.warsawToVia (fun C => this.jmsToEos E C scale) _ _ _ _
        | with_reducible exact this.warsawToVia (fun C => this.jmsToBern E C scale) _ _ _ _
        | exact this.matchAll _ _ _
        | rfl

/-- **C37**: the functions of translators/smeft.py themselves honour the argument, which the registered ones do not
pass on. -/
theorem C37_direct_partial (ckm : ℝ → ℝ → ℝ → ℝ → M3) (msvd : M3 → Fin 3 → ℝ) (L : List String) :
    Honours (fun p C _ par => warsawToWarsawmass ckm msvd p C par) ∧
    Honours (fun p C _ par => warsawToWarsawUp ckm L p C par) ∧
    Honours (fun p C _ par => warsawUpToWarsaw ckm L p C par) := by
  refine ⟨?_, ?_, ?_⟩ <;>
  · intro default default' par C scale hp h
    have := same_of_overrides hp h
    first
      | exact this.warsawToWarsawmass _ _ _
      | exact this.rotateWarsaw _ _ _ _

/-- **C37** is false for the registered translators within the SMEFT. They ignore the argument, and this changes the
result: with the argument `Vus = 0` the gluon dipole is still rotated. -/
theorem C37_refuted :
    (∀ E, ∀ r ∈ translators E, r.1 ∈ ignoring → Ignores r.2) ∧
    ∃ (E : REnv) (r : List String × (Par → Fn)) (par default' : Par) (d d' : Dict String ℂ),
      r ∈ translators E ∧ r.1 = ["SMEFT", "Warsaw", "Warsaw up"] ∧ Dict.WF par ∧
      (∀ k, Dict.find default' k = overrides par defaultPar k) ∧
      r.2 defaultPar exDip 91 (some par) = .ok d ∧ r.2 default' exDip 91 none = .ok d' ∧
      Dict.getD d "dG_11" 0 = 1 / 3 ∧ Dict.getD d' "dG_11" 0 = 1 := by
  have hl : "dG_11" = label "dG" [0, 0] := by decide +kernel
  refine ⟨fun E => ?_, ?_⟩
  · unfold translators
    simp only [List.forall_mem_cons]
    refine ⟨fun _ _ _ _ _ _ => rfl, fun _ _ _ _ _ _ => rfl, fun _ _ _ _ _ _ => rfl,
      ?_, ?_, ?_, ?_, ?_, ?_, ?_, ?_, ?_, ?_, ?_, ?_, ?_, ?_, ?_, ?_, ?_, by simp⟩ <;>
    exact fun h => absurd h (by decide)
  · obtain ⟨D1, a1, a2, a3, a4, a5⟩ := exDip_path (some [("Vus", 0)]) vusCkm_zero
    obtain ⟨D2, b1, b2, b3, b4, b5⟩ := exDip_path none vusCkm_default
    have hw : Dict.WF ([("Vus", 0)] : Par) := by simp [Dict.WF, Dict.keys]
    have hf : ∀ k, Dict.find (withPar defaultPar (some [("Vus", 0)])) k = overrides [("Vus", 0)] defaultPar k := by
      intro k
      rw [withPar, Dict.find_upd hw]
      unfold overrides
      cases Dict.find ([("Vus", 0)] : Par) k <;> rfl
    refine ⟨⟨vusCkm, fun _ _ => 0, ⟨fun _ _ _ _ _ => 0, fun _ _ _ _ _ => 0, fun _ _ _ _ _ => 0, fun _ _ _ _ _ => 0,
      fun _ _ _ _ _ _ => 0, fun _ _ _ _ _ _ => 0⟩, fun _ _ => allFlat⟩, _, [("Vus", 0)],
      withPar defaultPar (some [("Vus", 0)]), D2, D1, List.mem_cons_of_mem _ (List.mem_cons_self ..), rfl, hw, hf, b1, a1, ?_, ?_⟩
    · rw [hl]
      refine b5.trans ?_
      simp [exV]
    · rw [hl]
      refine a5.trans ?_
      simp

/-- C37 for matching: the same set of coefficients with the argument `Vus = 0` and with changed defaults. -/
example : ∃ d, warsawToJms vusCkm allFlat dipL defaultPar exDip 91 (some [("Vus", 0)]) = .ok d ∧
    warsawToJms vusCkm allFlat dipL (withPar defaultPar (some [("Vus", 0)])) exDip 91 none = .ok d ∧
    Dict.getD d "dG_11" 0 ≠ 0 := by
  obtain ⟨D1, a1, a2, a3, a4, a5⟩ := exDip_path (some [("Vus", 0)]) vusCkm_zero
  obtain ⟨r1, v1, h1, h2, h3, h4⟩ := exDip_match vusCkm D1 a2 a3 a4 (some [("Vus", 0)]) zero_physical ⟨_, vusCkm_zero⟩
  have hl : "dG_11" = label "dG" [0, 0] := by decide +kernel
  have hr : warsawToJms vusCkm allFlat dipL defaultPar exDip 91 (some [("Vus", 0)]) = .ok r1 := by
    rw [warsawToJms, a1, ok_bind, h1]
  refine ⟨r1, hr, ?_, ?_⟩
  · rw [← hr]
    exact (SameP.warsawToJms (fun _ => rfl) _ _ _ _ _)
  · rw [hl, h4, a5]
    refine mul_ne_zero h2 ?_
    simp

end Verif
