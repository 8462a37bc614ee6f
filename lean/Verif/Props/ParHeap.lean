import Verif.Lemmas.ParHeap
import Verif.Props.Params

/-! C38: the default parameters are never modified. -/

set_option autoImplicit false

namespace Verif

open Spec

/-- The code with effects refines the function: same result, no existing dictionary changed. -/
def RefinesH (f : FnH) (F : Par → Fn) : Prop := ∀ (default : Par) (par : Option ℕ) (pc : Option Par) (h : Heap),
  GoodPar default par pc h → ∀ C scale, Ext (f C scale par) h (F default C scale pc)

/-- Steps that a program may do: it changes only dictionaries other than the default parameters, and passes existing
dictionaries. -/
def PStep.Legal (h : Heap) : PStep → Prop
  | .new _ => True
  | .set a _ _ => a ≠ defaultAddr
  | .del a _ => a ≠ defaultAddr
  | .call _ _ _ par => ∀ a, par = some a → a < h.length

/-- All steps of a history are legal. -/
def LegalFrom (E : REnv) : Heap → List PStep → Prop
  | _, [] => True
  | h, s :: l => s.Legal h ∧ LegalFrom E (s.exec E h) l

section Refinement

variable (E : REnv)

theorem wet_refines {body : WPar → Dict String ℂ → Except PyErr (Dict String ℂ)} {F : Par → Fn}
    (hF : ∀ default C scale pc, F default C scale pc = getParameters (E.wet default) scale pc >>= fun P => body P C) :
    RefinesH (wetH E.rd body) F := by
  intro default par pc h hg C scale
  rw [hF]
  exact Ext.wet hg E scale body C

theorem penv_bind {α : Type} (default : Par) (scale : ℝ) (pc : Option Par) (f : PEnv → Except PyErr α) :
    (penv (E.wet default) scale pc >>= f) = getParameters (E.wet default) scale pc >>= fun P => f ⟨E.ckm, P⟩ := by
  unfold penv
  rw [bind_assoc]
  rfl

theorem jmsToFlavio_refines : RefinesH (wetH E.rd (jmsToFlavioB E)) fun p => jmsToFlavio (E.wet p) :=
  wet_refines E fun default _ scale pc => penv_bind E default scale pc _

theorem bernToFlavio_refines : RefinesH (wetH E.rd (bernToFlavioB E)) fun p => bernToFlavio (E.wet p) :=
  wet_refines E fun default _ scale pc => penv_bind E default scale pc _

theorem flavioToBern_refines : RefinesH (wetH E.rd (flavioToBernB E)) fun p => flavioToBern (E.wet p) :=
  wet_refines E fun default _ scale pc => penv_bind E default scale pc _

theorem jmsToEos_refines : RefinesH (wetH E.rd (jmsToEosB E)) fun p => jmsToEos (E.wet p) :=
  wet_refines E fun default _ scale pc => penv_bind E default scale pc _

theorem jmsToBern_refines : RefinesH (wetH E.rd (jmsToBernB E)) fun p => jmsToBern (E.wet p) :=
  wet_refines E fun default _ scale pc => penv_bind E default scale pc _

theorem jmsToFormFlavor_refines : RefinesH (wetH E.rd (jmsToFormFlavorB E)) fun p => jmsToFormFlavor (E.wet p) :=
  wet_refines E fun default _ scale pc => penv_bind E default scale pc _

theorem fkToJms_refines : RefinesH (wetH E.rd fkToJmsB) fun p => fkToJms (E.wet p) :=
  wet_refines E fun _ _ _ _ => rfl

theorem jmsToFk_refines : RefinesH (wetH E.rd jmsToFkB) fun p => jmsToFk (E.wet p) :=
  wet_refines E fun _ _ _ _ => rfl

theorem RefinesH.bind {f g : FnH} {F G : Par → Fn} (hf : RefinesH f F) (hg : RefinesH g G) :
    RefinesH (fun C scale par => f C scale par >>= fun D => g D scale par)
      fun p C scale par => F p C scale par >>= fun D => G p D scale par :=
  fun default par pc h hG C scale => Ext.bind (hf default par pc h hG C scale) fun D t =>
    hg default par pc (h ++ t) (hG.append t) D scale

theorem warsawToJms_refines : RefinesH (fun C _ par => warsawToJmsH E C par)
    fun p => warsawToJms E.ckm (E.all "SMEFT" "Warsaw up") (E.all "WET" "JMS") p :=
  fun _ _ _ _ hG _ _ => Ext.bind (Ext.rotateWarsaw hG _ _ _ _) fun _ t => Ext.matchAll (hG.append t) _ _ _

theorem warsawToVia_refines {f : FnH} {F : Par → Fn} (hf : RefinesH f F) : RefinesH (warsawToViaH f E)
    fun p => warsawToVia (F p) E.ckm (E.all "SMEFT" "Warsaw up") (E.all "WET" "JMS") p := by
  have h := (warsawToJms_refines E).bind hf
  intro default par pc hp hG C scale
  have := h default par pc hp hG C scale
  beta_reduce at this
  unfold warsawToJms at this
  rw [bind_assoc] at this
  exact this

/-- Every registered function with effects refines the registered function of the same name. -/
theorem registered_refines : List.Forall₂ (fun f F => f.1 = F.1 ∧ RefinesH f.2 F.2) (translatorsH E ++ matchersH E)
    (translators E ++ matchers E) := by
  have h0 : ∀ L, RefinesH (restrictToH L) fun _ => restrictTo L := fun L _ _ _ h _ C _ => (NoEff.pure _ h).ext
  refine .cons ⟨rfl, fun _ _ _ _ hG _ _ => Ext.warsawToWarsawmass hG.none _ _ _⟩ ?_
  refine .cons ⟨rfl, fun _ _ _ _ hG _ _ => Ext.rotateWarsaw hG.none _ _ _ _⟩ ?_
  refine .cons ⟨rfl, fun _ _ _ _ hG _ _ => Ext.rotateWarsaw hG.none _ _ _ _⟩ ?_
  refine .cons ⟨rfl, jmsToFlavio_refines E⟩ (.cons ⟨rfl, jmsToFlavio_refines E⟩ (.cons ⟨rfl, jmsToFlavio_refines E⟩ ?_))
  refine .cons ⟨rfl, bernToFlavio_refines E⟩ (.cons ⟨rfl, flavioToBern_refines E⟩ ?_)
  refine .cons ⟨rfl, bernToFlavio_refines E⟩ (.cons ⟨rfl, flavioToBern_refines E⟩ ?_)
  refine .cons ⟨rfl, bernToFlavio_refines E⟩ (.cons ⟨rfl, flavioToBern_refines E⟩ ?_)
  refine .cons ⟨rfl, jmsToEos_refines E⟩ ?_
  refine .cons ⟨rfl, jmsToBern_refines E⟩ (.cons ⟨rfl, jmsToBern_refines E⟩ (.cons ⟨rfl, jmsToBern_refines E⟩ ?_))
  refine .cons ⟨rfl, jmsToFormFlavor_refines E⟩ (.cons ⟨rfl, fkToJms_refines E⟩ (.cons ⟨rfl, jmsToFk_refines E⟩ ?_))
  refine .cons ⟨rfl, (fkToJms_refines E).bind (jmsToFlavio_refines E)⟩ ?_
  refine .cons ⟨rfl, fun _ _ _ _ hG _ _ => Ext.matchAll hG _ _ _⟩ (.cons ⟨rfl, warsawToJms_refines E⟩ ?_)
  refine .cons ⟨rfl, warsawToVia_refines E (jmsToFlavio_refines E)⟩ ?_
  refine .cons ⟨rfl, warsawToVia_refines E (jmsToEos_refines E)⟩ ?_
  refine .cons ⟨rfl, warsawToVia_refines E (jmsToBern_refines E)⟩ ?_
  exact .cons ⟨rfl, h0 _⟩ (.cons ⟨rfl, h0 _⟩ (.cons ⟨rfl, h0 _⟩ (.cons ⟨rfl, h0 _⟩ (.cons ⟨rfl, h0 _⟩ (.cons ⟨rfl, h0 _⟩
    (.cons ⟨rfl, h0 _⟩ .nil))))))

end Refinement

theorem find_refines {l : List (List String × FnH)} {L : List (List String × (Par → Fn))}
    (h : List.Forall₂ (fun f F => f.1 = F.1 ∧ RefinesH f.2 F.2) l L) {name : List String} {f : FnH}
    (hf : Dict.find l name = some f) : ∃ F, Dict.find L name = some F ∧ RefinesH f F := by
  induction h with
  | nil => cases hf
  | @cons a b l L hab _ ih =>
    rw [Dict.find_cons] at hf ⊢
    rw [← hab.1]
    split_ifs at hf ⊢ with e
    · cases hf
      exact ⟨_, rfl, hab.2⟩
    · exact ih hf

theorem good_of {default : Par} {h : Heap} (h0 : h[0]? = some default) {par : Option ℕ} (hp : ∀ a, par = some a → a < h.length) :
    GoodPar default par (par.bind fun a => h[a]?) h := by
  refine ⟨h0, rfl, ?_⟩
  cases par with
  | none => rfl
  | some a =>
    have := hp a rfl
    simp [this]

theorem exec_call (E : REnv) (h : Heap) (name : List String) (C : Dict String ℂ) (scale : ℝ) (par : Option ℕ) :
    (PStep.call name C scale par).exec E h = match Dict.find (translatorsH E ++ matchersH E) name with
      | some f => ((f C scale par).run h).2
      | none => h := rfl

/-- **C38**, one call: no dictionary that exists before a call of a registered function is changed by the call: neither
the default parameters nor the argument. This includes calls that raise an exception. -/
theorem C38_call (E : REnv) (default : Par) (h : Heap) (h0 : h[defaultAddr]? = some default) (name : List String)
    (C : Dict String ℂ) (scale : ℝ) (par : Option ℕ) (hp : ∀ a, par = some a → a < h.length) :
    ∀ a < h.length, ((PStep.call name C scale par).exec E h)[a]? = h[a]? := by
  intro a ha
  rw [exec_call]
  cases hf : Dict.find (translatorsH E ++ matchersH E) name with
  | none => rfl
  | some f =>
    obtain ⟨F, -, hF⟩ := find_refines (registered_refines E) hf
    obtain ⟨t, ht⟩ := hF default par _ h (good_of h0 hp) C scale
    dsimp only
    rw [ht]
    exact List.getElem?_append_left ha

theorem exec_default (E : REnv) {default : Par} {h : Heap} (h0 : h[defaultAddr]? = some default) {s : PStep}
    (hs : s.Legal h) : (s.exec E h)[defaultAddr]? = some default := by
  cases s with
  | new d => exact getElem?_append_of_some h0
  | set a k v =>
    unfold PStep.exec
    dsimp only
    cases h[a]? with
    | none => exact h0
    | some d => exact (List.getElem?_set_ne hs).trans h0
  | del a k =>
    unfold PStep.exec
    dsimp only
    cases h[a]? with
    | none => exact h0
    | some d => exact (List.getElem?_set_ne hs).trans h0
  | call name C scale par =>
    rw [C38_call E default h h0 name C scale par hs _ (List.getElem?_eq_some_iff.1 h0).1]
    exact h0

/-- **C38**: after every history of calls of registered functions, with or without arguments, failing or not, the
default parameters are what they were after import. -/
theorem C38_unchanged (E : REnv) (default : Par) (l : List PStep) (hl : LegalFrom E [default] l) :
    (runSteps E default l)[defaultAddr]? = some default := by
  have : ∀ (l : List PStep) (h : Heap), h[defaultAddr]? = some default → LegalFrom E h l →
      (l.foldl (PStep.exec E) h)[defaultAddr]? = some default := by
    intro l
    induction l with
    | nil => exact fun h h0 _ => h0
    | cons s l ih => exact fun h h0 hl => ih _ (exec_default E h0 hl.1) hl.2
  exact this l _ rfl hl

/-- **C38**: after every history, a call of a registered function gives the result it gives right after import with an
argument of the same contents. -/
theorem C38_answers (E : REnv) (default : Par) (l : List PStep) (hl : LegalFrom E [default] l) (name : List String) (f : FnH)
    (hf : Dict.find (translatorsH E ++ matchersH E) name = some f) (C : Dict String ℂ) (scale : ℝ) (par : Option ℕ)
    (hp : ∀ a, par = some a → a < (runSteps E default l).length) :
    ∃ F, Dict.find (translators E ++ matchers E) name = some F ∧
      ((f C scale par).run (runSteps E default l)).1 =
        F default C scale (par.bind fun a => (runSteps E default l)[a]?) := by
  obtain ⟨F, h1, h2⟩ := find_refines (registered_refines E) hf
  obtain ⟨t, ht⟩ := h2 default par _ _ (good_of (C38_unchanged E default l hl) hp) C scale
  exact ⟨F, h1, by rw [ht]⟩

/-- After a match with `Vus = 0`, a change of that dictionary, and a failing call with an empty dictionary as default
coefficient set, matching with the default parameters rotates with the default CKM matrix. -/
example (rd : RunDec) :
    let E : REnv := ⟨vusCkm, fun _ _ => 0, rd, fun e _ => if e = "SMEFT" then allFlat else dipL⟩
    let l : List PStep := [.new [("Vus", 0)], .call ["SMEFT", "Warsaw", "WET", "JMS"] exDip 91 (some 1),
      .set 1 "Vus" 7, .call ["WET", "FlavorKit", "JMS"] [("nonsense", 1)] 91 (some 1)]
    LegalFrom E [defaultPar] l ∧ ∃ f d v, Dict.find (translatorsH E ++ matchersH E) ["SMEFT", "Warsaw", "WET", "JMS"] = some f ∧
      ((f exDip 91 none).run (runSteps E defaultPar l)).1 = .ok d ∧ v ≠ 0 ∧ Dict.getD d "dG_11" 0 = v * (1 / 3) := by
  intro E l
  have hlen : ∀ (h : Heap) (s : PStep), h[0]? = some defaultPar → s.Legal h → h.length ≤ (s.exec E h).length := by
    intro h s h0 hs
    cases s with
    | new d => simp [PStep.exec]
    | set a k v => unfold PStep.exec; dsimp only; cases h[a]? <;> simp
    | del a k => unfold PStep.exec; dsimp only; cases h[a]? <;> simp
    | call name C scale par =>
      rw [exec_call]
      cases hf : Dict.find (translatorsH E ++ matchersH E) name with
      | none => simp
      | some f =>
        obtain ⟨F, -, hF⟩ := find_refines (registered_refines E) hf
        obtain ⟨t, ht⟩ := hF defaultPar par _ h (good_of h0 hs) C scale
        dsimp only
        rw [ht]; simp
  have hl : LegalFrom E [defaultPar] l := by
    refine ⟨trivial, ?_⟩
    have l1 : 2 ≤ (PStep.exec E [defaultPar] (.new [("Vus", 0)])).length := by simp [PStep.exec]
    have d1 := exec_default E (s := .new [("Vus", 0)]) (h := [defaultPar]) rfl trivial
    refine ⟨fun a ha => by cases ha; omega, ?_⟩
    have s2 : PStep.Legal (PStep.exec E [defaultPar] (.new [("Vus", 0)]))
      (.call ["SMEFT", "Warsaw", "WET", "JMS"] exDip 91 (some 1)) := fun a ha => by cases ha; omega
    have l2 := hlen _ _ d1 s2
    have d2 := exec_default E d1 s2
    refine ⟨one_ne_zero, ?_⟩
    have l3 := hlen _ (.set 1 "Vus" 7) d2 one_ne_zero
    exact ⟨fun a ha => by cases ha; omega, trivial⟩
  refine ⟨hl, ?_⟩
  have hf : Dict.find (translatorsH E ++ matchersH E) ["SMEFT", "Warsaw", "WET", "JMS"] =
      some fun C _ par => warsawToJmsH E C par := by
    rw [Dict.find_append]
    rfl
  obtain ⟨F, h1, h2⟩ := C38_answers E defaultPar l hl _ _ hf exDip 91 none (by simp)
  have hF : Dict.find (translators E ++ matchers E) ["SMEFT", "Warsaw", "WET", "JMS"] =
      some fun p => warsawToJms E.ckm (E.all "SMEFT" "Warsaw up") (E.all "WET" "JMS") p := by
    rw [Dict.find_append]
    rfl
  rw [hF] at h1
  cases h1
  obtain ⟨D1, a1, a2, a3, a4, a5⟩ := exDip_path none vusCkm_default
  obtain ⟨r1, v1, g1, g2, g3, g4⟩ := exDip_match vusCkm D1 a2 a3 a4 none default_physical ⟨_, vusCkm_default⟩
  have hl : "dG_11" = label "dG" [0, 0] := by decide +kernel
  refine ⟨_, r1, v1, hf, h2.trans ?_, g2, ?_⟩
  · have e1 : E.all "SMEFT" "Warsaw up" = allFlat := rfl
    have e2 : E.all "WET" "JMS" = dipL := rfl
    rw [e1, e2]
    change warsawToJms vusCkm allFlat dipL defaultPar exDip 91 none = _
    rw [warsawToJms, a1, ok_bind, g1]
  · rw [hl, g4, a5]
    simp [exV]

end Verif
