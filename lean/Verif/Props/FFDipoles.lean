import Verif.Spec.FFDipoles
import Verif.Props.LagFormFlavor

/-! C71, dipole couplings of the up quark and of charged leptons. -/

set_option autoImplicit false

namespace Verif

open Spec

section

variable {E : WEnv} {P : PEnv} {scale : ℝ} {par : Option (Dict String ℝ)} {C D : Dict String ℂ} {J : JSrc → ℂ}

theorem fftable_up (hP : Admissible P) (J : JSrc → ℂ) : ∀ p ∈ formFlavorUpTable "uu" 0 0 (ev P) (gv P),
    bat J (Dict.ofPairs (blkFormFlavor P).flatten) p.1 = p.2.val J := by
  intro p hp
  have hb : formFlavorUpTable "uu" 0 0 (ev P) (gv P) ∈ blkFormFlavor P := by
    obtain ⟨-, -, f3, -, -, -, -⟩ := formFlavorChrom_eq hP
    unfold blkFormFlavor
    refine List.mem_append_right _ ?_
    simp only [List.map_cons, List.map_nil, f3, okOr_ok]
    simp
  have h5 : ∀ k ∈ ["CAR_", "CGR_", "CAL_", "CGL_"].map (· ++ "uu"), ffKeys.count k = 1 := by decide +kernel
  refine bat_once (k := p.1) (e := p.2) (List.mem_flatten.2 ⟨_, hb, hp⟩) ?_ J
  rw [ffKeys_eq hP]
  exact h5 _ (List.mem_map.2 ⟨p, hp, rfl⟩ : p.1 ∈ (formFlavorUpTable "uu" 0 0 (ev P) (gv P)).map Prod.fst)

theorem fftable_lepdip (hP : Admissible P) (J : JSrc → ℂ) : ∀ x ∈ [((1, 2) : Fin 3 × Fin 3), (0, 1), (0, 2)],
    ∀ p ∈ formFlavorLepTable (ffFlavour (.e, x.1) ++ ffFlavour (.e, x.2)) x.1 x.2 (ev P) (gv P),
    bat J (Dict.ofPairs (blkFormFlavor P).flatten) p.1 = p.2.val J := by
  intro x hx p hp
  have h : ∀ x ∈ [((1, 2) : Fin 3 × Fin 3), (0, 1), (0, 2)], (x, ffFlavour (.e, x.1) ++ ffFlavour (.e, x.2)) ∈
      [(((1, 2) : Fin 3 × Fin 3), "mt"), ((0, 1), "em"), ((0, 2), "et")] ∧
      ∀ k ∈ ["CAR_", "CAL_"].map (· ++ (ffFlavour (.e, x.1) ++ ffFlavour (.e, x.2))), ffKeys.count k = 1 := by decide +kernel
  obtain ⟨h1, h5⟩ := h x hx
  have hb : formFlavorLepTable (ffFlavour (.e, x.1) ++ ffFlavour (.e, x.2)) x.1 x.2 (ev P) (gv P) ∈ blkFormFlavor P := by
    obtain ⟨-, -, -, -, f5, f6, f7⟩ := formFlavorChrom_eq hP
    unfold blkFormFlavor
    refine List.mem_append_right _ ?_
    generalize ffFlavour (.e, x.1) ++ ffFlavour (.e, x.2) = y at h1
    simp only [List.mem_cons, List.not_mem_nil, or_false, Prod.mk.injEq] at h1
    simp only [List.map_cons, List.map_nil, f5, f6, f7, okOr_ok]
    rcases h1 with ⟨rfl, rfl⟩ | ⟨rfl, rfl⟩ | ⟨rfl, rfl⟩ <;> simp
  refine bat_once (k := p.1) (e := p.2) (List.mem_flatten.2 ⟨_, hb, hp⟩) ?_ J
  rw [ffKeys_eq hP]
  exact h5 _ (List.mem_map.2 ⟨p, hp, rfl⟩ :
    p.1 ∈ (formFlavorLepTable (ffFlavour (.e, x.1) ++ ffFlavour (.e, x.2)) x.1 x.2 (ev P) (gv P)).map Prod.fst)

/-- **C71**: the dipole couplings of the up quark. -/
theorem C71_dipoles_up (hp : penv E scale par = .ok P) (hP : Admissible P) (hL : JmsListing E.jms) (hJ : JmsFull E.jms C J)
    (hD : jmsToFormFlavor E C scale par = .ok D) (X : Boson) (A : Chir) :
    jmsDipoleOf J .u X A 0 0 = ffDipoleOf P.p.alpha_e P.p.alpha_s (fun k => Dict.getD D k 0) .u X A 0 0 := by
  rw [jmsToFormFlavor_tensor hp hP hL hJ] at hD
  injection hD with hD
  have hc : ∀ k, Dict.getD D k 0 = bat J (Dict.ofPairs (blkFormFlavor P).flatten) k := fun k => by rw [bat, hD]
  have hW := fftable_up hP J
  have e : "uu" = ffFlavour (.u, 0) ++ ffFlavour (.u, 0) := by decide +kernel
  rw [e] at hW
  simp only [formFlavorUpTable, List.forall_mem_cons, Ex.val_div, Ex.val_src, Ex.val_cj] at hW
  obtain ⟨W7, W8, V7, V8, -⟩ := hW
  have h1 : (ev P : ℂ) ≠ 0 := by exact_mod_cast ev_ne hP
  have h2 : (gv P : ℂ) ≠ 0 := by exact_mod_cast gv_ne hP
  have e1 : ((Real.sqrt (4 * Real.pi * P.p.alpha_e) : ℝ) : ℂ) = (ev P : ℂ) := rfl
  have e2 : ((Real.sqrt (4 * Real.pi * P.p.alpha_s) : ℝ) : ℂ) = (gv P : ℂ) := rfl
  cases X <;> cases A <;> simp only [jmsDipoleOf, ffDipoleOf, dipoleName, hc, e1, e2]
  · rw [V7]; field_simp
  · rw [W7]; field_simp
  · rw [V8]; field_simp
  · rw [W8]; field_simp

/-- **C71, partial**: of the dipole couplings of charged leptons, the right-handed ones are equal; the left-handed ones are wrong by
the ratio of the electromagnetic and the strong coupling (what is missing). -/
theorem C71_dipoles_leptons_partial (hp : penv E scale par = .ok P) (hP : Admissible P) (hL : JmsListing E.jms)
    (hJ : JmsFull E.jms C J) (hD : jmsToFormFlavor E C scale par = .ok D) (x : Fin 3 × Fin 3)
    (hx : x ∈ [((1, 2) : Fin 3 × Fin 3), (0, 1), (0, 2)]) :
    jmsDipoleOf J .e .photon .R x.1 x.2 =
        ffDipoleOf P.p.alpha_e P.p.alpha_s (fun k => Dict.getD D k 0) .e .photon .R x.1 x.2 ∧
      (Real.sqrt (4 * Real.pi * P.p.alpha_e) : ℂ) * jmsDipoleOf J .e .photon .L x.1 x.2 =
        (Real.sqrt (4 * Real.pi * P.p.alpha_s) : ℂ) *
          ffDipoleOf P.p.alpha_e P.p.alpha_s (fun k => Dict.getD D k 0) .e .photon .L x.1 x.2 := by
  rw [jmsToFormFlavor_tensor hp hP hL hJ] at hD
  injection hD with hD
  have hc : ∀ k, Dict.getD D k 0 = bat J (Dict.ofPairs (blkFormFlavor P).flatten) k := fun k => by rw [bat, hD]
  have hW := fftable_lepdip hP J x hx
  simp only [formFlavorLepTable, List.forall_mem_cons, Ex.val_div, Ex.val_src, Ex.val_cj] at hW
  obtain ⟨W7, V7, -⟩ := hW
  have h1 : (ev P : ℂ) ≠ 0 := by exact_mod_cast ev_ne hP
  have h2 : (gv P : ℂ) ≠ 0 := by exact_mod_cast gv_ne hP
  have e1 : ((Real.sqrt (4 * Real.pi * P.p.alpha_e) : ℝ) : ℂ) = (ev P : ℂ) := rfl
  have e2 : ((Real.sqrt (4 * Real.pi * P.p.alpha_s) : ℝ) : ℂ) = (gv P : ℂ) := rfl
  simp only [jmsDipoleOf, ffDipoleOf, dipoleName, hc, e1, e2]
  rw [W7, V7]
  constructor <;> field_simp

end

/-! ### Left-handed dipoles of leptons -/

/-- Which of the coefficients a name belongs to. -/
def ldWhich (x : String) : Fin 3 := if "egamma_32" = x then 1 else if "ugamma_11" = x then 2 else 0

noncomputable def ldC : Dict String ℂ := [("egamma_32", 3), ("ugamma_11", 2 * Complex.I)]

noncomputable def ldJ (s : JSrc) : ℂ := Dict.getD ldC (label s.1 s.2) 0

theorem ldC_eq (x : String) : Dict.getD ldC x 0 = ![0, 3, 2 * Complex.I] (ldWhich x) := by
  unfold ldC ldWhich Dict.getD Dict.find
  by_cases h1 : "egamma_32" = x
  · simp [h1]
  · by_cases h2 : "ugamma_11" = x <;> simp [h1, h2, Dict.find]

theorem ldJ_full : JmsFull exEnv.jms ldC ldJ where
  listed _ _ _ := rfl
  herm k hk p r s t := by
    have h : ∀ k ∈ jmsHermitian, ∀ p r s t : Fin 3, ldWhich (label k [p, r, s, t]) = 0 := by decide +kernel
    rw [ldJ, ldJ, ldC_eq, ldC_eq, h k hk, h k hk]
    simp
  exch k hk p r s t := by
    have h : ∀ k ∈ jmsExchange, ∀ p r s t : Fin 3, ldWhich (label k [s, t, p, r]) = ldWhich (label k [p, r, s, t]) := by
      decide +kernel
    rw [ldJ, ldJ, ldC_eq, ldC_eq, h k hk]

theorem ldJ_L : jmsDipoleOf ldJ .e .photon .L 1 2 = 3 := by
  have h : ldWhich (label "egamma" [2, 1]) = 1 := by decide +kernel
  simp only [jmsDipoleOf, dipoleName]
  rw [ldJ, ldC_eq, h]
  simp [map_ofNat]

/-- **C71, refuted** also for the left-handed dipole couplings of leptons. -/
theorem C71_dipoles_leptons_refuted : ¬ ∀ (E : WEnv) (P : PEnv) (scale : ℝ) (par : Option (Dict String ℝ)) (C D : Dict String ℂ)
    (J : JSrc → ℂ), penv E scale par = .ok P → Admissible P → JmsListing E.jms → JmsFull E.jms C J →
    jmsToFormFlavor E C scale par = .ok D →
    jmsDipoleOf J .e .photon .L 1 2 = ffDipoleOf P.p.alpha_e P.p.alpha_s (fun k => Dict.getD D k 0) .e .photon .L 1 2 := by
  intro h
  have hD := jmsToFormFlavor_tensor exEnv_ok exP_admissible allJms_listing ldJ_full
  have h1 := h _ _ _ _ _ _ _ exEnv_ok exP_admissible allJms_listing ldJ_full hD
  have h2 := (C71_dipoles_leptons_partial exEnv_ok exP_admissible allJms_listing ldJ_full hD (1, 2) (by simp)).2
  rw [← h1, ldJ_L] at h2
  have h3 : Real.sqrt (4 * Real.pi * exP.p.alpha_e) = Real.sqrt (4 * Real.pi * exP.p.alpha_s) := by
    exact_mod_cast mul_right_cancel₀ (by norm_num : (3 : ℂ) ≠ 0) h2
  have hpi := Real.pi_pos
  simp only [exP] at h3
  have h8 := (Real.sqrt_inj (by positivity) (by positivity)).1 h3
  have h9 := mul_left_cancel₀ (by positivity : (4 * Real.pi : ℝ) ≠ 0) h8
  norm_num at h9

/-- Non-trivial instance: the left-handed dipole coupling of the up quark is the conjugate of the given coefficient. -/
example : ∃ D, jmsToFormFlavor exEnv ldC 160 none = .ok D ∧
    (Real.sqrt (4 * Real.pi * exP.p.alpha_e) : ℂ) * Dict.getD D "CAL_uu" 0 = -(2 * Complex.I) := by
  have hD := jmsToFormFlavor_tensor exEnv_ok exP_admissible allJms_listing ldJ_full
  refine ⟨_, hD, ?_⟩
  have h1 := C71_dipoles_up exEnv_ok exP_admissible allJms_listing ldJ_full hD .photon .L
  have h : ldWhich (label "ugamma" [0, 0]) = 2 := by decide +kernel
  have e : "CAL_" ++ (ffFlavour (.u, 0) ++ ffFlavour (.u, 0)) = "CAL_uu" := by decide +kernel
  simp only [jmsDipoleOf, ffDipoleOf, dipoleName, e] at h1
  rw [← h1, ldJ, ldC_eq, h]
  simp [map_ofNat]

end Verif
