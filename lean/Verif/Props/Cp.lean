import Verif.Lemmas.CpMatch
import Verif.Lemmas.CpWet
import Verif.Lemmas.WetClosed
import Verif.Props.Params

/-! C84: complex conjugation of all coefficients and the sign of the CKM phase. -/

set_option autoImplicit false

namespace Verif

open Spec

local notation "K" => starRingEnd ℂ

/-- Conjugating all input coefficients and changing the sign of the phase conjugates all output coefficients; errors
stay the same. -/
def CpCovariant (f : Par → Fn) (default : Par) (C : Dict String ℂ) (scale : ℝ) (par par' : Option Par) : Prop :=
  f default (conjValues C) scale par' = (f default C scale par).map conjValues

/-- The parameters can be evaluated, no denominator vanishes and the bases list what the translators read. -/
def Usable (E : REnv) (default : Par) (scale : ℝ) (par : Option Par) : Prop :=
  ∃ P, penv (E.wet default) scale par = .ok P ∧ Admissible P ∧ P.p.m_b ^ 2 ≠ P.p.m_s ^ 2 ∧ JmsListing (E.all "WET" "JMS") ∧
    (∀ k ∈ bernNames, k ∈ E.all "WET" "Bern") ∧ ∀ k ∈ flavioNames, k ∈ E.all "WET" "flavio"

section
variable {E : REnv} {default : Par} {scale : ℝ} {par par' : Option Par}

theorem K_prefBern (P : PEnv) : K (prefBernv P) = prefBernv P := by
  unfold prefBernv
  exact Complex.conj_ofReal _

theorem jmsToFlavio_cc (hc : PhaseOnly E.ckm) (hf : FlipsPhase default par par') (hu : Usable E default scale par) (C : Dict String ℂ) :
    jmsToFlavio (E.wet default) (conjValues C) scale par' = (jmsToFlavio (E.wet default) C scale par).map conjValues := by
  obtain ⟨P, hp, hP, -, hL, -, -⟩ := hu
  obtain ⟨P', hp', hF⟩ := penv_cc (E.wet default) hc hf hp
  rw [jmsToFlavio_closed hp' (hF.admissible hP) hL, jmsToFlavio_closed hp hP hL, ← bcc_blkJmsFlavio hF hP, jval_cc, bval_bcc]
  rfl

theorem jmsToBern_cc (hc : PhaseOnly E.ckm) (hf : FlipsPhase default par par') (hu : Usable E default scale par) (C : Dict String ℂ) :
    jmsToBern (E.wet default) (conjValues C) scale par' = (jmsToBern (E.wet default) C scale par).map conjValues := by
  obtain ⟨P, hp, hP, -, hL, -, -⟩ := hu
  obtain ⟨P', hp', hF⟩ := penv_cc (E.wet default) hc hf hp
  rw [jmsToBern_closed hp' (hF.admissible hP) hL, jmsToBern_closed hp hP hL, ← bcc_blkJmsBern hF hP, hF.prefBern, jval_cc,
    show scaleBy (prefBernv P) (bcc (blkJmsBern P).flatten) = bcc (scaleBy (prefBernv P) (blkJmsBern P).flatten) by
      rw [bcc_scaleBy, K_prefBern], bval_bcc]
  rfl

theorem bernToFlavio_cc (hc : PhaseOnly E.ckm) (hf : FlipsPhase default par par') (hu : Usable E default scale par) (C : Dict String ℂ) :
    bernToFlavio (E.wet default) (conjValues C) scale par' = (bernToFlavio (E.wet default) C scale par).map conjValues := by
  obtain ⟨P, hp, hP, -, -, hL, -⟩ := hu
  obtain ⟨P', hp', hF⟩ := penv_cc (E.wet default) hc hf hp
  rw [bernToFlavio_closed hp' (hF.admissible hP) hL, bernToFlavio_closed hp hP hL, ← bcc_blkBernFlavio hF hP, hF.prefBern, sval_cc,
    show divideBy (prefBernv P) (bcc (blkBernFlavio P).flatten) = bcc (divideBy (prefBernv P) (blkBernFlavio P).flatten) by
      rw [bcc_divideBy, K_prefBern], bval_bcc]
  rfl

theorem flavioToBern_cc (hc : PhaseOnly E.ckm) (hf : FlipsPhase default par par') (hu : Usable E default scale par) (C : Dict String ℂ) :
    flavioToBern (E.wet default) (conjValues C) scale par' = (flavioToBern (E.wet default) C scale par).map conjValues := by
  obtain ⟨P, hp, hP, -, -, -, hL⟩ := hu
  obtain ⟨P', hp', hF⟩ := penv_cc (E.wet default) hc hf hp
  rw [flavioToBern_closed hp' (hF.admissible hP) hL, flavioToBern_closed hp hP hL, ← bcc_blkFlavioBern hF hP, hF.prefBern, sval_cc,
    show scaleBy (prefBernv P) (bcc (blkFlavioBern P).flatten) = bcc (scaleBy (prefBernv P) (blkFlavioBern P).flatten) by
      rw [bcc_scaleBy, K_prefBern], bval_bcc]
  rfl

theorem jmsToEos_cc (hc : PhaseOnly E.ckm) (hf : FlipsPhase default par par') (hu : Usable E default scale par) (C : Dict String ℂ) :
    jmsToEos (E.wet default) (conjValues C) scale par' = (jmsToEos (E.wet default) C scale par).map conjValues := by
  obtain ⟨P, hp, hP, hm, hL, -, -⟩ := hu
  obtain ⟨P', hp', hF⟩ := penv_cc (E.wet default) hc hf hp
  rw [jmsToEos_closed hp' (hF.admissible hP) (by rw [hF.m_b, hF.m_s]; exact hm) hL, jmsToEos_closed hp hP hm hL,
    ← bcc_blkEos hF hP hm, ← bcc_ofPairs, jval_cc, bval_bcc]
  rfl

theorem jmsToFormFlavor_cc (hc : PhaseOnly E.ckm) (hf : FlipsPhase default par par') (hu : Usable E default scale par)
    (C : Dict String ℂ) :
    jmsToFormFlavor (E.wet default) (conjValues C) scale par' = (jmsToFormFlavor (E.wet default) C scale par).map conjValues := by
  obtain ⟨P, hp, hP, hm, hL, -, -⟩ := hu
  obtain ⟨P', hp', hF⟩ := penv_cc (E.wet default) hc hf hp
  rw [jmsToFormFlavor_closed hp' (hF.admissible hP) hL, jmsToFormFlavor_closed hp hP hL, ← bcc_blkFormFlavor hF hP, ← bcc_ofPairs,
    jval_cc, bval_bcc]
  rfl

theorem fkToJmsStep_flip (p : WPar) : fkToJmsStep p.flip = fkToJmsStep p := by
  unfold fkToJmsStep
  rw [show leptonMass p.flip = leptonMass p from rfl, show p.flip.alpha_e = p.alpha_e from rfl]

theorem jmsToFkStep_flip (p : WPar) : jmsToFkStep p.flip = jmsToFkStep p := by
  unfold jmsToFkStep
  rw [show leptonMass p.flip = leptonMass p from rfl, show p.flip.alpha_e = p.alpha_e from rfl]

theorem fkToJms_cc (hf : FlipsPhase default par par') (C : Dict String ℂ) :
    fkToJms (E.wet default) (conjValues C) scale par' = (fkToJms (E.wet default) C scale par).map conjValues := by
  unfold fkToJms
  rw [getParameters_cc (E.wet default) hf]
  refine bind_map_of fun p => ?_
  rw [fkToJmsStep_flip]
  have h := foldlM_map_of (f := fkState) (k := fun q : String × ℂ => (q.1, K q.2)) (step := fkToJmsStep p)
    (step' := fkToJmsStep p) (fun s a => fkToJmsStep_cc p s a) C (none, [])
  rw [show conjValues C = C.map fun q : String × ℂ => (q.1, K q.2) from rfl,
    show ((none, []) : Option ℝ × Dict String ℂ) = fkState (none, []) from rfl, h]
  exact bind_map_of fun s => rfl

theorem jmsToFk_cc (hf : FlipsPhase default par par') (C : Dict String ℂ) :
    jmsToFk (E.wet default) (conjValues C) scale par' = (jmsToFk (E.wet default) C scale par).map conjValues := by
  unfold jmsToFk
  rw [getParameters_cc (E.wet default) hf]
  refine bind_map_of fun p => ?_
  rw [jmsToFkStep_flip]
  have h := foldlM_map_of (f := fkState) (k := fun q : String × ℂ => (q.1, K q.2)) (step := jmsToFkStep p)
    (step' := jmsToFkStep p) (fun s a => jmsToFkStep_cc p s a) C (none, [])
  rw [show conjValues C = C.map fun q : String × ℂ => (q.1, K q.2) from rfl,
    show ((none, []) : Option ℝ × Dict String ℂ) = fkState (none, []) from rfl, h]
  exact bind_map_of fun s => rfl

theorem fkToFlavio_cc (hc : PhaseOnly E.ckm) (hf : FlipsPhase default par par') (hu : Usable E default scale par) (C : Dict String ℂ) :
    fkToFlavio (E.wet default) (conjValues C) scale par' = (fkToFlavio (E.wet default) C scale par).map conjValues := by
  unfold fkToFlavio
  rw [fkToJms_cc hf]
  exact bind_map_of fun d => jmsToFlavio_cc hc hf hu d

theorem warsawToWarsawUp_cc {ckm : ℝ → ℝ → ℝ → ℝ → M3} (hc : PhaseOnly ckm) (L : List String)
    (hf : FlipsPhase default par par') (C : Dict String ℂ) :
    warsawToWarsawUp ckm L default (conjValues C) par' = (warsawToWarsawUp ckm L default C par).map conjValues := by
  unfold warsawToWarsawUp
  with_reducible exact rotateWarsaw_cc conjTranspose_cc hc L hf C

theorem warsawUpToWarsaw_cc {ckm : ℝ → ℝ → ℝ → ℝ → M3} (hc : PhaseOnly ckm) (L : List String)
    (hf : FlipsPhase default par par') (C : Dict String ℂ) :
    warsawUpToWarsaw ckm L default (conjValues C) par' = (warsawUpToWarsaw ckm L default C par).map conjValues := by
  unfold warsawUpToWarsaw
  with_reducible exact rotateWarsaw_cc (Uq := fun V => V) (fun _ => rfl) hc L hf C

theorem warsawToJms_cc (hc : PhaseOnly E.ckm) (L J : List String) (hf : FlipsPhase default par par') (C : Dict String ℂ) :
    warsawToJms E.ckm L J default (conjValues C) scale par' = (warsawToJms E.ckm L J default C scale par).map conjValues := by
  unfold warsawToJms
  rw [warsawToWarsawUp_cc hc L hf]
  exact bind_map_of fun d => matchAll_cc hc J hf d

theorem warsawToVia_cc (hc : PhaseOnly E.ckm) (L J : List String) (hf : FlipsPhase default par par') {f : Fn}
    (h : ∀ D, f (conjValues D) scale par' = (f D scale par).map conjValues) (C : Dict String ℂ) :
    warsawToVia f E.ckm L J default (conjValues C) scale par' = (warsawToVia f E.ckm L J default C scale par).map conjValues := by
  unfold warsawToVia
  rw [warsawToWarsawUp_cc hc L hf]
  refine bind_map_of fun d => ?_
  rw [matchAll_cc hc J hf]
  exact bind_map_of fun d => h d

theorem restrictTo_cc (L : List String) (C : Dict String ℂ) :
    restrictTo L (conjValues C) scale par' = (restrictTo L C scale par).map conjValues := by
  unfold restrictTo
  rw [filt_cc]
  rfl

end

/-- **C84** for all registered translators between bases of the weak effective theory and all registered matchers. -/
theorem C84_covariant_partial (E : REnv) (default : Par) (C : Dict String ℂ) (scale : ℝ) (par par' : Option Par)
    (hc : PhaseOnly E.ckm) (hf : FlipsPhase default par par') (hu : Usable E default scale par) :
    (∀ r ∈ translators E, r.1 ∉ ignoring → CpCovariant r.2 default C scale par par') ∧
    ∀ r ∈ matchers E, CpCovariant r.2 default C scale par par' := by
  constructor
  · unfold translators
    simp only [List.forall_mem_cons]
    refine ⟨fun h => absurd (by decide) h, fun h => absurd (by decide) h, fun h => absurd (by decide) h,
      ?_, ?_, ?_, ?_, ?_, ?_, ?_, ?_, ?_, ?_, ?_, ?_, ?_, ?_, ?_, ?_, ?_, by simp⟩ <;>
    · intro _
      unfold CpCovariant
      beta_reduce
      first
        | with_reducible exact jmsToFlavio_cc hc hf hu C
        | with_reducible exact bernToFlavio_cc hc hf hu C
        | with_reducible exact flavioToBern_cc hc hf hu C
        | with_reducible exact jmsToEos_cc hc hf hu C
        | with_reducible exact jmsToBern_cc hc hf hu C
        | with_reducible exact jmsToFormFlavor_cc hc hf hu C
        | with_reducible exact fkToJms_cc hf C
        | with_reducible exact jmsToFk_cc hf C
        | with_reducible exact fkToFlavio_cc hc hf hu C
  · unfold matchers
    simp only [List.forall_mem_cons]
    refine ⟨?_, ?_, ?_, ?_, ?_, ?_, ?_, ?_, ?_, ?_, ?_, ?_, by simp⟩ <;>
    · unfold CpCovariant
      beta_reduce
      first
        | with_reducible exact warsawToJms_cc hc _ _ hf C
        | with_reducible exact warsawToVia_cc hc _ _ hf (jmsToFlavio_cc hc hf hu) C
        | with_reducible exact warsawToVia_cc hc _ _ hf (jmsToEos_cc hc hf hu) C
        | with_reducible exact warsawToVia_cc hc _ _ hf (jmsToBern_cc hc hf hu) C
        | with_reducible exact restrictTo_cc _ C
        | unfold warsawUpToJms
          with_reducible exact matchAll_cc hc _ hf C

/-- **C84** without any condition on the parameters and bases: the matching to JMS and the translations from and to
FlavorKit. -/
theorem C84_jms_partial (E : REnv) (default : Par) (C : Dict String ℂ) (scale : ℝ) (par par' : Option Par)
    (hc : PhaseOnly E.ckm) (hf : FlipsPhase default par par') :
    (∀ r ∈ translators E, r.1 ∈ [["WET", "FlavorKit", "JMS"], ["WET", "JMS", "FlavorKit"]] →
      CpCovariant r.2 default C scale par par') ∧
    ∀ r ∈ matchers E, r.1 ∈ [["SMEFT", "Warsaw up", "WET", "JMS"], ["SMEFT", "Warsaw", "WET", "JMS"]] →
      CpCovariant r.2 default C scale par par' := by
  constructor
  · unfold translators
    simp only [List.forall_mem_cons]
    refine ⟨?_, ?_, ?_, ?_, ?_, ?_, ?_, ?_, ?_, ?_, ?_, ?_, ?_, ?_, ?_, ?_, ?_, ?_, ?_, ?_, by simp⟩ <;>
    · intro h
      first
        | exact absurd h (by decide)
        | unfold CpCovariant
          beta_reduce
          first
            | with_reducible exact fkToJms_cc hf C
            | with_reducible exact jmsToFk_cc hf C
  · unfold matchers
    simp only [List.forall_mem_cons]
    refine ⟨?_, ?_, ?_, ?_, ?_, ?_, ?_, ?_, ?_, ?_, ?_, ?_, by simp⟩ <;>
    · intro h
      first
        | exact absurd h (by decide)
        | unfold CpCovariant
          beta_reduce
          first
            | with_reducible exact warsawToJms_cc hc _ _ hf C
            | unfold warsawUpToJms
              with_reducible exact matchAll_cc hc _ hf C

/-- **C84** for the functions of translators/smeft.py, given the parameters: singular values do not change when the
matrix is conjugated. -/
theorem C84_direct_partial (ckm : ℝ → ℝ → ℝ → ℝ → M3) (msvd : M3 → Fin 3 → ℝ) (L : List String) (default : Par) (C : Dict String ℂ)
    (scale : ℝ) (par par' : Option Par) (hc : PhaseOnly ckm) (hm : ∀ M, msvd (M.map (starRingEnd ℂ)) = msvd M)
    (hf : FlipsPhase default par par') :
    CpCovariant (fun p C _ par => warsawToWarsawmass ckm msvd p C par) default C scale par par' ∧
    CpCovariant (fun p C _ par => warsawToWarsawUp ckm L p C par) default C scale par par' ∧
    CpCovariant (fun p C _ par => warsawUpToWarsaw ckm L p C par) default C scale par par' := by
  unfold CpCovariant
  beta_reduce
  refine ⟨?_, ?_, ?_⟩
  · with_reducible exact warsawmass_cc hc hm hf C
  · with_reducible exact warsawToWarsawUp_cc hc L hf C
  · with_reducible exact warsawUpToWarsaw_cc hc L hf C

/-- A dictionary of real values. -/
def RealValues (d : Dict String ℂ) : Prop := ∀ p ∈ d, p.2.im = 0

theorem realValues_iff (d : Dict String ℂ) : RealValues d ↔ conjValues d = d := by
  unfold RealValues conjValues
  induction d with
  | nil => simp
  | cons p d ih =>
    rw [List.forall_mem_cons, List.map_cons, List.cons.injEq, ih, ← Complex.conj_eq_iff_im]
    refine and_congr_left fun _ => ⟨fun h => Prod.ext rfl h, fun h => congrArg Prod.snd h⟩

/-- **C84**: without a CP violating phase, real coefficients stay real. -/
theorem C84_real_partial (E : REnv) (default : Par) (C : Dict String ℂ) (scale : ℝ) (par : Option Par) (hc : PhaseOnly E.ckm)
    (hg : Dict.find (withPar default par) "gamma" = some 0) (hu : Usable E default scale par) (hC : RealValues C)
    (f : Par → Fn) (h : (∃ r ∈ translators E, r.1 ∉ ignoring ∧ r.2 = f) ∨ ∃ r ∈ matchers E, r.2 = f) (d : Dict String ℂ)
    (hd : f default C scale par = .ok d) : RealValues d := by
  have hf : FlipsPhase default par par := ⟨fun _ _ => rfl, by rw [hg]; simp⟩
  obtain ⟨h1, h2⟩ := C84_covariant_partial E default C scale par par hc hf hu
  have h3 : CpCovariant f default C scale par par := by
    obtain ⟨r, hr, hi, rfl⟩ | ⟨r, hr, rfl⟩ := h
    · exact h1 r hr hi
    · exact h2 r hr
  unfold CpCovariant at h3
  rw [(realValues_iff C).1 hC, hd] at h3
  exact (realValues_iff d).2 (Except.ok.inj h3).symm

/-! ### Examples -/

/-- A unitary matrix with a phase in its first row. -/
noncomputable def phaseCkm (_ _ _ g : ℝ) : M3 := fun i j => (if i = 0 then Complex.exp (g * Complex.I) else 1) * exV i j

theorem phaseCkm_phase : PhaseOnly phaseCkm := by
  intro a b c g i j
  have h : K (exV i j) = exV i j := by fin_cases i <;> fin_cases j <;> simp [exV, Complex.conj_ofNat]
  unfold phaseCkm
  rw [map_mul, h]
  split_ifs
  · rw [← Complex.exp_conj]; simp
  · simp

theorem phaseCkm_unitary (a b c g : ℝ) : (phaseCkm a b c g).conjTranspose * phaseCkm a b c g = 1 := by
  have hg : K (Complex.exp (g * Complex.I)) * Complex.exp (g * Complex.I) = 1 := by
    rw [← Complex.exp_conj, ← Complex.exp_add]; simp
  rw [← exV_unitary]
  ext i j
  simp only [Matrix.mul_apply, Fin.sum_univ_three, Matrix.conjTranspose_apply, phaseCkm, if_true, Complex.star_def, map_mul,
    Fin.reduceEq, if_false, map_one, one_mul]
  linear_combination (K (exV 0 i) * exV 0 j) * hg

/-- The whole bases with this matrix. -/
noncomputable def cpEnv : REnv where
  ckm := phaseCkm
  msvd := fun _ _ => 0
  rd := exEnv.rd
  all := fun e b => if e = "SMEFT" then allFlat else if b = "JMS" then allJms else if b = "Bern" then bernNames else flavioNames

theorem cpEnv_usable : Usable cpEnv defaultPar 160 none := by
  refine ⟨⟨phaseCkm, exP.p⟩, ?_, ?_, ?_, allJms_listing, fun k hk => hk, fun k hk => hk⟩
  · have h := exEnv_ok
    unfold penv at h ⊢
    rw [show getParameters (cpEnv.wet defaultPar) 160 none = getParameters exEnv 160 none from rfl]
    cases h' : getParameters exEnv 160 none with
    | error e => rw [h'] at h; cases h
    | ok p =>
      rw [h'] at h
      have h2 : (⟨exEnv.ckm, p⟩ : PEnv) = exP := Except.ok.inj h
      rw [← h2]
      rfl
  · refine ⟨exP_admissible.GF, exP_admissible.alpha_e, exP_admissible.alpha_s, exP_admissible.m_b, fun i j => ?_⟩
    refine mul_ne_zero ?_ (exP_admissible.V i j)
    split_ifs
    · exact Complex.exp_ne_zero _
    · exact one_ne_zero
  · simp only [exP]; norm_num

theorem flips_gamma : FlipsPhase defaultPar none (some [("gamma", -1.27)]) := by
  refine ⟨fun k hk => ?_, ?_⟩
  · have hw : Dict.WF ([("gamma", -1.27)] : Par) := by simp [Dict.WF, Dict.keys]
    change Dict.find (Dict.upd defaultPar [("gamma", -1.27)]) k = Dict.find defaultPar k
    rw [Dict.find_upd hw]
    simp [Dict.find, Ne.symm hk]
  · simp [withPar, Dict.upd, Dict.put, defaultPar, Dict.find]

/-- C84 for a complex coefficient and the phase 1.27. -/
example : ∃ d d', jmsToFlavio (cpEnv.wet defaultPar) [("VedLL_1123", 1 + 2 * Complex.I)] 160 none = .ok d ∧
    jmsToFlavio (cpEnv.wet defaultPar) [("VedLL_1123", 1 - 2 * Complex.I)] 160 (some [("gamma", -1.27)]) = .ok d' ∧
    d ≠ [] ∧ d' = conjValues d := by
  have h1 := (C84_covariant_partial cpEnv defaultPar [("VedLL_1123", 1 + 2 * Complex.I)] 160 _ _ phaseCkm_phase flips_gamma cpEnv_usable).1
    (["WET", "JMS", "flavio"], fun p => jmsToFlavio (cpEnv.wet p)) (by simp [translators]) (by decide)
  obtain ⟨P, hp, hP, -, hL, -, -⟩ := cpEnv_usable
  have h2 := jmsToFlavio_closed hp hP hL [("VedLL_1123", 1 + 2 * Complex.I)]
  unfold CpCovariant at h1
  dsimp only at h1
  rw [h2, show conjValues [("VedLL_1123", 1 + 2 * Complex.I)] = [("VedLL_1123", 1 - 2 * Complex.I)] by
    simp [conjValues, sub_eq_add_neg, Complex.conj_ofNat]] at h1
  refine ⟨_, _, h2, h1, fun h => ?_, rfl⟩
  have h3 := congrArg (List.map Prod.fst) h
  have h4 : (bval (jval (cpEnv.wet defaultPar).jms [("VedLL_1123", 1 + 2 * Complex.I)]) (blkJmsFlavio P).flatten).map Prod.fst = keysFlavio :=
    (keys_bval _ _).trans (bkeys_blkJmsFlavio hP)
  rw [h4] at h3
  have : keysFlavio ≠ [] := by decide +kernel
  exact this h3

theorem cpEnv_usable_zero : Usable cpEnv defaultPar 160 (some [("gamma", 0)]) := by
  have h1 : plain exEnv.rd (.mb (.float 4.18) (.float 160) (.int 5) (.pos (.float 0.1185))) = .ok 3 := by
    simp [plain, mbBody, alphaSBody, sane, exEnv, PyNum.val, PyNum.isFloatOrInt, PyNum.isInt, MZ]
    norm_num
    rfl
  have h2 : plain exEnv.rd (.ms (.float 0.095) (.float 160) (.int 5) (.pos (.float 0.1185))) = .ok 1 := by
    simp [plain, msBody, alphaSBody, sane, exEnv, PyNum.val, PyNum.isFloatOrInt, PyNum.isInt, MZ]
    norm_num
    rfl
  have h3 : plain exEnv.rd (.alphaS (.float 160) (.int 5) (.pos (.float 0.1185))) = .ok (1 / 5) := by
    simp [plain, alphaSBody, sane, exEnv, PyNum.val, PyNum.isFloatOrInt, PyNum.isInt, MZ]
    norm_num
    rfl
  refine ⟨⟨phaseCkm, { exP.p with gamma := 0 }⟩, ?_, ?_, ?_, allJms_listing, fun k hk => hk, fun k hk => hk⟩
  · unfold penv getParameters
    have e : withPar (cpEnv.wet defaultPar).default (some [("gamma", 0)]) = Dict.upd defaultPar [("gamma", 0)] := rfl
    have e2 : (cpEnv.wet defaultPar).rd = exEnv.rd := rfl
    simp only [e, e2]
    simp only [defaultPar, Dict.upd, List.foldl, Dict.put, Dict.get, Dict.find, String.reduceEq, if_true, if_false, except_ok_bind, h1, h2, h3]
    rfl
  · refine ⟨exP_admissible.GF, exP_admissible.alpha_e, exP_admissible.alpha_s, exP_admissible.m_b, fun i j => ?_⟩
    refine mul_ne_zero ?_ (exP_admissible.V i j)
    split_ifs
    · exact Complex.exp_ne_zero _
    · exact one_ne_zero
  · simp only [exP]; norm_num

/-- C84 with vanishing phase: the real gluon dipole in Warsaw is matched to real coefficients. -/
example (d : Dict String ℂ)
    (hd : warsawToJms phaseCkm allFlat allJms defaultPar exDip 160 (some [("gamma", 0)]) = .ok d) : RealValues d := by
  refine C84_real_partial cpEnv defaultPar exDip 160 _ phaseCkm_phase ?_ cpEnv_usable_zero ?_ _
    (.inr ⟨(["SMEFT", "Warsaw", "WET", "JMS"], _), List.mem_cons_of_mem _ (List.mem_cons_self ..), rfl⟩) d hd
  · simp [withPar, Dict.upd, Dict.put, defaultPar, Dict.find]
  · simp [RealValues, exDip]

/-- **C84** is false for the registered translators within the SMEFT, which ignore the parameters: the real gluon
dipole has a complex coefficient in the basis Warsaw up, whatever the sign of the given phase. -/
theorem C84_refuted : ∃ (E : REnv) (r : List String × (Par → Fn)) (par par' : Option Par) (d : Dict String ℂ),
    r ∈ translators E ∧ r.1 = ["SMEFT", "Warsaw", "Warsaw up"] ∧ PhaseOnly E.ckm ∧
    (∀ a b c g, (E.ckm a b c g).conjTranspose * E.ckm a b c g = 1) ∧ Usable E defaultPar 160 par ∧
    FlipsPhase defaultPar par par' ∧ conjValues exDip = exDip ∧
    r.2 defaultPar exDip 160 par = .ok d ∧ r.2 defaultPar (conjValues exDip) 160 par' = .ok d ∧
    (Dict.getD d "dG_11" 0).im ≠ 0 ∧ ¬ CpCovariant r.2 defaultPar exDip 160 par par' := by
  have hl : "dG_11" = label "dG" [0, 0] := by decide +kernel
  have hx : conjValues exDip = exDip := by simp [conjValues, exDip]
  obtain ⟨D, a1, a2, a3, a4, a5⟩ := exDip_path (ckm := phaseCkm) (V := phaseCkm 0.2243 3.62e-3 4.221e-2 1.27) none rfl
  have hi : (Dict.getD D "dG_11" 0).im ≠ 0 := by
    rw [hl]
    have h5 : Dict.getD D (label "dG" [0, 0]) 0 = phaseCkm 0.2243 3.62e-3 4.221e-2 1.27 0 0 := a5
    have h6 : phaseCkm 0.2243 3.62e-3 4.221e-2 1.27 0 0 = ((1 / 3 : ℝ) : ℂ) * Complex.exp ((1.27 : ℝ) * Complex.I) := by
      simp [phaseCkm, exV, mul_comm]
    rw [h5, h6, Complex.im_ofReal_mul, Complex.exp_ofReal_mul_I_im]
    have := Real.sin_pos_of_pos_of_lt_pi (x := 1.27) (by norm_num) (by have := Real.pi_gt_three; linarith)
    positivity
  refine ⟨cpEnv, (["SMEFT", "Warsaw", "Warsaw up"], _), none, some [("gamma", -1.27)], D,
    List.mem_cons_of_mem _ (List.mem_cons_self ..), rfl, phaseCkm_phase, phaseCkm_unitary, cpEnv_usable, flips_gamma, hx, a1, ?_, hi, ?_⟩
  · rw [hx]; exact a1
  · intro h
    have h1 : Except.ok D = (Except.ok D : Except PyErr _).map conjValues := by
      have h2 : warsawToWarsawUp phaseCkm allFlat defaultPar (conjValues exDip) none =
        (warsawToWarsawUp phaseCkm allFlat defaultPar exDip none).map conjValues := h
      rw [hx, a1] at h2
      exact h2
    have h2 := congrArg (fun d => Dict.getD d "dG_11" 0) (Except.ok.inj h1)
    beta_reduce at h2
    rw [getD_conjValues] at h2
    exact hi (Complex.conj_eq_iff_im.1 h2.symm)

end Verif
