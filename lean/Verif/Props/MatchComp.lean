import Verif.Props.MatchCkm
import Verif.Props.WetLinear

/-! C51, C52: matching composed with translation. -/

set_option autoImplicit false

namespace Verif

open Spec

/-! ### Composition of object functions -/

theorem applyFn_eq (fl : String → Option ℝ) (fn : Fn) (eft basis : String) (w : WC) (params : Option Params) :
    applyFn fl fn eft basis w params = (do
      let d ← w.dict fl
      let out ← fn d w.scale params
      .ok ⟨eft, basis, w.scale, .obj (dict2values (nz out)), .none, []⟩) := by
  unfold applyFn
  refine except_bind_congr _ _ _ fun d => except_bind_congr _ _ _ fun out => ?_
  simp [newWC, pyFloat, setAttrs, pure, Except.pure, Dict.find, bind, Except.bind, nz]
  rfl

theorem dict_result (fl : String → Option ℝ) (eft basis : String) (scale : ℝ) (d : Dict String ℂ) :
    WC.dict fl ⟨eft, basis, scale, .obj (dict2values d), .none, []⟩ = .ok d := by
  rw [WC.dict_of_noCache rfl]
  exact (C11_numbers_round_trip fl _).1

/-- Two functions one after the other, with an object in between. -/
theorem applyFn_comp (fl : String → Option ℝ) (f g h : Fn) (e1 b1 e2 b2 : String) (w : WC) (params : Option Params)
    (hh : ∀ d, w.dict fl = .ok d → (h d w.scale params >>= fun o => .ok (nz o)) =
      (f d w.scale params >>= fun o => g (nz o) w.scale params >>= fun o => .ok (nz o))) :
    applyFn fl h e2 b2 w params = applyFn fl f e1 b1 w params >>= fun w1 => applyFn fl g e2 b2 w1 params := by
  simp only [applyFn_eq, bind_assoc]
  cases hd : w.dict fl with
  | error e => rfl
  | ok d =>
    simp only [ok_bind]
    have key := hh d hd
    cases hf : f d w.scale params with
    | error e =>
      rw [hf] at key
      cases hk : h d w.scale params with
      | error e' => rw [hk] at key; cases key; rfl
      | ok o => rw [hk] at key; cases key
    | ok o =>
      simp only [hf, ok_bind, dict_result] at key ⊢
      cases hg : g (nz o) w.scale params with
      | error e =>
        rw [hg] at key
        cases hk : h d w.scale params with
        | error e' => rw [hk] at key; cases key; rfl
        | ok o => rw [hk] at key; cases key
      | ok o2 =>
        rw [hg] at key
        cases hk : h d w.scale params with
        | error e' => rw [hk] at key; cases key
        | ok o3 =>
          rw [hk] at key
          simp only [ok_bind] at key ⊢
          rw [Except.ok.inj key]

theorem getD_nz {d : Dict String ℂ} (hw : Dict.WF d) (k : String) : Dict.getD (nz d) k 0 = Dict.getD d k 0 := by
  unfold Dict.getD nz
  rw [Dict.find_filt hw]
  cases Dict.find d k with
  | none => rfl
  | some v => by_cases h : v = 0 <;> simp [Option.filter, h]

theorem matchAll_wf {ckm : ℝ → ℝ → ℝ → ℝ → M3} {L : List String} {default : Par} {d r : Dict String ℂ}
    {par : Option Par} (h : matchAll ckm L default d par = .ok r) : Dict.WF r := by
  unfold matchAll at h
  dsimp only at h
  cases h1 : wcxf2arrays d with
  | error e => rw [h1] at h; cases h
  | ok A =>
    rw [h1, ok_bind] at h
    cases h2 : symmetrize A with
    | error e => rw [h2] at h; cases h
    | ok A2 =>
      rw [h2, ok_bind] at h
      cases h3 : matchAllArray (Dict.put (addMissing A2) "vT" (.num 246.22)) (withPar default par) with
      | error e => rw [h3] at h; cases h
      | ok CW =>
        rw [h3, ok_bind] at h
        cases h4 : rotateDown ckm CW (withPar default par) with
        | error e => rw [h4] at h; cases h
        | ok CW2 =>
          rw [h4, ok_bind] at h
          obtain rfl := Except.ok.inj h
          exact Dict.WF_filt (arrays2wcxf_wf _)

/-! ### C52 -/

/-- **C52**: matching a Warsaw object to the basis of `t` (flavio, EOS or Bern) gives the same object or exception as
matching it to JMS and translating the result, with the same parameters. -/
theorem C52_commutes (fl : String → Option ℝ) (E : WEnv) (t : WT) (ckm : ℝ → ℝ → ℝ → ℝ → M3) (up jms : List String)
    (default : Par) (w : WC) (par : Option Par) (basis : String) :
    applyFn fl (warsawToVia (t.run E) ckm up jms default) "WET" basis w par =
      applyFn fl (warsawToJms ckm up jms default) "WET" "JMS" w par >>= fun w1 => applyFn fl (t.run E) "WET" basis w1 par := by
  refine applyFn_comp fl _ _ _ _ _ _ _ w par fun d _ => ?_
  unfold warsawToVia warsawToJms
  cases h1 : warsawToWarsawUp ckm up default d par with
  | error e => rfl
  | ok D =>
    simp only [ok_bind]
    cases h2 : matchAll ckm jms default D par with
    | error e => rfl
    | ok r =>
      simp only [ok_bind]
      rw [C44_absent_zero E t (nz r) r w.scale par fun k => getD_nz (matchAll_wf h2) k]

/-! ### C51 -/

theorem entries_nz {d : Dict String ℂ} (hw : Dict.WF d) (k : String) : entries (nz d) k = entries d k :=
  funext fun _ => getD_nz hw _

theorem fullArr_nz {d : Dict String ℂ} (hw : Dict.WF d) (k : String) (op : Spec.Op) : fullArr (nz d) k op = fullArr d k op := by
  unfold fullArr; rw [entries_nz hw]

/-- Dropping zeros changes at most the shape of the triple-gluon coefficients. -/
theorem flatSrc_nz {d : Dict String ℂ} (hw : Dict.WF d) : flatSrc (nz d) =
    ⟨(flatSrc d).mt, (flatSrc d).tn, (flatSrc d).phiWB, preArr (nz d) "G" .boson, preArr (nz d) "Gtilde" .boson⟩ := by
  unfold flatSrc
  simp only [fullArr_nz hw, getD_nz hw]

/-- The numbers left of a scalar coefficient. -/
theorem flatEntries_G {d : Dict String ℂ} (hw : Dict.WF d) (k : String) (P : String → Bool) :
    (flatEntries k ((preArr (nz d) k .boson).sub (preArr (nz d) k .boson).zeroed)).filter
      (fun p => P p.1 && decide (p.2 ≠ 0)) =
    (flatEntries k ((preArr d k .boson).sub (preArr d k .boson).zeroed)).filter (fun p => P p.1 && decide (p.2 ≠ 0)) := by
  unfold preArr
  rw [fullArr_nz hw]
  by_cases h1 : k ∈ Dict.keys d
  · by_cases h2 : k ∈ Dict.keys (nz d)
    · rw [if_neg fun h => h.2 h2, if_neg fun h => h.2 h1]
    · rw [if_pos ⟨rfl, h2⟩, if_neg fun h => h.2 h1]
      have hz : Dict.getD d k 0 = 0 := by
        rw [← getD_nz hw]; unfold Dict.getD; rw [Dict.find_eq_none_iff.2 h2]; rfl
      have he : entries d k [] = 0 := hz
      simp [fullArr, complete, arrOf, Arr.real, he, Arr.sub, Arr.zeroed, flatEntries]
  · have h2 : k ∉ Dict.keys (nz d) := fun h => h1 ((Dict.keys_filt_sublist _ _).subset h)
    rw [if_pos ⟨rfl, h2⟩, if_pos ⟨rfl, h1⟩]

theorem nz_filt (P : String → Bool) (d : Dict String ℂ) :
    nz (Dict.filt (fun k _ => P k) d) = d.filter fun p => P p.1 && decide (p.2 ≠ 0) := by
  unfold nz Dict.filt
  rw [List.filter_filter]
  refine List.filter_congr fun p _ => ?_
  rw [Bool.and_comm]

theorem arrays2wcxf_eq {D : Dict String Arr} (hw : Dict.WF D) (hp : ∀ k ∈ Dict.keys D, Plain k) :
    arrays2wcxf D = D.flatMap fun p => flatEntries p.1 p.2 := by
  unfold arrays2wcxf
  exact Dict.ofPairs_of_nodup (flatPairs_wf hw hp)

theorem G_rule {k : String} {f : Src → EW → Arr} (hf : (k, f) ∈ matchRules) :
    (k = "G" → f = fun C _ => C.G) ∧ (k = "Gtilde" → f = fun C _ => C.Gtilde) := by
  have huniq : ∀ {k : String} {f g : Src → EW → Arr}, (k, f) ∈ matchRules → (k, g) ∈ matchRules → f = g := by
    intro k f g h1 h2
    have hnd : Dict.WF matchRules := by
      unfold Dict.WF Dict.keys; rw [rules_names]; exact wetNames_nodup
    have e1 := Dict.find_of_mem hnd h1
    rw [Dict.find_of_mem hnd h2] at e1
    exact (Option.some.inj e1).symm
  refine ⟨fun e => ?_, fun e => ?_⟩
  · subst e; exact huniq hf (by simp [matchRules, rulesDipole])
  · subst e; exact huniq hf (by simp [matchRules, rulesDipole])

/-- Zero coefficients do not matter. -/
theorem matchAll_nz {ckm : ℝ → ℝ → ℝ → ℝ → M3} {L : List String} {default : Par} {d : Dict String ℂ} {par : Option Par}
    (hw : Dict.WF d) (hd : ∀ key ∈ Dict.keys d, IsFlat key) :
    (matchAll ckm L default (nz d) par >>= fun o => .ok (nz o)) = (matchAll ckm L default d par >>= fun o => .ok (nz o)) := by
  have hw' : Dict.WF (nz d) := Dict.WF_filt hw
  have hd' : ∀ key ∈ Dict.keys (nz d), IsFlat key := fun key hk => hd key ((Dict.keys_filt_sublist _ _).subset hk)
  rw [matchAll_eq ckm L default (nz d) par hw' hd', matchAll_eq ckm L default d par hw hd]
  have e1 : ewOf (flatSrc (nz d)) = ewOf (flatSrc d) := by rw [flatSrc_nz hw]; rfl
  have e2 : ewOf (flatSrc (nz d)).zero = ewOf (flatSrc d).zero := by rw [flatSrc_nz hw]; rfl
  rw [e1, e2]
  simp only [bind_assoc]
  refine except_bind_congr _ _ _ fun w => except_bind_congr _ _ _ fun w0 => except_bind_congr _ _ _ fun V => ?_
  simp only [ok_bind]
  refine congrArg Except.ok ?_
  rw [nz_filt (fun k => decide (k ∈ L)), nz_filt (fun k => decide (k ∈ L)),
    arrays2wcxf_eq (matched_wf _ _ _ _) (matched_plain _ _ _ _), arrays2wcxf_eq (matched_wf _ _ _ _) (matched_plain _ _ _ _)]
  unfold matched
  rw [List.flatMap_map, List.flatMap_map, List.filter_flatMap, List.filter_flatMap]
  refine List.flatMap_congr fun r hr => ?_
  obtain ⟨k, f⟩ := r
  dsimp only
  by_cases hG : k ∈ ["G", "Gtilde"]
  · have hsc : ∀ (e : Dict String ℂ) k, rotEntry V k ((preArr e k .boson).sub (preArr e k .boson).zeroed) =
        (preArr e k .boson).sub (preArr e k .boson).zeroed := by
      intro e k
      unfold preArr
      split_ifs <;> rfl
    have h := G_rule hr
    simp only [List.mem_cons, List.not_mem_nil, or_false] at hG
    rcases hG with rfl | rfl
    · rw [h.1 rfl]
      have := flatEntries_G hw "G" fun k => decide (k ∈ L)
      rw [← hsc, ← hsc d] at this
      exact this
    · rw [h.2 rfl]
      have := flatEntries_G hw "Gtilde" fun k => decide (k ∈ L)
      rw [← hsc, ← hsc d] at this
      exact this
  · have h1 : f (flatSrc (nz d)) w = f (flatSrc d) w := by
      rw [flatSrc_nz hw]; exact rules_noG _ hr hG (flatSrc d) _ _ w
    have h2 : f (flatSrc (nz d)).zero w0 = f (flatSrc d).zero w0 :=
      (rules_noG _ hr hG (flatSrc d).zero (flatSrc (nz d)).zero.G (flatSrc (nz d)).zero.Gtilde w0)
    rw [h1, h2]

theorem rotateWarsaw_par (Uq : M3 → M3) {ckm : ℝ → ℝ → ℝ → ℝ → M3} (up : List String) {default : Par} (d : Dict String ℂ)
    {par par' : Option Par} (h : ckmOf ckm (withPar default par) = ckmOf ckm (withPar default par')) :
    rotateWarsaw Uq ckm up default d par = rotateWarsaw Uq ckm up default d par' := by
  unfold rotateWarsaw
  dsimp only
  rw [h]

theorem rotateWarsaw_flat {Uq : M3 → M3} {ckm : ℝ → ℝ → ℝ → ℝ → M3} {up : List String} {default : Par}
    {d D : Dict String ℂ} {par : Option Par} (hw : Dict.WF d) (hd : ∀ key ∈ Dict.keys d, IsFlat key)
    (h : rotateWarsaw Uq ckm up default d par = .ok D) : Dict.WF D ∧ ∀ key ∈ Dict.keys D, IsFlat key := by
  cases hV : ckmOf ckm (withPar default par) with
  | error e =>
    exfalso
    unfold rotateWarsaw at h
    dsimp only at h
    cases h1 : wcxf2arrays d with
    | error e => rw [h1] at h; cases h
    | ok A =>
      rw [h1, ok_bind] at h
      cases h2 : symmetrize A with
      | error e => rw [h2] at h; cases h
      | ok A2 => rw [h2, ok_bind, hV] at h; cases h
  | ok V =>
    obtain ⟨D', h1, h2, h3, h4⟩ := rotateWarsaw_spec Uq ckm up default d par V hV hw hd
    obtain rfl : D' = D := Except.ok.inj (h1.symm.trans h)
    exact ⟨h2, fun key hk => (h3 key hk).2⟩

/-- **C51** for parameters that give the same CKM matrix as the default ones: matching a Warsaw object to JMS gives the
same object or exception as translating it to Warsaw up and matching the result. The registered translator to Warsaw up
takes no notice of the parameters. -/
theorem C51_commutes_partial (fl : String → Option ℝ) (ckm : ℝ → ℝ → ℝ → ℝ → M3) (up jms : List String) (default : Par)
    (w : WC) (par : Option Par) (hpar : ckmOf ckm (withPar default par) = ckmOf ckm default)
    (hflat : ∀ d, w.dict fl = .ok d → Dict.WF d ∧ ∀ key ∈ Dict.keys d, IsFlat key) :
    applyFn fl (warsawToJms ckm up jms default) "WET" "JMS" w par =
      applyFn fl (registeredSmeft (warsawToWarsawUp ckm up default)) "SMEFT" "Warsaw up" w par >>= fun w1 =>
        applyFn fl (warsawUpToJms ckm jms default) "WET" "JMS" w1 par := by
  refine applyFn_comp fl _ _ _ _ _ _ _ w par fun d hd => ?_
  obtain ⟨hw, hf⟩ := hflat d hd
  unfold warsawToJms registeredSmeft warsawUpToJms
  have hp : warsawToWarsawUp ckm up default d none = warsawToWarsawUp ckm up default d par :=
    rotateWarsaw_par _ up d (show ckmOf ckm (withPar default none) = _ from hpar.symm)
  rw [hp]
  cases h1 : warsawToWarsawUp ckm up default d par with
  | error e => rfl
  | ok D =>
    obtain ⟨h2, h3⟩ := rotateWarsaw_flat hw hf h1
    simp only [ok_bind]
    exact (matchAll_nz h2 h3).symm

/-- A CKM matrix that depends on `Vus`. -/
noncomputable def vusCkm : ℝ → ℝ → ℝ → ℝ → M3 := fun vus _ _ _ => if vus = 0 then 1 else exV

theorem vusCkm_unitary (a b c g : ℝ) : (vusCkm a b c g).conjTranspose * vusCkm a b c g = 1 := by
  unfold vusCkm; split_ifs
  · simp
  · exact exV_unitary

theorem vusCkm_default : ckmOf vusCkm (withPar defaultPar none) = .ok exV := by
  change Except.ok (vusCkm 0.2243 3.62e-3 4.221e-2 1.27) = _
  unfold vusCkm
  rw [if_neg (by norm_num)]

theorem vusCkm_zero : ckmOf vusCkm (withPar defaultPar (some [("Vus", 0)])) = .ok 1 := by
  change Except.ok (vusCkm 0 3.62e-3 4.221e-2 1.27) = _
  unfold vusCkm
  rw [if_pos rfl]

theorem zero_physical : PhysicalEW (withPar defaultPar (some [("Vus", 0)])) 1.1663787e-5 80.385 91.1876 (1 / 127.9) := by
  obtain ⟨h1, h2, h3, h4, h5⟩ := default_physical
  refine ⟨?_, ?_, ?_, ?_, h5, ‹_›, ‹_›, ‹_›, ‹_›⟩ <;> simp [withPar, Dict.upd, Dict.put, defaultPar, Dict.find]

/-- The gluon dipole in Warsaw up, and after matching. -/
theorem exDip_path {ckm : ℝ → ℝ → ℝ → ℝ → M3} {V : M3} (par : Option Par) (hV : ckmOf ckm (withPar defaultPar par) = .ok V) :
    ∃ D, warsawToWarsawUp ckm allFlat defaultPar exDip par = .ok D ∧ Dict.WF D ∧ (∀ key ∈ Dict.keys D, IsFlat key) ∧
      NoShift (flatSrc D) ∧ entries D "dG" [0, 0] = (V 0 0) := by
  obtain ⟨D, hD, hwD, hfD, hcov⟩ := up_cov (up := allFlat) exDip_wf exDip_flat hV (fun k op i => mem_allFlat)
  refine ⟨D, hD, hwD, hfD, ?_, ?_⟩
  · have h := exDip_noShift
    exact ⟨by rw [hcov.ll]; exact h.ll, by rw [hcov.phil3]; exact h.phil3, by rw [hcov.phiWB]; exact h.phiWB⟩
  · have hp : Plain "dG" := isOp_plain dG_op
    have hm := congrFun (hcov.mt "dG" _ _ dG_op) (0, 0)
    rw [dG_src] at hm
    have hs : ∀ p q : Fin 3, (flatSrc exDip).mt "dG" (p, q) = if p = 0 ∧ q = 0 then 1 else 0 := fun p q => by
      rw [dG_src, exDip_entries hp]
      simp
    refine hm.trans ?_
    simp only [rot2, smark, hs]
    simp [Fin.sum_univ_three, Mark.inv, Spec.b, Spec.n, Matrix.one_apply]

/-- **C51** fails when the parameters change the CKM matrix: one path uses the given parameters, the other the
default ones. -/
theorem C51_refuted : ∃ (ckm : ℝ → ℝ → ℝ → ℝ → M3) (up jms : List String) (w w1 w2 w3 : WC) (par : Par),
    (∀ a b c g, (ckm a b c g).conjTranspose * ckm a b c g = 1) ∧ (∀ k op i, IsOp k op → Indep op i → label k i ∈ up) ∧
    (∀ fl, applyFn fl (warsawToJms ckm up jms defaultPar) "WET" "JMS" w (some par) = .ok w1 ∧
      applyFn fl (registeredSmeft (warsawToWarsawUp ckm up defaultPar)) "SMEFT" "Warsaw up" w (some par) = .ok w2 ∧
      applyFn fl (warsawUpToJms ckm jms defaultPar) "WET" "JMS" w2 (some par) = .ok w3) ∧ w1 ≠ w3 := by
  obtain ⟨D1, a1, a2, a3, a4, a5⟩ := exDip_path (some [("Vus", 0)]) vusCkm_zero
  obtain ⟨D2, b1, b2, b3, b4, b5⟩ := exDip_path none vusCkm_default
  have b3' : ∀ key ∈ Dict.keys (nz D2), IsFlat key := fun key hk => b3 key ((Dict.keys_filt_sublist _ _).subset hk)
  have b2' : Dict.WF (nz D2) := Dict.WF_filt b2
  have b4' : NoShift (flatSrc (nz D2)) := by
    have e1 : (flatSrc (nz D2)).tn = (flatSrc D2).tn := by rw [flatSrc_nz b2]
    have e2 : (flatSrc (nz D2)).mt = (flatSrc D2).mt := by rw [flatSrc_nz b2]
    have e3 : (flatSrc (nz D2)).phiWB = (flatSrc D2).phiWB := by rw [flatSrc_nz b2]
    exact ⟨by rw [e1]; exact b4.ll, by rw [e2]; exact b4.phil3, by rw [e3]; exact b4.phiWB⟩
  obtain ⟨r1, v1, h1, h2, h3, h4⟩ := exDip_match vusCkm D1 a2 a3 a4 (some [("Vus", 0)]) zero_physical ⟨_, vusCkm_zero⟩
  obtain ⟨r3, v3, g1, g2, g3, g4⟩ :=
    exDip_match vusCkm (nz D2) b2' b3' b4' (some [("Vus", 0)]) zero_physical ⟨_, vusCkm_zero⟩
  obtain rfl : v3 = v1 := g3.trans h3.symm
  refine ⟨vusCkm, allFlat, dipL, ⟨"SMEFT", "Warsaw", 91, .obj (dict2values exDip), .none, []⟩,
    ⟨"WET", "JMS", 91, .obj (dict2values (nz r1)), .none, []⟩, ⟨"SMEFT", "Warsaw up", 91, .obj (dict2values (nz D2)), .none, []⟩,
    ⟨"WET", "JMS", 91, .obj (dict2values (nz r3)), .none, []⟩, [("Vus", 0)], vusCkm_unitary, fun k op i => mem_allFlat,
    fun fl => ⟨?_, ?_, ?_⟩, ?_⟩
  · rw [applyFn_eq, dict_result, ok_bind, warsawToJms, a1, ok_bind, h1]; rfl
  · rw [applyFn_eq, dict_result, ok_bind, registeredSmeft, b1]; rfl
  · rw [applyFn_eq, dict_result, ok_bind, warsawUpToJms, g1]; rfl
  · intro e
    have e1 := congrArg (WC.dict fun _ => none) e
    rw [dict_result, dict_result] at e1
    have e2 : Dict.getD (nz r1) (label "dG" [0, 0]) 0 = Dict.getD (nz r3) (label "dG" [0, 0]) 0 := by
      rw [Except.ok.inj e1]
    rw [getD_nz (matchAll_wf h1), getD_nz (matchAll_wf g1), h4, g4, entries_nz b2, a5, b5] at e2
    have e3 : v3 = v3 * (1 / 3) := by simpa [exV, Matrix.one_apply] using e2
    apply h2
    linear_combination (3 / 2) * e3

/-- C51 for the gluon dipole with default parameters: both paths give the same object, and it is not empty. -/
example (fl : String → Option ℝ) : ∃ d w1,
    applyFn fl (warsawToJms vusCkm allFlat dipL defaultPar) "WET" "JMS"
      ⟨"SMEFT", "Warsaw", 91, .obj (dict2values exDip), .none, []⟩ none = .ok w1 ∧
    (applyFn fl (registeredSmeft (warsawToWarsawUp vusCkm allFlat defaultPar)) "SMEFT" "Warsaw up"
      ⟨"SMEFT", "Warsaw", 91, .obj (dict2values exDip), .none, []⟩ none >>= fun w2 =>
        applyFn fl (warsawUpToJms vusCkm dipL defaultPar) "WET" "JMS" w2 none) = .ok w1 ∧
    w1.dict fl = .ok d ∧ Dict.getD d "dG_11" 0 ≠ 0 := by
  obtain ⟨D1, a1, a2, a3, a4, a5⟩ := exDip_path none vusCkm_default
  obtain ⟨r1, v1, h1, h2, h3, h4⟩ := exDip_match vusCkm D1 a2 a3 a4 none default_physical ⟨_, vusCkm_default⟩
  have hl : "dG_11" = label "dG" [0, 0] := by decide +kernel
  have h : applyFn fl (warsawToJms vusCkm allFlat dipL defaultPar) "WET" "JMS"
      ⟨"SMEFT", "Warsaw", 91, .obj (dict2values exDip), .none, []⟩ none =
      .ok ⟨"WET", "JMS", 91, .obj (dict2values (nz r1)), .none, []⟩ := by
    rw [applyFn_eq, dict_result, ok_bind, warsawToJms, a1, ok_bind, h1]; rfl
  refine ⟨nz r1, _, h, ?_, dict_result _ _ _ _ _, ?_⟩
  · rw [← C51_commutes_partial fl vusCkm allFlat dipL defaultPar _ none rfl fun d hd => ?_, h]
    rw [dict_result] at hd
    obtain rfl := Except.ok.inj hd
    exact ⟨exDip_wf, exDip_flat⟩
  · rw [getD_nz (matchAll_wf h1), hl, h4, a5]
    refine mul_ne_zero h2 ?_
    simp [exV]

/-- C52 for the gluon dipole: matching to any of the bases succeeds. -/
example (fl : String → Option ℝ) (t : WT) : ∃ w1 w2,
    applyFn fl (warsawToJms exEnv.ckm allFlat dipL defaultPar) "WET" "JMS"
      ⟨"SMEFT", "Warsaw", 160, .obj (dict2values exDip), .none, []⟩ none = .ok w1 ∧
    applyFn fl (t.run exEnv) "WET" "other" w1 none = .ok w2 ∧
    applyFn fl (warsawToVia (t.run exEnv) exEnv.ckm allFlat dipL defaultPar) "WET" "other"
      ⟨"SMEFT", "Warsaw", 160, .obj (dict2values exDip), .none, []⟩ none = .ok w2 := by
  obtain ⟨D1, a1, a2, a3, a4, a5⟩ := exDip_path (ckm := exEnv.ckm) (V := exV) none rfl
  obtain ⟨r1, v1, h1, h2, h3, h4⟩ := exDip_match exEnv.ckm D1 a2 a3 a4 none default_physical ⟨exV, rfl⟩
  have h : applyFn fl (warsawToJms exEnv.ckm allFlat dipL defaultPar) "WET" "JMS"
      ⟨"SMEFT", "Warsaw", 160, .obj (dict2values exDip), .none, []⟩ none =
      .ok ⟨"WET", "JMS", 160, .obj (dict2values (nz r1)), .none, []⟩ := by
    rw [applyFn_eq, dict_result, ok_bind, warsawToJms, a1, ok_bind, h1]; rfl
  obtain ⟨o, ho⟩ := C45_total exEnv_ok exP_admissible t (exEnv_ready t) (nz r1)
  have h' : applyFn fl (t.run exEnv) "WET" "other" ⟨"WET", "JMS", 160, .obj (dict2values (nz r1)), .none, []⟩ none =
      .ok ⟨"WET", "other", 160, .obj (dict2values (nz o)), .none, []⟩ := by
    rw [applyFn_eq, dict_result, ok_bind, ho]; rfl
  refine ⟨_, _, h, h', ?_⟩
  rw [C52_commutes, h]
  exact h'

/-- C50 for the gluon dipole: a store with an EFT and a basis of one coefficient, against which the result validates. -/
example (fl : String → Option ℝ) :
    let st := run [.newEFT "WET" [("a", .null)] [], .newBasis "WET" "JMS" [("a", .obj [("dG_11", .null)])] []]
    ∃ w1, applyFn fl (warsawToJms vusCkm allFlat ["dG_11"] defaultPar) "WET" "JMS"
      ⟨"SMEFT", "Warsaw", 91, .obj (dict2values exDip), .none, []⟩ none = .ok w1 ∧ validateWC st w1 = .ok () := by
  intro st
  obtain ⟨D1, a1, a2, a3, a4, a5⟩ := exDip_path none vusCkm_default
  obtain ⟨w, e1, -⟩ := ew_ok default_physical a4
  obtain ⟨w0, e2, -⟩ := ew_ok default_physical (noShift_zero (flatSrc D1))
  obtain ⟨r, h1⟩ : ∃ r, matchAll vusCkm ["dG_11"] defaultPar D1 none = .ok r :=
    ⟨_, matchAll_intro (default := defaultPar) (par := none) ["dG_11"] a2 a3 e1 e2 vusCkm_default⟩
  have h : applyFn fl (warsawToJms vusCkm allFlat ["dG_11"] defaultPar) "WET" "JMS"
      ⟨"SMEFT", "Warsaw", 91, .obj (dict2values exDip), .none, []⟩ none =
      .ok ⟨"WET", "JMS", 91, .obj (dict2values (nz r)), .none, []⟩ := by
    rw [applyFn_eq, dict_result, ok_bind, warsawToJms, a1, ok_bind, h1]; rfl
  exact ⟨_, h, C50_validates fl st rfl rfl rfl _ _ _ _ _ _ (.inr h)⟩

end Verif
