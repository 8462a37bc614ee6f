import Verif.Props.WetRound

/-!
C46 and C47: the neutrino and dipole coefficients of FormFlavor.

Both claims are false. The `s -> d` neutrino coefficients are read from the `b`-`d` entries of the tensors, and the left-handed
lepton dipoles are divided by `g_s`. What holds is proved: the flavour average of those entries, and the mirror symmetry for
quarks.
-/

set_option autoImplicit false

namespace Verif

open Spec

variable {E : WEnv} {P : PEnv} {scale : ℝ} {par : Option Par}

theorem find_ofPairs_mid {ν : Type} {A B D : List (String × ν)} {k : String} {e : ν} (hB : (B.map Prod.fst).Nodup) (he : (k, e) ∈ B)
    (hD : k ∉ D.map Prod.fst) : Dict.find (Dict.ofPairs (A ++ B ++ D)) k = some e := by
  have h0 : ∀ (l : List (String × ν)) (d : Dict String ν), k ∉ l.map Prod.fst → Dict.find (Dict.upd d l) k = Dict.find d k := by
    intro l
    induction l with
    | nil => intro d _; rfl
    | cons p l ih =>
      intro d hk
      rw [List.map_cons, List.mem_cons, not_or] at hk
      rw [Dict.upd_cons, ih _ hk.2, Dict.find_put, if_neg (Ne.symm hk.1)]
  unfold Dict.ofPairs
  rw [Dict.upd_append, h0 D _ hD, Dict.upd_append, Dict.find_upd hB, Dict.find_of_mem hB he]; rfl

/-- The last two sets of updates of `JMS_to_FormFlavor`. -/
theorem blkFormFlavor_eq (hP : Admissible P) : ∃ A, (blkFormFlavor P).flatten =
    A ++ jmsFormFlavorLepTable "bd" 2 0 ++
      (formFlavorDownTable "sb" 1 2 (ev P) (gv P) ++ formFlavorDownTable "db" 0 2 (ev P) (gv P) ++
       formFlavorUpTable "uu" 0 0 (ev P) (gv P) ++ formFlavorDownTable "dd" 0 0 (ev P) (gv P) ++
       formFlavorLepTable "mt" 1 2 (ev P) (gv P) ++ formFlavorLepTable "em" 0 1 (ev P) (gv P) ++
       formFlavorLepTable "et" 0 2 (ev P) (gv P)) := by
  obtain ⟨h1, h2, h3, h4, h5, h6, h7⟩ := formFlavorChrom_eq hP
  unfold blkFormFlavor
  simp only [List.flatten_append, List.map_cons, List.map_nil, List.flatten_cons, List.flatten_nil, h1, h2, h3, h4, h5, h6, h7,
    jmsFormFlavorLep_bs, jmsFormFlavorLep_bd, okOr_ok]
  refine ⟨comp (okOr (jmsBernI "sb")) (okOr (bernFormFlavorI "sb")) ++ comp (okOr (jmsBernI "db")) (okOr (bernFormFlavorI "db")) ++
    comp (okOr (jmsBernI "ds")) (okOr (bernFormFlavorI "ds")) ++ comp (okOr (jmsBernI "uc")) (okOr (bernFormFlavorI "uc")) ++
    jmsFormFlavorLepTable "bs" 2 1, ?_⟩
  simp only [List.append_assoc, List.append_nil]

/-- Names of the dipole coefficients. -/
def ffDipoles : List String :=
  ["CAR_sb", "CGR_sb", "CAL_sb", "CGL_sb", "CAR_db", "CGR_db", "CAL_db", "CGL_db", "CAR_uu", "CGR_uu", "CAL_uu", "CGL_uu",
   "CAR_dd", "CGR_dd", "CAL_dd", "CGL_dd", "CAR_mt", "CAL_mt", "CAR_em", "CAL_em", "CAR_et", "CAL_et"]

/-- The dipole tables with literal names. -/
theorem ffDipoles_eq (P : PEnv) : (formFlavorDownTable "sb" 1 2 (ev P) (gv P) ++ formFlavorDownTable "db" 0 2 (ev P) (gv P) ++
       formFlavorUpTable "uu" 0 0 (ev P) (gv P) ++ formFlavorDownTable "dd" 0 0 (ev P) (gv P) ++
       formFlavorLepTable "mt" 1 2 (ev P) (gv P) ++ formFlavorLepTable "em" 0 1 (ev P) (gv P) ++
       formFlavorLepTable "et" 0 2 (ev P) (gv P)).map Prod.fst = ffDipoles := by
  simp only [List.map_append, formFlavorDownTable, formFlavorUpTable, formFlavorLepTable, List.map_cons, List.map_nil]
  decide +kernel

/-- What `JMS_to_FormFlavor` reads for its neutrino and dipole coefficients. -/
theorem ff_values (hp : penv E scale par = .ok P) (hP : Admissible P) (hL : JmsListing E.jms) (C : Dict String ℂ) :
    ∃ Ca d, jmsToArray E.jms C = .ok Ca ∧ (∀ s, IsJms s → readArr Ca s = .ok (jval E.jms C s)) ∧
      jmsToFormFlavor E C scale par = .ok d ∧
      (∀ p ∈ jmsFormFlavorLepTable "bd" 2 0, p.1 ∈ ["CVLL_sdnn", "CVRL_sdnn"] →
        Dict.find d p.1 = some (p.2.val (jval E.jms C))) ∧
      (∀ p ∈ formFlavorDownTable "sb" 1 2 (ev P) (gv P) ++ formFlavorDownTable "db" 0 2 (ev P) (gv P) ++
       formFlavorUpTable "uu" 0 0 (ev P) (gv P) ++ formFlavorDownTable "dd" 0 0 (ev P) (gv P) ++
       formFlavorLepTable "mt" 1 2 (ev P) (gv P) ++ formFlavorLepTable "em" 0 1 (ev P) (gv P) ++
       formFlavorLepTable "et" 0 2 (ev P) (gv P), Dict.find d p.1 = some (p.2.val (jval E.jms C))) := by
  obtain ⟨Ca, h1, h2⟩ := jms_readable hL C
  obtain ⟨A, hA⟩ := blkFormFlavor_eq hP
  have hd := jmsToFormFlavor_closed hp hP hL C
  rw [hA] at hd
  have f : ∀ k e, Dict.find (Dict.ofPairs (blkFormFlavor P).flatten) k = some e →
      Dict.find (bval (jval E.jms C) (Dict.ofPairs (blkFormFlavor P).flatten)) k = some (e.val (jval E.jms C)) := by
    intro k e h
    have : bval (jval E.jms C) (Dict.ofPairs (blkFormFlavor P).flatten) =
        Dict.mapVals (fun e : Ex JSrc => e.val (jval E.jms C)) (Dict.ofPairs (blkFormFlavor P).flatten) := rfl
    rw [this, Dict.find_mapVals, h]; rfl
  rw [hA] at f
  have lepKeys : (jmsFormFlavorLepTable "bd" 2 0).map Prod.fst =
      ["CVLL_bdmm", "CVRR_bdmm", "CVLR_bdmm", "CVRL_bdmm", "CSLL_bdmm", "CSRR_bdmm", "CSLR_bdmm", "CSRL_bdmm", "CTLL_bdmm", "CTRR_bdmm",
       "CVLL_sdnn", "CVRL_sdnn"] := by
    simp only [jmsFormFlavorLepTable, List.map_cons, List.map_nil]
    decide +kernel
  refine ⟨Ca, _, h1, h2, hd, ?_, ?_⟩
  · intro p hp' hk
    refine f p.1 p.2 (find_ofPairs_mid ?_ hp' ?_)
    · rw [lepKeys]; decide +kernel
    · rw [ffDipoles_eq]
      revert hk
      generalize p.1 = k
      revert k
      have : ∀ k ∈ ["CVLL_sdnn", "CVRL_sdnn"], k ∉ ffDipoles := by decide +kernel
      exact fun k hk => this k hk
  · intro p hp'
    refine f p.1 p.2 ?_
    have := find_ofPairs_mid (A := A ++ jmsFormFlavorLepTable "bd" 2 0) (D := []) (k := p.1) (e := p.2) ?_ hp' (by simp)
    · rwa [List.append_nil] at this
    · rw [ffDipoles_eq]; decide +kernel

namespace Spec

/-- Average over the neutrino flavours of the entries `q r` of a tensor. -/
def IsAverage (Ca : Dict String NArr) (op : String) (q r : Fin 3) (v : ℂ) : Prop :=
  ∃ a b c, readArr Ca (op, [0, 0, q, r]) = .ok a ∧ readArr Ca (op, [1, 1, q, r]) = .ok b ∧ readArr Ca (op, [2, 2, q, r]) = .ok c ∧
    v = (a + b + c) / 3

/-- Electromagnetic and strong coupling. -/
noncomputable def coupling (a : ℝ) : ℝ := Real.sqrt (4 * Real.pi * a)

end Spec

theorem isJms_nu (op : String) (h : op ∈ ["VnudLL", "VnudLR"]) (a b c d : Fin 3) : IsJms (op, [a, b, c, d]) := by
  have r : ∀ n ∈ ["VnudLL", "VnudLR"], (n, [3, 3, 3, 3]) ∈ jmsRanges := by decide +kernel
  exact isJms3333 _ _ _ _ (r op h)

/-- **C46**, what holds: the coefficients are flavour averages, but of the entries with indices `b d` (3 1). Missing: the
claim is about the indices `s` and `d`. -/
theorem C46_partial (hp : penv E scale par = .ok P) (hP : Admissible P) (hL : JmsListing E.jms) (C : Dict String ℂ) :
    ∃ Ca d, jmsToArray E.jms C = .ok Ca ∧ jmsToFormFlavor E C scale par = .ok d ∧
      (∃ v, Dict.find d "CVLL_sdnn" = some v ∧ IsAverage Ca "VnudLL" 2 0 v) ∧
      (∃ v, Dict.find d "CVRL_sdnn" = some v ∧ IsAverage Ca "VnudLR" 2 0 v) := by
  obtain ⟨Ca, d, h1, h2, h3, h4, -⟩ := ff_values hp hP hL C
  have t := fun op h a b c d => h2 _ (isJms_nu op h a b c d)
  simp only [jmsFormFlavorLepTable, List.forall_mem_cons] at h4
  obtain ⟨-, -, -, -, -, -, -, -, -, -, f1, f2, -⟩ := h4
  refine ⟨Ca, d, h1, h3, ⟨_, f1 (by simp), _, _, _, t "VnudLL" (by simp) _ _ _ _, t "VnudLL" (by simp) _ _ _ _,
    t "VnudLL" (by simp) _ _ _ _, ?_⟩, ⟨_, f2 (by simp), _, _, _, t "VnudLR" (by simp) _ _ _ _,
    t "VnudLR" (by simp) _ _ _ _, t "VnudLR" (by simp) _ _ _ _, ?_⟩⟩
  all_goals
    simp only [Ex.val_add, Ex.val_mul, Ex.val_src, axisPred]
    ring

/-- Values of listed coefficients. -/
theorem read_listed {C : Dict String ℂ} {Ca : Dict String NArr} (h : jmsToArray allJms C = .ok Ca) {p : String × List ℕ}
    (hp : p ∈ jmsRanges) {i : List (Fin 3)} (hi : i.length = p.2.length) :
    readArr Ca (p.1, i) = .ok (Dict.getD C (label p.1 i) 0) := by
  obtain ⟨rank, hr⟩ := allJms_listing.listing
  obtain ⟨Ca', h1, h2, -⟩ := C39_partial hr C
  rw [h] at h1
  obtain rfl := Except.ok.inj h1
  refine h2 p.1 i (jmsRanges_plain p hp).1 ?_ ?_
  · intro h0
    rw [h0] at hi
    exact (jmsRanges_plain p hp).2 (List.length_eq_zero_iff.1 hi.symm)
  · exact List.mem_flatMap.2 ⟨p, hp, List.mem_map.2 ⟨i, (mem_allIdx (jmsRank_spec p hp).2).2 hi, rfl⟩⟩

/-- **C46** is false, for both orders of the indices `s` and `d`. -/
theorem C46_refuted : ∀ q r : Fin 3, (q, r) = (0, 1) ∨ (q, r) = (1, 0) →
    ¬ ∀ (E : WEnv) (P : PEnv) (scale : ℝ) (par : Option Par), penv E scale par = .ok P → Admissible P → JmsListing E.jms →
      ∀ (C : Dict String ℂ) (Ca : Dict String NArr) (d : Dict String ℂ), jmsToArray E.jms C = .ok Ca →
        jmsToFormFlavor E C scale par = .ok d → ∃ v, Dict.find d "CVLL_sdnn" = some v ∧ IsAverage Ca "VnudLL" q r v := by
  intro q r hqr h
  obtain ⟨Ca, d, h1, h2, ⟨v, hv, a, b, c, ha, hb, hc, rfl⟩, -⟩ :=
    C46_partial exEnv_ok exP_admissible allJms_listing [("VnudLL_1131", 1)]
  obtain ⟨v', hv', a', b', c', ha', hb', hc', rfl⟩ := h _ _ _ _ exEnv_ok exP_admissible allJms_listing _ _ _ h1 h2
  rw [hv] at hv'
  have m : (("VnudLL", [3, 3, 3, 3]) : String × List ℕ) ∈ jmsRanges := by decide +kernel
  have rd : ∀ i : List (Fin 3), i.length = 4 → readArr Ca ("VnudLL", i) = .ok (Dict.getD [("VnudLL_1131", (1 : ℂ))] (label "VnudLL" i) 0) :=
    fun i hi => read_listed h1 m hi
  rw [rd _ rfl] at ha hb hc ha' hb' hc'
  have e1 : label "VnudLL" [0, 0, 2, 0] = "VnudLL_1131" := by decide +kernel
  have e2 : label "VnudLL" [1, 1, 2, 0] ≠ "VnudLL_1131" := by decide +kernel
  have e3 : label "VnudLL" [2, 2, 2, 0] ≠ "VnudLL_1131" := by decide +kernel
  have e4 : ∀ l : Fin 3, label "VnudLL" [l, l, q, r] ≠ "VnudLL_1131" := by
    rcases hqr with hqr | hqr <;> · obtain ⟨rfl, rfl⟩ := Prod.ext_iff.1 hqr; decide +kernel
  simp only [Dict.getD, Dict.find, e1, e2.symm, e3.symm, (e4 0).symm, (e4 1).symm, (e4 2).symm, if_true, if_false, Option.getD,
    Except.ok.injEq] at ha hb hc ha' hb' hc'
  rw [← ha, ← hb, ← hc, ← ha', ← hb', ← hc'] at hv'
  norm_num at hv'

/-- Quark dipoles of FormFlavor: pair, photon and gluon operator, flavours. -/
def ffQuarks : List (String × String × String × Fin 3 × Fin 3) :=
  [("sb", "dgamma", "dG", 1, 2), ("db", "dgamma", "dG", 0, 2), ("uu", "ugamma", "uG", 0, 0), ("dd", "dgamma", "dG", 0, 0)]

/-- Lepton dipoles of FormFlavor. -/
def ffLeptons : List (String × Fin 3 × Fin 3) := [("mt", 1, 2), ("em", 0, 1), ("et", 0, 2)]

/-- **C47**, what holds: quark dipoles are mirror images with the same normalisation; for leptons the left-handed one is
divided by the strong coupling instead of the electromagnetic one (what is missing). -/
theorem C47_partial (hp : penv E scale par = .ok P) (hP : Admissible P) (hL : JmsListing E.jms) (C : Dict String ℂ) :
    ∃ Ca d, jmsToArray E.jms C = .ok Ca ∧ jmsToFormFlavor E C scale par = .ok d ∧
      (∀ t ∈ ffQuarks, ∃ a a' g g', readArr Ca (t.2.1, [t.2.2.2.1, t.2.2.2.2]) = .ok a ∧ readArr Ca (t.2.1, [t.2.2.2.2, t.2.2.2.1]) = .ok a' ∧
        readArr Ca (t.2.2.1, [t.2.2.2.1, t.2.2.2.2]) = .ok g ∧ readArr Ca (t.2.2.1, [t.2.2.2.2, t.2.2.2.1]) = .ok g' ∧
        Dict.find d ("CAR_" ++ t.1) = some (a / coupling P.p.alpha_e) ∧
        Dict.find d ("CAL_" ++ t.1) = some (star a' / coupling P.p.alpha_e) ∧
        Dict.find d ("CGR_" ++ t.1) = some (g / coupling P.p.alpha_s) ∧
        Dict.find d ("CGL_" ++ t.1) = some (star g' / coupling P.p.alpha_s)) ∧
      (∀ t ∈ ffLeptons, ∃ a a', readArr Ca ("egamma", [t.2.1, t.2.2]) = .ok a ∧ readArr Ca ("egamma", [t.2.2, t.2.1]) = .ok a' ∧
        Dict.find d ("CAR_" ++ t.1) = some (a / coupling P.p.alpha_e) ∧
        Dict.find d ("CAL_" ++ t.1) = some (star a' / coupling P.p.alpha_s)) := by
  obtain ⟨Ca, d, h1, h2, h3, -, h4⟩ := ff_values hp hP hL C
  have r : ∀ n ∈ ["dgamma", "dG", "egamma"], (n, [3, 3]) ∈ jmsRanges := by decide +kernel
  have r' : ∀ n ∈ ["ugamma", "uG"], (n, [2, 2]) ∈ jmsRanges := by decide +kernel
  have rd : ∀ n ∈ ["dgamma", "dG", "egamma"], ∀ i j : Fin 3, readArr Ca (n, [i, j]) = .ok (jval E.jms C (n, [i, j])) :=
    fun n hn i j => h2 _ (isJms2 (r n hn) (Fin.isLt _) (Fin.isLt _))
  have ru : ∀ n ∈ ["ugamma", "uG"], readArr Ca (n, [0, 0]) = .ok (jval E.jms C (n, [0, 0])) :=
    fun n hn => h2 _ (isJms2 (r' n hn) (by decide) (by decide))
  simp only [List.forall_mem_append] at h4
  obtain ⟨⟨⟨⟨⟨⟨t1, t2⟩, t3⟩, t4⟩, t5⟩, t6⟩, t7⟩ := h4
  have down : ∀ q s b, (∀ p ∈ formFlavorDownTable q s b (ev P) (gv P), Dict.find d p.1 = some (p.2.val (jval E.jms C))) →
      ∃ a a' g g', readArr Ca ("dgamma", [s, b]) = .ok a ∧ readArr Ca ("dgamma", [b, s]) = .ok a' ∧
        readArr Ca ("dG", [s, b]) = .ok g ∧ readArr Ca ("dG", [b, s]) = .ok g' ∧
        Dict.find d ("CAR_" ++ q) = some (a / coupling P.p.alpha_e) ∧
        Dict.find d ("CAL_" ++ q) = some (star a' / coupling P.p.alpha_e) ∧
        Dict.find d ("CGR_" ++ q) = some (g / coupling P.p.alpha_s) ∧
        Dict.find d ("CGL_" ++ q) = some (star g' / coupling P.p.alpha_s) := by
    intro q s b h
    simp only [formFlavorDownTable, List.forall_mem_cons] at h
    obtain ⟨f1, f2, f3, f4, -⟩ := h
    exact ⟨_, _, _, _, rd _ (by simp) _ _, rd _ (by simp) _ _, rd _ (by simp) _ _, rd _ (by simp) _ _, f1, f3, f2, f4⟩
  have lep : ∀ q s b, (∀ p ∈ formFlavorLepTable q s b (ev P) (gv P), Dict.find d p.1 = some (p.2.val (jval E.jms C))) →
      ∃ a a', readArr Ca ("egamma", [s, b]) = .ok a ∧ readArr Ca ("egamma", [b, s]) = .ok a' ∧
        Dict.find d ("CAR_" ++ q) = some (a / coupling P.p.alpha_e) ∧
        Dict.find d ("CAL_" ++ q) = some (star a' / coupling P.p.alpha_s) := by
    intro q s b h
    simp only [formFlavorLepTable, List.forall_mem_cons] at h
    obtain ⟨f1, f2, -⟩ := h
    exact ⟨_, _, rd _ (by simp) _ _, rd _ (by simp) _ _, f1, f2⟩
  refine ⟨Ca, d, h1, h3, ?_, ?_⟩
  · simp only [ffQuarks, List.forall_mem_cons]
    refine ⟨down _ _ _ t1, down _ _ _ t2, ?_, down _ _ _ t4, by simp⟩
    simp only [formFlavorUpTable, List.forall_mem_cons] at t3
    obtain ⟨f1, f2, f3, f4, -⟩ := t3
    exact ⟨_, _, _, _, ru _ (by simp), ru _ (by simp), ru _ (by simp), ru _ (by simp), f1, f3, f2, f4⟩
  · simp only [ffLeptons, List.forall_mem_cons]
    exact ⟨lep _ _ _ t5, lep _ _ _ t6, lep _ _ _ t7, by simp⟩

/-- **C47** is false for leptons: the left-handed dipole is not the conjugate of the opposite pair divided by `e`. -/
theorem C47_refuted : ¬ ∀ (E : WEnv) (P : PEnv) (scale : ℝ) (par : Option Par), penv E scale par = .ok P → Admissible P →
    JmsListing E.jms → ∀ (C : Dict String ℂ) (Ca : Dict String NArr) (d : Dict String ℂ), jmsToArray E.jms C = .ok Ca →
    jmsToFormFlavor E C scale par = .ok d → ∀ t ∈ ffLeptons, ∃ a', readArr Ca ("egamma", [t.2.2, t.2.1]) = .ok a' ∧
      Dict.find d ("CAL_" ++ t.1) = some (star a' / coupling P.p.alpha_e) := by
  intro h
  obtain ⟨Ca, d, h1, h2, -, h3⟩ := C47_partial exEnv_ok exP_admissible allJms_listing [("egamma_32", 1)]
  obtain ⟨a, a1, -, ha, -, h4⟩ := h3 ("mt", 1, 2) (by simp [ffLeptons])
  obtain ⟨a', ha', h5⟩ := h _ _ _ _ exEnv_ok exP_admissible allJms_listing _ _ _ h1 h2 ("mt", 1, 2) (by simp [ffLeptons])
  rw [ha] at ha'
  obtain rfl := Except.ok.inj ha'
  have m : (("egamma", [3, 3]) : String × List ℕ) ∈ jmsRanges := by decide +kernel
  have e1 : label "egamma" [2, 1] = "egamma_32" := by decide +kernel
  have e := read_listed h1 m (i := [2, 1]) rfl
  rw [ha] at e
  simp only [e1, Dict.getD, Dict.find, if_true, Option.getD, Except.ok.injEq] at e
  subst e
  rw [h4] at h5
  have h6 := Option.some.inj h5
  simp only [star_one, exP] at h6
  have h7 : coupling (1 / 5) = coupling (1 / 127.9) := by
    have := congrArg (fun z : ℂ => z⁻¹) h6
    simp only [one_div, inv_inv] at this
    rw [one_div, one_div]
    exact_mod_cast this
  unfold coupling at h7
  have h8 := (Real.sqrt_inj (by positivity) (by positivity)).1 h7
  have := Real.pi_pos
  have h9 : (1 / 5 : ℝ) = 1 / 127.9 := mul_left_cancel₀ (by positivity : (4 * Real.pi : ℝ) ≠ 0) h8
  norm_num at h9

/-- Non-trivial instance: a quark dipole and a neutrino coefficient. -/
example : ∃ d, jmsToFormFlavor exEnv [("dgamma_32", 2 * Complex.I), ("VnudLL_1131", 3)] 160 none = .ok d ∧
    Dict.find d "CAL_sb" = some (-(2 * Complex.I) / coupling (1 / 127.9)) ∧ Dict.find d "CVLL_sdnn" = some 1 := by
  obtain ⟨Ca, d, h1, h2, h3, -⟩ := C47_partial exEnv_ok exP_admissible allJms_listing [("dgamma_32", 2 * Complex.I), ("VnudLL_1131", 3)]
  obtain ⟨Ca', d', h1', h2', ⟨v, hv, a, b, c, ha, hb, hc, e⟩, -⟩ :=
    C46_partial exEnv_ok exP_admissible allJms_listing [("dgamma_32", 2 * Complex.I), ("VnudLL_1131", 3)]
  obtain rfl := Except.ok.inj (h1.symm.trans h1')
  obtain rfl := Except.ok.inj (h2.symm.trans h2')
  refine ⟨d, h2, ?_, ?_⟩
  · obtain ⟨-, a', -, -, -, ha', -, -, -, h4, -⟩ := h3 ("sb", "dgamma", "dG", 1, 2) (by simp [ffQuarks])
    have e1 : label "dgamma" [2, 1] = "dgamma_32" := by decide +kernel
    have e := read_listed h1 (p := ("dgamma", [3, 3])) (by decide +kernel) (i := [2, 1]) rfl
    rw [ha'] at e
    simp only [e1, Dict.getD, Dict.find, if_true, Option.getD, Except.ok.injEq] at e
    subst e
    have e2 : "CAL_" ++ "sb" = "CAL_sb" := by decide +kernel
    rw [e2] at h4
    rw [h4]
    simp [exP]
  · rw [hv, e]
    have m : (("VnudLL", [3, 3, 3, 3]) : String × List ℕ) ∈ jmsRanges := by decide +kernel
    rw [read_listed h1 m rfl] at ha hb hc
    have e1 : label "VnudLL" [0, 0, 2, 0] = "VnudLL_1131" := by decide +kernel
    have e2 : label "VnudLL" [1, 1, 2, 0] = "VnudLL_2231" := by decide +kernel
    have e3 : label "VnudLL" [2, 2, 2, 0] = "VnudLL_3331" := by decide +kernel
    simp only [e1, e2, e3, Dict.getD, Dict.find, String.reduceEq, if_true, if_false, Option.getD, Except.ok.injEq] at ha hb hc
    rw [← ha, ← hb, ← hc]; norm_num

end Verif
