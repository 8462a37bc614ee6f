import Verif.Lemmas.WetBlk
import Verif.Lemmas.WetKeysEq
import Verif.Lemmas.WetArrayLemmas

/-! The WET translators as linear maps: EOS, FormFlavor, and the closed form of all of them. -/

set_option autoImplicit false

namespace Verif

variable {P : PEnv} {S : Type}

/-! ### EOS -/

/-- Tables of the five four-quark dictionaries read by `_Fierz_to_EOS_V`. -/
noncomputable def eosDicts : Dict String (Block JSrc) :=
  [("Fsbuu", okOr (jmsFierzV "sbuu")), ("Fsbdd", okOr (jmsFierzV "sbdd")), ("Fsbcc", okOr (jmsFierzV "sbcc")),
   ("Fsbss", okOr (jmsFierzV "sbss")), ("Fsbbb", okOr (jmsFierzV "sbbb"))]

/-- Table of `callEosV`. -/
noncomputable def blkEosV (P : PEnv) : Block JSrc :=
  (okOr (fierzEosV P)).map fun p =>
    (p.1, p.2.bind fun s => Dict.getD (ν := Ex JSrc) (Dict.getD (ν := Block JSrc) eosDicts s.1 []) s.2 Ex.zero)

/-- Tables of `JMS_to_EOS`. -/
noncomputable def blkEos (P : PEnv) : List (Block JSrc) :=
  (["e", "mu"].map fun l => comp (okOr (jmsBernII (nameLep "ub" (l, l)))) (okOr (bernEosII P (nameLep "ub" (l, l))))) ++
  [blkEosV P,
   comp (okOr (jmsFierzLep "sbl_enu_e")) (okOr (fierzEosLep P "sbl_enu_e")),
   comp (okOr (jmsFierzLep "sbl_munu_mu")) (okOr (fierzEosLep P "sbl_munu_mu")),
   comp (okOr (jmsFierzChrom "sb")) (okOr (fierzEosChrom P "sb"))]

theorem fierzEosLep_eq (hP : Spec.Admissible P) (x : String) :
    fierzEosLep P x = .ok (scaleBy (prefEosv P)
      (fierzEosLepTable (indLep x) (String.ofList ((indLep x).toList.drop 2)) (k16v P))) := by
  unfold fierzEosLep
  rw [e_ok hP, except_ok_bind, divE_ok (sq_ne (ev_ne hP)), except_ok_bind, prefEos_ok hP, except_ok_bind]; rfl

theorem fierzEosV_eq (hP : Spec.Admissible P) : fierzEosV P = .ok (scaleBy (prefEosv P) fierzEosVTable) := by
  unfold fierzEosV
  rw [prefEos_ok hP, except_ok_bind]; rfl

theorem fierzEosChrom_eq (hP : Spec.Admissible P) (hm : P.p.m_b ^ 2 ≠ P.p.m_s ^ 2) (dd : String) :
    ∃ eb es gb gS den, fierzEosChrom P dd = .ok (scaleBy (prefEosv P) (fierzEosChromTable dd eb es gb gS den)) := by
  have : ((P.p.m_b ^ 2 - P.p.m_s ^ 2 : ℝ) : ℂ) ≠ 0 := by exact_mod_cast sub_ne_zero.2 hm
  refine ⟨16 * Real.pi ^ 2 * P.p.m_b / ev P, 16 * Real.pi ^ 2 * P.p.m_s / ev P, 16 * Real.pi ^ 2 * P.p.m_b / gv P,
    16 * Real.pi ^ 2 * P.p.m_s / gv P, P.p.m_b ^ 2 - P.p.m_s ^ 2, ?_⟩
  unfold fierzEosChrom
  rw [e_ok hP, except_ok_bind, gs_ok hP, except_ok_bind, divE_ok (ev_ne hP), except_ok_bind, divE_ok (ev_ne hP),
    except_ok_bind, divE_ok (gv_ne hP), except_ok_bind, divE_ok (gv_ne hP), except_ok_bind]
  dsimp only
  rw [divC_ok this, except_ok_bind, prefEos_ok hP, except_ok_bind]; rfl

theorem mem_namesV : ∀ x ∈ ["sbuu", "sbdd", "sbcc", "sbss", "sbbb"], x ∈ namesV := by decide +kernel

theorem bkeys_jmsFierzV {x : String} (hx : x ∈ namesV) : bkeys (okOr (jmsFierzV x)) = bkeys (fierzDDUU x 0 0 0 0) := by
  rcases namesV_split x hx with hx | hx
  · obtain ⟨f1, f2, f3, f4, h3, h4, h⟩ := jmsFierzV_u hx
    rw [h]; rfl
  · obtain ⟨f1, f2, f3, f4, h⟩ := jmsFierzV_d hx
    rw [h]; rfl

section

variable {rd : JSrc → Except PyErr ℂ} {v : JSrc → ℂ}

theorem callEosV_eq (hP : Spec.Admissible P) (hrd : ∀ s, Spec.IsJms s → rd s = .ok (v s)) :
    callEosV P rd = .ok (bval v (blkEosV P)) := by
  unfold callEosV
  have h : ∀ x ∈ ["sbuu", "sbdd", "sbcc", "sbss", "sbbb"], call rd (jmsFierzV x) = .ok (bval v (okOr (jmsFierzV x))) :=
    fun x hx => call_reads hrd (reads_jmsFierzV (mem_namesV x hx))
  rw [h "sbuu" (by simp), except_ok_bind, h "sbdd" (by simp), except_ok_bind, h "sbcc" (by simp), except_ok_bind,
    h "sbss" (by simp), except_ok_bind, h "sbbb" (by simp), except_ok_bind]
  rw [fierzEosV_eq hP]
  have hf : ∀ x ∈ ["sbuu", "sbdd", "sbcc", "sbss", "sbbb"], ∀ n ∈ ["1", "2", "3", "4"],
      Dict.get (bval v (okOr (jmsFierzV x))) ("F" ++ x ++ n) =
        .ok ((Dict.getD (ν := Ex JSrc) (okOr (jmsFierzV x)) ("F" ++ x ++ n) Ex.zero).val v) := by
    intro x hx n hn
    rw [← getD_bval, Dict.get]
    cases hc : Dict.find (bval v (okOr (jmsFierzV x))) ("F" ++ x ++ n) with
    | some y => simp [Dict.getD, hc]
    | none =>
      exfalso
      rw [Dict.find_eq_none_iff, keys_bval, bkeys_jmsFierzV (mem_namesV x hx)] at hc
      apply hc
      simp only [List.mem_cons, List.not_mem_nil, or_false] at hn
      rcases hn with rfl | rfl | rfl | rfl <;> simp [bkeys, fierzDDUU]
  refine (call_ok (v := fun s => (Dict.getD (ν := Ex JSrc) (Dict.getD (ν := Block JSrc) eosDicts s.1 []) s.2 Ex.zero).val v) ?_).trans ?_
  · rw [bsources_scaleBy]
    intro s hs
    have hs' : s ∈ (["sbuu", "sbdd", "sbcc", "sbss", "sbbb"].flatMap fun x => ["1", "2", "3", "4"].map fun n => ("F" ++ x, "F" ++ x ++ n)) := by
      simp only [bsources, fierzEosVTable, List.flatMap_cons, List.flatMap_nil, Ex.sources_add, Ex.sources_sub,
        Ex.sources_div, Ex.sources_mul, key2, Ex.sources_src, List.append_nil, List.cons_append, List.nil_append] at hs
      revert s
      decide +kernel
    obtain ⟨x, hx, hs'⟩ := List.mem_flatMap.1 hs'
    obtain ⟨n, hn, rfl⟩ := List.mem_map.1 hs'
    have h1 := hf x hx n hn
    simp only [List.mem_cons, List.not_mem_nil, or_false] at hx
    rcases hx with rfl | rfl | rfl | rfl | rfl
    · exact h1
    · exact h1
    · exact h1
    · exact h1
    · exact h1
  · unfold blkEosV
    rw [fierzEosV_eq hP, okOr_ok]
    simp only [bval, List.map_map, Function.comp_def, Ex.val_bind]

theorem jobsEos_eq (hP : Spec.Admissible P) (hm : P.p.m_b ^ 2 ≠ P.p.m_s ^ 2) (hrd : ∀ s, Spec.IsJms s → rd s = .ok (v s)) :
    jobsEos P rd = (blkEos P).map fun b => .ok (bval v b) := by
  have hII : ∀ l ∈ ["e", "mu"], nameLep "ub" (l, l) ∈ namesII := by decide +kernel
  have hlep : ∀ x ∈ ["sbl_enu_e", "sbl_munu_mu"], x ∈ namesLep "sb" := by decide +kernel
  have hl : ∀ x ∈ ["sbl_enu_e", "sbl_munu_mu"],
      call2 rd (jmsFierzLep x) (fierzEosLep P x) = .ok (bval v (comp (okOr (jmsFierzLep x)) (okOr (fierzEosLep P x)))) := by
    intro x hx
    refine call2_reads hrd (reads_jmsFierzLep (qq := "sb") (by simp) (hlep x hx)) ?_
    obtain ⟨s, b, l, lp, h⟩ := jmsFierzLep_eq (qq := "sb") (by simp) (hlep x hx)
    refine .mk' (fierzEosLep_eq hP x) ?_
    rw [h, okOr_ok, bsources_scaleBy]
    simp [bsources, fierzEosLepTable, bkeys, jmsFierzLepTable]
  unfold jobsEos blkEos
  rw [List.map_append]
  refine congrArg₂ _ ?_ ?_
  · rw [List.map_map]
    refine List.map_congr_left fun l hl => ?_
    refine call2_reads hrd (reads_jmsBernII (hII l hl)) ?_
    obtain ⟨u, d, l', lp, -, h, h'⟩ := jmsBernII_eq (hII l hl)
    refine .mk' (bernEosII_eq hP h') ?_
    rw [h, okOr_ok, bsources_scaleBy]
    simp [bsources, bernEosIITable, bkeys, jmsBernIITable]
  · simp only [List.map_cons, List.map_nil]
    rw [callEosV_eq hP hrd, hl _ (by simp), hl _ (by simp)]
    have hc : call2 rd (jmsFierzChrom "sb") (fierzEosChrom P "sb") =
        .ok (bval v (comp (okOr (jmsFierzChrom "sb")) (okOr (fierzEosChrom P "sb")))) := by
      refine call2_reads hrd (reads_jmsFierzChrom (by simp)) ?_
      obtain ⟨s, b, h⟩ := jmsFierzChrom_eq (qq := "sb") (by simp)
      obtain ⟨eb, es, gb, gS, den, h'⟩ := fierzEosChrom_eq hP hm "sb"
      refine .mk' h' ?_
      rw [h, okOr_ok, bsources_scaleBy]
      simp [bsources, fierzEosChromTable, bkeys, jmsFierzChromTable]
    rw [hc]

end

/-! ### FormFlavor -/

/-- Tables of `JMS_to_FormFlavor`. -/
noncomputable def blkFormFlavor (P : PEnv) : List (Block JSrc) :=
  (["sb", "db", "ds", "uc"].map fun qq => comp (okOr (jmsBernI qq)) (okOr (bernFormFlavorI qq))) ++
  [okOr (jmsFormFlavorLep "bs"), okOr (jmsFormFlavorLep "bd")] ++
  (["sb", "db", "uu", "dd", "mt", "em", "et"].map fun x => okOr (formFlavorChrom P x))

theorem jmsFormFlavorLep_bs : jmsFormFlavorLep "bs" = .ok (jmsFormFlavorLepTable "bs" 2 1) := rfl
theorem jmsFormFlavorLep_bd : jmsFormFlavorLep "bd" = .ok (jmsFormFlavorLepTable "bd" 2 0) := rfl

theorem formFlavorChrom_eq (hP : Spec.Admissible P) :
    formFlavorChrom P "sb" = .ok (formFlavorDownTable "sb" 1 2 (ev P) (gv P)) ∧
    formFlavorChrom P "db" = .ok (formFlavorDownTable "db" 0 2 (ev P) (gv P)) ∧
    formFlavorChrom P "uu" = .ok (formFlavorUpTable "uu" 0 0 (ev P) (gv P)) ∧
    formFlavorChrom P "dd" = .ok (formFlavorDownTable "dd" 0 0 (ev P) (gv P)) ∧
    formFlavorChrom P "mt" = .ok (formFlavorLepTable "mt" 1 2 (ev P) (gv P)) ∧
    formFlavorChrom P "em" = .ok (formFlavorLepTable "em" 0 1 (ev P) (gv P)) ∧
    formFlavorChrom P "et" = .ok (formFlavorLepTable "et" 0 2 (ev P) (gv P)) := by
  have h1 : (ev P : ℂ) ≠ 0 := by exact_mod_cast ev_ne hP
  have h2 : (gv P : ℂ) ≠ 0 := by exact_mod_cast gv_ne hP
  unfold formFlavorChrom
  simp only [e_ok hP, gs_ok hP, except_ok_bind, divC_ok h1, divC_ok h2]
  refine ⟨?_, ?_, ?_, ?_, ?_, ?_, ?_⟩
  · rw [if_pos (by decide +kernel)]; rfl
  · rw [if_pos (by decide +kernel)]; rfl
  · rw [if_neg (by decide +kernel), if_neg (by decide +kernel), if_pos (by decide +kernel)]; rfl
  · rw [if_pos (by decide +kernel)]; rfl
  · rw [if_neg (by decide +kernel), if_pos (by decide +kernel)]; rfl
  · rw [if_neg (by decide +kernel), if_pos (by decide +kernel)]; rfl
  · rw [if_neg (by decide +kernel), if_pos (by decide +kernel)]; rfl

theorem reads_formFlavorChrom (hP : Spec.Admissible P) :
    ∀ x ∈ ["sb", "db", "uu", "dd", "mt", "em", "et"], Reads Spec.IsJms (formFlavorChrom P x) := by
  have r : ∀ n ∈ ["dgamma", "dG", "egamma"], (n, [3, 3]) ∈ Spec.jmsRanges := by decide +kernel
  have r' : ∀ n ∈ ["ugamma", "uG"], (n, [2, 2]) ∈ Spec.jmsRanges := by decide +kernel
  obtain ⟨h1, h2, h3, h4, h5, h6, h7⟩ := formFlavorChrom_eq hP
  have down : ∀ qq s b, ∀ x ∈ bsources (formFlavorDownTable qq s b (ev P) (gv P)), Spec.IsJms x := by
    intro qq s b
    simp only [bsources, formFlavorDownTable, List.flatMap_cons, List.flatMap_nil, List.forall_mem_append,
      List.forall_mem_cons, Ex.sources_cj, Ex.sources_div, Ex.sources_src, List.not_mem_nil, IsEmpty.forall_iff, forall_const, and_true]
    repeat' apply And.intro
    all_goals exact isJms2 (r _ (by simp)) (Fin.isLt _) (Fin.isLt _)
  have lep : ∀ qq s b, ∀ x ∈ bsources (formFlavorLepTable qq s b (ev P) (gv P)), Spec.IsJms x := by
    intro qq s b
    simp only [bsources, formFlavorLepTable, List.flatMap_cons, List.flatMap_nil, List.forall_mem_append,
      List.forall_mem_cons, Ex.sources_cj, Ex.sources_div, Ex.sources_src, List.not_mem_nil, IsEmpty.forall_iff, forall_const, and_true]
    repeat' apply And.intro
    all_goals exact isJms2 (r _ (by simp)) (Fin.isLt _) (Fin.isLt _)
  have up : ∀ qq, ∀ x ∈ bsources (formFlavorUpTable qq 0 0 (ev P) (gv P)), Spec.IsJms x := by
    intro qq
    simp only [bsources, formFlavorUpTable, List.flatMap_cons, List.flatMap_nil, List.forall_mem_append,
      List.forall_mem_cons, Ex.sources_cj, Ex.sources_div, Ex.sources_src, List.not_mem_nil, IsEmpty.forall_iff, forall_const, and_true]
    repeat' apply And.intro
    all_goals exact isJms2 (r' _ (by simp)) (by decide) (by decide)
  intro x hx
  simp only [List.mem_cons, List.not_mem_nil, or_false] at hx
  rcases hx with rfl | rfl | rfl | rfl | rfl | rfl | rfl
  · exact .mk' h1 (down _ _ _)
  · exact .mk' h2 (down _ _ _)
  · exact .mk' h3 (up _)
  · exact .mk' h4 (down _ _ _)
  · exact .mk' h5 (lep _ _ _)
  · exact .mk' h6 (lep _ _ _)
  · exact .mk' h7 (lep _ _ _)

theorem reads_jmsFormFlavorLep {dd : String} {b s : Fin 3} (h : jmsFormFlavorLep dd = .ok (jmsFormFlavorLepTable dd b s)) :
    Reads Spec.IsJms (jmsFormFlavorLep dd) := by
  refine .mk' h ?_
  have r : ∀ n ∈ ["VedLL", "VedRR", "VedLR", "VdeLR", "SedRR", "SedRL", "TedRR", "VnudLL", "VnudLR"],
      (n, [3, 3, 3, 3]) ∈ Spec.jmsRanges := by decide +kernel
  simp only [bsources, jmsFormFlavorLepTable, List.flatMap_cons, List.flatMap_nil,
    List.forall_mem_cons, Ex.sources_cj, Ex.sources_mul, Ex.sources_add, Ex.sources_src, List.not_mem_nil, IsEmpty.forall_iff,
    forall_const, and_true, List.cons_append, List.nil_append]
  repeat' apply And.intro
  all_goals exact isJms3333 _ _ _ _ (r _ (by simp))

theorem jobsFormFlavor_eq {rd : JSrc → Except PyErr ℂ} {v : JSrc → ℂ} (hP : Spec.Admissible P)
    (hrd : ∀ s, Spec.IsJms s → rd s = .ok (v s)) :
    jobsFormFlavor P rd = (blkFormFlavor P).map fun b => .ok (bval v b) := by
  unfold jobsFormFlavor blkFormFlavor
  simp only [List.map_append, List.map_map, Function.comp_def]
  refine congrArg₂ _ (congrArg₂ _ ?_ ?_) ?_
  · refine List.map_congr_left fun qq hq => ?_
    by_cases hq3 : qq ∈ ["sb", "db", "ds"]
    · refine call2_reads hrd (reads_jmsBernI hq3) ?_
      obtain ⟨i, j, h⟩ := jmsBernI_eq hq3
      refine .mk' (t := bernFormFlavorITable qq (pyRev qq)) (if_pos hq) ?_
      rw [h, okOr_ok]
      simp [bsources, bernFormFlavorITable, bkeys, jmsBernIDown]
    · have hu : qq = "uc" := by
        simp only [List.mem_cons, List.not_mem_nil, or_false] at hq hq3; tauto
      subst hu
      have h : jmsBernI "uc" = .ok (jmsBernIUp "uc") := rfl
      refine call2_reads hrd (.mk' h ?_) ?_
      · have r : ∀ n ∈ ["VuuLL", "VuuRR", "V1uuLR", "V8uuLR", "S1uuRR", "S8uuRR"], (n, [2, 2, 2, 2]) ∈ Spec.jmsRanges := by
          decide +kernel
        simp only [bsources, jmsBernIUp, List.flatMap_cons, List.flatMap_nil,
          List.forall_mem_cons, Ex.sources_cj, Ex.sources_src, Ex.sources_add, Ex.sources_sub, Ex.sources_neg,
          Ex.sources_div, Ex.sources_mul, List.not_mem_nil, IsEmpty.forall_iff, forall_const, and_true, List.cons_append,
          List.nil_append]
        repeat' apply And.intro
        all_goals exact isJms4 (r _ (by simp)) (by decide) (by decide) (by decide) (by decide)
      · refine .mk' (t := bernFormFlavorITable "uc" (pyRev "uc")) (if_pos hq) ?_
        rw [h, okOr_ok]
        simp [bsources, bernFormFlavorITable, bkeys, jmsBernIUp]
  · simp only [List.map_cons, List.map_nil]
    rw [call_reads hrd (reads_jmsFormFlavorLep jmsFormFlavorLep_bs), call_reads hrd (reads_jmsFormFlavorLep jmsFormFlavorLep_bd)]
  · exact List.map_congr_left fun x hx => call_reads hrd (reads_formFlavorChrom hP x hx)

/-! ### Closed forms -/

theorem put_mapVals {ν ν' : Type} (f : ν → ν') (d : Dict String ν) (k : String) (x : ν) :
    Dict.put (Dict.mapVals f d) k (f x) = Dict.mapVals f (Dict.put d k x) := by
  induction d with
  | nil => rfl
  | cons p d ih =>
    have : Dict.mapVals f (p :: d) = (p.1, f p.2) :: Dict.mapVals f d := rfl
    rw [this, Dict.put, Dict.put]
    by_cases h : p.1 = k
    · simp only [h, if_true]; rfl
    · simp only [h, if_false, ih]; rfl

theorem ofPairs_mapVals {ν ν' : Type} (f : ν → ν') (l : Dict String ν) :
    Dict.ofPairs (Dict.mapVals f l) = Dict.mapVals f (Dict.ofPairs l) := by
  have : ∀ d : Dict String ν, Dict.upd (Dict.mapVals f d) (Dict.mapVals f l) = Dict.mapVals f (Dict.upd d l) := by
    induction l with
    | nil => intro d; rfl
    | cons p l ih =>
      intro d
      have : Dict.mapVals f (p :: l) = (p.1, f p.2) :: Dict.mapVals f l := rfl
      rw [this, Dict.upd_cons, Dict.upd_cons, put_mapVals, ih]
  exact this []

theorem ofPairs_bval (v : S → ℂ) (b : Block S) : Dict.ofPairs (bval v b) = bval v (Dict.ofPairs b) :=
  ofPairs_mapVals (fun e : Ex S => e.val v) b

end Verif
