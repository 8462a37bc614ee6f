import Verif.Lemmas.WetRound
import Verif.Props.WetLinear

/-! C40, C41, C42: JMS, Bern and flavio. -/

set_option autoImplicit false

namespace Verif

open Spec

variable {E : WEnv} {P : PEnv} {scale : ℝ} {par : Option Par}

theorem bval_flatten {S : Type} (v : S → ℂ) (bs : List (Block S)) : bval v bs.flatten = (bs.map (bval v)).flatten := by
  simp only [bval, List.map_flatten]; rfl

/-- The prefactor of the Bern basis cancels. -/
theorem bval_pref {r : ℝ} (hr : (r : ℂ) ≠ 0) (w : String → ℂ) (b : Block String) :
    bval (fun k => (r : ℂ) * w k) (divideBy r b) = bval w b := by
  rw [bval_divideBy, bval_real]
  simp only [Dict.mapVals, List.map_map]
  conv_rhs => rw [← List.map_id (bval w b)]
  refine List.map_congr_left fun p _ => ?_
  simp only [Function.comp_def]
  rw [mul_div_cancel_left₀ _ hr]; rfl

section

variable {w : String → ℂ} {v : JSrc → ℂ}

/-- Tables read from JMS and from Bern give the same flavio coefficients. -/
theorem direct_blocks (hP : Admissible P) (v : JSrc → ℂ) :
    (blkBernFlavio P).map (bval (bat v (blkJmsBern P).flatten)) = (blkJmsFlavio P).map (bval v) := by
  have hn : (bkeys (blkJmsBern P).flatten).Nodup := by rw [bkeys_blkJmsBern hP]; exact keysJmsBern_nodup
  have hw : ∀ b ∈ blkJmsBern P, ∀ k ∈ bkeys b, bat v (blkJmsBern P).flatten k = bat v b k :=
    fun b hb k hk => bat_flatten hn hb hk v
  generalize bat v (blkJmsBern P).flatten = w at hw
  have lep : ∀ qq ∈ ["sb", "db", "ds"], ∀ l ∈ leptonPairs, ∀ c,
      bval w (comp (okOr (bernFierzLep (nameLep qq l))) (okOr (fierzFlavioLep P (nameLep qq l) c))) =
      bval v (comp (okOr (jmsFierzLep (nameLep qq l))) (okOr (fierzFlavioLep P (nameLep qq l) c))) := by
    intro qq hq l hl c
    have hm : comp (okOr (jmsFierzLep (nameLep qq l))) (okOr (fierzBernLep (nameLep qq l))) ∈ blkJmsBern P := by
      simp only [List.mem_cons, List.not_mem_nil, or_false] at hq
      unfold blkJmsBern
      refine List.mem_append_left _ (List.mem_append_right _ (List.mem_flatMap.2 ⟨l, hl, ?_⟩))
      rcases hq with rfl | rfl | rfl <;> simp
    have hx := mem_namesLep qq hl
    rw [bval_comp', bval_comp']
    refine bval_congr fun k hk => ?_
    have hk' : k ∈ bkeys (bernFierzLepTable (indLep (nameLep qq l))) := (bern_fierzFlavioLep hP hq hx c).src k hk
    have e : ∀ j ∈ bsources (bernFierzLepTable (indLep (nameLep qq l))),
        w j = bat (bat v (okOr (jmsFierzLep (nameLep qq l)))) (fierzBernLepTable (indLep (nameLep qq l))) j := by
      intro j hj
      rw [hw _ hm, bat_comp]; · rfl
      rw [bkeys_comp]
      revert j
      simp [bsources, bernFierzLepTable, bkeys, fierzBernLepTable, fierzBernLep]
    exact (bat_congr e k).trans (lep_round _ _ k hk')
  have chrom : ∀ qq ∈ ["sb", "db"],
      bval w (comp (okOr (bernFierzChrom P qq)) (okOr (fierzFlavioChrom P qq))) =
      bval v (comp (okOr (jmsFierzChrom qq)) (okOr (fierzFlavioChrom P qq))) := by
    intro qq hq
    have hm : comp (okOr (jmsFierzChrom qq)) (okOr (fierzBernChrom P qq)) ∈ blkJmsBern P := by
      simp only [List.mem_cons, List.not_mem_nil, or_false] at hq
      unfold blkJmsBern
      refine List.mem_append_right _ ?_
      rcases hq with rfl | rfl <;> simp
    rw [bval_comp', bval_comp']
    refine bval_congr fun k hk => ?_
    have hk' := (bern_fierzFlavioChrom hP (sub3 hq)).src k hk
    rw [fierzBernChrom_eq hP] at hm
    rw [bernFierzChrom_eq hP] at hk' ⊢
    have e : ∀ j ∈ bsources (bernFierzChromTable qq (kgv P) (kgsv P)),
        w j = bat (bat v (okOr (jmsFierzChrom qq))) (fierzBernChromTable qq (kgv P) (kgsv P)) j := by
      intro j hj
      rw [hw _ hm, bat_comp]; · rfl
      rw [bkeys_comp]
      revert j
      simp [bsources, bernFierzChromTable, bkeys, fierzBernChromTable]
    exact (bat_congr e k).trans (chrom_round qq (kgv_ne hP) (kgsv_ne hP) _ k hk')
  unfold blkBernFlavio blkJmsFlavio
  simp only [List.map_append, List.map_map, List.map_flatMap, Function.comp_def]
  refine congrArg₂ _ (congrArg₂ _ (congrArg₂ _ ?_ ?_) ?_) ?_
  · refine List.map_congr_left fun qq hq => ?_
    rw [bval_comp']
    refine bval_congr fun k hk => hw _ ?_ k ((reads_bernFlavioI hq).src k hk)
    unfold blkJmsBern
    exact List.mem_append_left _ (List.mem_append_left _ (List.mem_append_left _ (List.mem_append_left _
      (List.mem_map.2 ⟨qq, hq, rfl⟩))))
  · refine List.map_congr_left fun x hx => ?_
    rw [bval_comp']
    refine bval_congr fun k hk => hw _ ?_ k ((reads_bernFlavioII hP hx).src k hk)
    unfold blkJmsBern
    exact List.mem_append_left _ (List.mem_append_left _ (List.mem_append_left _ (List.mem_append_right _
      (List.mem_map.2 ⟨x, hx, rfl⟩))))
  · refine List.flatMap_congr fun l hl => ?_
    simp only [List.map_cons, List.map_nil]
    rw [lep "sb" (by simp) l hl, lep "db" (by simp) l hl, lep "ds" (by simp) l hl]
  · simp only [List.map_cons, List.map_nil]
    rw [chrom "sb" (by simp), chrom "db" (by simp)]

end

/-- **C40**: translating JMS to Bern and then to flavio gives the same dictionary as the direct translation. The
intermediate dictionary may drop or add zero coefficients (`B'`). -/
theorem C40_direct (hp : penv E scale par = .ok P) (hP : Admissible P) (hL : JmsListing E.jms)
    (hB : ∀ k ∈ bernNames, k ∈ E.bern) (C B B' : Dict String ℂ) (h : jmsToBern E C scale par = .ok B)
    (h' : ∀ k, Dict.getD B' k 0 = Dict.getD B k 0) : bernToFlavio E B' scale par = jmsToFlavio E C scale par := by
  rw [bernToFlavio_closed hp hP hB, jmsToFlavio_closed hp hP hL]
  rw [jmsToBern_closed hp hP hL] at h
  injection h with h
  have e : sval B' = fun k => (prefBernv P : ℂ) * bat (jval E.jms C) (blkJmsBern P).flatten k := by
    funext k
    rw [← bat_scaleBy, bat, h]; exact h' k
  rw [e, bval_pref (prefBernv_ne hP), bval_flatten, bval_flatten, direct_blocks hP]

theorem getD_filt {d : Dict String ℂ} (hd : Dict.WF d) (k : String) :
    Dict.getD (Dict.filt (fun _ v => decide (v ≠ 0)) d) k 0 = Dict.getD d k 0 := by
  rw [Dict.getD, Dict.find_filt hd, Dict.getD]
  cases h : Dict.find d k with
  | none => rfl
  | some v =>
    by_cases hv : v = 0
    · subst hv; simp [Option.filter]
    · simp [Option.filter, hv]

/-- Non-trivial instance: three operators, with the zero coefficients dropped in between. -/
example : ∃ B, jmsToBern exEnv [("VedLL_1123", 2 + 4 * Complex.I), ("VddLL_2323", 2), ("dG_23", 6)] 160 none = .ok B ∧
    bernToFlavio exEnv (Dict.filt (fun _ v => decide (v ≠ 0)) B) 160 none =
      jmsToFlavio exEnv [("VedLL_1123", 2 + 4 * Complex.I), ("VddLL_2323", 2), ("dG_23", 6)] 160 none := by
  have h := jmsToBern_closed exEnv_ok exP_admissible allJms_listing
    [("VedLL_1123", 2 + 4 * Complex.I), ("VddLL_2323", 2), ("dG_23", 6)]
  refine ⟨_, h, C40_direct exEnv_ok exP_admissible allJms_listing (fun k hk => hk) _ _ _ h fun k => getD_filt ?_ k⟩
  apply WF_bval
  rw [bkeys_scaleBy, bkeys_blkJmsBern exP_admissible]; exact keysJmsBern_nodup

/-! ### Names and blocks -/

theorem namesII_mem : ∀ u ∈ ["u", "c"], ∀ d ∈ ["d", "s", "b"], ∀ l ∈ leptons, ∀ lp ∈ leptons,
    nameLep (u ++ d) (l, lp) ∈ namesII := by
  intro u hu d hd l hl lp hlp
  refine List.mem_flatMap.2 ⟨(l, lp), List.mem_flatMap.2 ⟨l, hl, List.mem_map.2 ⟨lp, hlp, rfl⟩⟩, List.mem_map.2 ⟨u ++ d, ?_, rfl⟩⟩
  revert u d
  decide +kernel

theorem indII_eq : ∀ u ∈ ["u", "c"], ∀ d ∈ ["d", "s", "b"], ∀ l ∈ leptons, ∀ lp ∈ leptons,
    indIIfl (nameLep (u ++ d) (l, lp)) = d ++ (u ++ (l ++ ("nu" ++ lp))) ∧
    indII (nameLep (u ++ d) (l, lp)) = u ++ (d ++ (l ++ lp)) := by decide +kernel

theorem indLep_eq : ∀ qq ∈ ["sb", "db", "ds"], ∀ l ∈ leptons, ∀ lp ∈ leptons,
    indLepFl (nameLep qq (l, lp)) = pyRev qq ++ (l ++ lp) ∧
    indNuFl (nameLep qq (l, lp)) = pyRev qq ++ ("nu" ++ (l ++ ("nu" ++ lp))) ∧
    indLep (nameLep qq (l, lp)) = qq ++ (l ++ lp) := by decide +kernel

theorem leptonPairs_mem {l lp : String} (hl : l ∈ leptons) (hlp : lp ∈ leptons) : (l, lp) ∈ leptonPairs :=
  List.mem_flatMap.2 ⟨l, hl, List.mem_map.2 ⟨lp, hlp, rfl⟩⟩

theorem leptonPairs_elim {p : String × String} (h : p ∈ leptonPairs) : p.1 ∈ leptons ∧ p.2 ∈ leptons := by
  obtain ⟨l, hl, h⟩ := List.mem_flatMap.1 h
  obtain ⟨lp, hlp, rfl⟩ := List.mem_map.1 h
  exact ⟨hl, hlp⟩

theorem words_elim {a b : List String} {k : String} (h : k ∈ words a b) : ∃ x ∈ a, ∃ y ∈ b, k = x ++ y := by
  obtain ⟨x, hx, h⟩ := List.mem_flatMap.1 h
  obtain ⟨y, hy, rfl⟩ := List.mem_map.1 h
  exact ⟨x, hx, y, hy, rfl⟩

/-- Every flavio coefficient belongs to one of the tables. -/
theorem flavioNames_elim {k : String} (h : k ∈ flavioNames) :
    (∃ qq ∈ ["sb", "db", "ds"], k ∈ keysFlI (pyRev qq)) ∨ (∃ x ∈ namesII, k ∈ keysFlII x) ∨
    (∃ qq ∈ ["sb", "db"], ∃ l ∈ leptonPairs, k ∈ keysFlNu (nameLep qq l) ++ keysFlLep (nameLep qq l)) ∨
    (∃ qq ∈ ["sb", "db"], k ∈ keysFlChrom (pyRev qq)) := by
  unfold flavioNames at h
  simp only [List.mem_append] at h
  rcases h with (((h | h) | h) | h) | h
  · obtain ⟨n, hn, y, hy, rfl⟩ := words_elim h
    have : ∀ y ∈ ["bsbs", "bdbd", "sdsd"], ∃ qq ∈ ["sb", "db", "ds"], y = pyRev qq ++ pyRev qq := by decide +kernel
    obtain ⟨qq, hq, rfl⟩ := this y hy
    exact .inl ⟨qq, hq, List.mem_map.2 ⟨n, hn, rfl⟩⟩
  · obtain ⟨n, hn, y1, hy1, rfl⟩ := words_elim h
    obtain ⟨d, hd, y2, hy2, rfl⟩ := words_elim hy1
    obtain ⟨u, hu, y3, hy3, rfl⟩ := words_elim hy2
    obtain ⟨l, hl, y4, hy4, rfl⟩ := words_elim hy3
    obtain ⟨nu, hnu, lp, hlp, rfl⟩ := words_elim hy4
    obtain rfl := List.mem_singleton.1 hnu
    rw [← (indII_eq u hu d hd l hl lp hlp).1]
    exact .inr (.inl ⟨_, namesII_mem u hu d hd l hl lp hlp, List.mem_map.2 ⟨n, hn, rfl⟩⟩)
  · obtain ⟨n, hn, y1, hy1, rfl⟩ := words_elim h
    obtain ⟨q, hq0, y2, hy2, rfl⟩ := words_elim hy1
    obtain ⟨l, hl, lp, hlp, rfl⟩ := words_elim hy2
    have : ∀ y ∈ ["bs", "bd"], ∃ qq ∈ ["sb", "db"], y = pyRev qq := by decide +kernel
    obtain ⟨qq, hq, rfl⟩ := this q hq0
    rw [← (indLep_eq qq (sub3 hq) l hl lp hlp).1]
    exact .inr (.inr (.inl ⟨qq, hq, _, leptonPairs_mem hl hlp, List.mem_append_right _ (List.mem_map.2 ⟨n, hn, rfl⟩)⟩))
  · obtain ⟨n, hn, y1, hy1, rfl⟩ := words_elim h
    obtain ⟨q, hq0, y2, hy2, rfl⟩ := words_elim hy1
    obtain ⟨nu, hnu, y3, hy3, rfl⟩ := words_elim hy2
    obtain rfl := List.mem_singleton.1 hnu
    obtain ⟨l, hl, y4, hy4, rfl⟩ := words_elim hy3
    obtain ⟨nu, hnu, lp, hlp, rfl⟩ := words_elim hy4
    obtain rfl := List.mem_singleton.1 hnu
    have : ∀ y ∈ ["bs", "bd"], ∃ qq ∈ ["sb", "db"], y = pyRev qq := by decide +kernel
    obtain ⟨qq, hq, rfl⟩ := this q hq0
    rw [← (indLep_eq qq (sub3 hq) l hl lp hlp).2.1]
    exact .inr (.inr (.inl ⟨qq, hq, _, leptonPairs_mem hl hlp, List.mem_append_left _ (List.mem_map.2 ⟨n, hn, rfl⟩)⟩))
  · obtain ⟨n, hn, y, hy, rfl⟩ := words_elim h
    have : ∀ y ∈ ["bs", "bd"], ∃ qq ∈ ["sb", "db"], y = pyRev qq := by decide +kernel
    obtain ⟨qq, hq, rfl⟩ := this y hy
    exact .inr (.inr (.inr ⟨qq, hq, List.mem_map.2 ⟨n, hn, rfl⟩⟩))

/-- Coefficients of Bern that flavio represents one by one. -/
def keptNames : List String :=
  words ["1", "2", "3", "4", "5", "1p", "2p", "3p"] ["sbsb", "dbdb", "dsds"] ++
  words ["1", "5", "1p", "5p", "7p"] (words ["u", "c"] (words ["d", "s", "b"] (words leptons leptons))) ++
  words ["1", "3", "5", "9", "1p", "3p", "5p", "9p", "nu1", "nu1p"] (words ["sb", "db"] (words leptons leptons)) ++
  words ["7gamma", "8g", "7pgamma", "8pg"] ["sb", "db"]

theorem keptNames_elim {k : String} (h : k ∈ keptNames) :
    (∃ qq ∈ ["sb", "db", "ds"], k ∈ keysI qq) ∨ (∃ x ∈ namesII, k ∈ keysIIb x) ∨
    (∃ qq ∈ ["sb", "db"], ∃ l ∈ leptonPairs, ∃ n ∈ ["1", "3", "5", "9", "1p", "3p", "5p", "9p", "nu1", "nu1p"],
      k = n ++ indLep (nameLep qq l)) ∨
    (∃ qq ∈ ["sb", "db"], k ∈ keysChrom qq) := by
  unfold keptNames at h
  simp only [List.mem_append] at h
  rcases h with ((h | h) | h) | h
  · obtain ⟨n, hn, y, hy, rfl⟩ := words_elim h
    have : ∀ y ∈ ["sbsb", "dbdb", "dsds"], ∃ qq ∈ ["sb", "db", "ds"], y = qq ++ qq := by decide +kernel
    obtain ⟨qq, hq, rfl⟩ := this y hy
    exact .inl ⟨qq, hq, List.mem_map.2 ⟨n, hn, rfl⟩⟩
  · obtain ⟨n, hn, y1, hy1, rfl⟩ := words_elim h
    obtain ⟨u, hu, y2, hy2, rfl⟩ := words_elim hy1
    obtain ⟨d, hd, y3, hy3, rfl⟩ := words_elim hy2
    obtain ⟨l, hl, lp, hlp, rfl⟩ := words_elim hy3
    rw [← (indII_eq u hu d hd l hl lp hlp).2]
    refine .inr (.inl ⟨_, namesII_mem u hu d hd l hl lp hlp, List.mem_map.2 ⟨n, ?_, rfl⟩⟩)
    simp only [List.mem_cons, List.not_mem_nil, or_false] at hn ⊢; tauto
  · obtain ⟨n, hn, y1, hy1, rfl⟩ := words_elim h
    obtain ⟨qq, hq, y2, hy2, rfl⟩ := words_elim hy1
    obtain ⟨l, hl, lp, hlp, rfl⟩ := words_elim hy2
    rw [← (indLep_eq qq (sub3 hq) l hl lp hlp).2.2]
    exact .inr (.inr (.inl ⟨qq, hq, _, leptonPairs_mem hl hlp, n, hn, rfl⟩))
  · obtain ⟨n, hn, qq, hq, rfl⟩ := words_elim h
    exact .inr (.inr (.inr ⟨qq, hq, List.mem_map.2 ⟨n, hn, rfl⟩⟩))

theorem pyRev_pyRev3 : ∀ qq ∈ ["sb", "db", "ds"], pyRev (pyRev qq) = qq ∧ pyRev qq ∈ ["bs", "bd", "sd"] := by decide +kernel

theorem mem_keysFlavioBern_code {k : String} (h : scode k ∉ codesFlavioBern) : k ∉ keysFlavioBern := by
  intro hk
  rw [← codesFlavioBern_eq] at h
  exact h (List.mem_map.2 ⟨k, hk, rfl⟩)

theorem dsnu_lost : ∀ l ∈ leptonPairs, ∀ n ∈ ["nu1", "nu1p"], scode (n ++ indLep (nameLep "ds" l)) ∉ codesFlavioBern := by
  decide +kernel

theorem nodup_fierzFlavioLep (hP : Admissible P) {qq : String} (hq : qq ∈ ["sb", "db"]) {l : String × String} (hl : l ∈ leptonPairs) :
    (bkeys (okOr (fierzFlavioLep P (nameLep qq l) true))).Nodup := by
  have hn : (bkeys (blkBernFlavio P).flatten).Nodup := by rw [bkeys_blkBernFlavio hP]; exact keysFlavio_nodup
  rw [bkeys_flatten, List.nodup_flatMap] at hn
  have h := hn.1 (comp (okOr (bernFierzLep (nameLep qq l))) (okOr (fierzFlavioLep P (nameLep qq l) true))) (by
    unfold blkBernFlavio
    refine List.mem_append_left _ (List.mem_append_right _ (List.mem_flatMap.2 ⟨l, hl, ?_⟩))
    simp only [List.mem_cons, List.not_mem_nil, or_false] at hq
    rcases hq with rfl | rfl <;> simp)
  rwa [bkeys_comp] at h

/-- From flavio to Bern and back: the tables. -/
theorem flavio_back (hP : Admissible P) (v : String → ℂ) :
    (∀ k ∈ flavioNames, bat (bat v (blkFlavioBern P).flatten) (blkBernFlavio P).flatten k = v k) ∧
    ∀ k, k ∉ flavioNames → bat (bat v (blkFlavioBern P).flatten) (blkBernFlavio P).flatten k = 0 := by
  have hn : (bkeys (blkFlavioBern P).flatten).Nodup := by rw [bkeys_blkFlavioBern hP]; exact keysFlavioBern_nodup
  have hn' : (bkeys (blkBernFlavio P).flatten).Nodup := by rw [bkeys_blkBernFlavio hP]; exact keysFlavio_nodup
  have hw : ∀ b ∈ blkFlavioBern P, ∀ k ∈ bkeys b, bat v (blkFlavioBern P).flatten k = bat v b k :=
    fun b hb k hk => bat_flatten hn hb hk v
  have hw0 : ∀ k, k ∉ keysFlavioBern → bat v (blkFlavioBern P).flatten k = 0 :=
    fun k hk => bat_of_not_mem (by rw [bkeys_blkFlavioBern hP]; exact hk) v
  generalize bat v (blkFlavioBern P).flatten = w at hw hw0
  -- membership of the tables
  have mI : ∀ qq ∈ ["sb", "db", "ds"], okOr (bernFlavioI qq) ∈ blkBernFlavio P := fun qq hq =>
    List.mem_append_left _ (List.mem_append_left _ (List.mem_append_left _ (List.mem_map.2 ⟨qq, hq, rfl⟩)))
  have mII : ∀ x ∈ namesII, okOr (bernFlavioII P x) ∈ blkBernFlavio P := fun x hx =>
    List.mem_append_left _ (List.mem_append_left _ (List.mem_append_right _ (List.mem_map.2 ⟨x, hx, rfl⟩)))
  have mL : ∀ qq ∈ ["sb", "db"], ∀ l ∈ leptonPairs,
      comp (okOr (bernFierzLep (nameLep qq l))) (okOr (fierzFlavioLep P (nameLep qq l) true)) ∈ blkBernFlavio P := by
    intro qq hq l hl
    refine List.mem_append_left _ (List.mem_append_right _ (List.mem_flatMap.2 ⟨l, hl, ?_⟩))
    simp only [List.mem_cons, List.not_mem_nil, or_false] at hq
    rcases hq with rfl | rfl <;> simp
  have mC : ∀ qq ∈ ["sb", "db"], comp (okOr (bernFierzChrom P qq)) (okOr (fierzFlavioChrom P qq)) ∈ blkBernFlavio P := by
    intro qq hq
    refine List.mem_append_right _ ?_
    simp only [List.mem_cons, List.not_mem_nil, or_false] at hq
    rcases hq with rfl | rfl <;> simp
  constructor
  · intro k hk
    rcases flavioNames_elim hk with ⟨qq, hq, hk⟩ | ⟨x, hx, hk⟩ | ⟨qq, hq, l, hl, hk⟩ | ⟨qq, hq, hk⟩
    · obtain ⟨h1, h2⟩ := pyRev_pyRev3 qq hq
      rw [← bkeys_bernFlavioI hq] at hk
      rw [bat_flatten hn' (mI qq hq) hk]
      rw [bernFlavioI_eq hq, okOr_ok] at hk ⊢
      refine (bat_congr (fun j hj => ?_) k).trans (I_round (pyRev qq) qq v k hk)
      have e := (flavio_flavioBernI h2).1
      rw [h1] at e
      rw [hw (okOr (flavioBernI (pyRev qq)))]
      · rw [e, okOr_ok]
      · refine List.mem_append_left _ (List.mem_append_left _ (List.mem_append_left _ (List.mem_map.2 ⟨pyRev qq, ?_, rfl⟩)))
        exact h2
      · rw [e, okOr_ok]
        revert j
        simp [bsources, bernFlavioITable, bkeys, flavioBernITable]
    · rw [← bkeys_bernFlavioII hP hx] at hk
      rw [bat_flatten hn' (mII x hx) hk]
      obtain ⟨u, d, l, lp, -, -, h⟩ := jmsBernII_eq hx
      rw [bernFlavioII_eq hP h, okOr_ok] at hk ⊢
      refine (bat_congr (fun j hj => ?_) k).trans (II_round (indII x) (indIIfl x) (prefIIv_ne hP u d) v k hk)
      rw [hw (okOr (flavioBernII P x))]
      · rw [flavioBernII_eq hP h, okOr_ok]
      · exact List.mem_append_left _ (List.mem_append_left _ (List.mem_append_right _ (List.mem_map.2 ⟨x, hx, rfl⟩)))
      · rw [flavioBernII_eq hP h, okOr_ok, bkeys_divideBy]
        rw [bsources_scaleBy] at hj
        revert j
        simp [bsources, bernFlavioIITable, bkeys, flavioBernIITable]
    · have hx := mem_namesLep qq hl
      have hnd := nodup_fierzFlavioLep hP hq hl
      rw [← (bkeys_fierzFlavioLep hP (sub3 hq) hx).1] at hk
      rw [bat_flatten hn' (mL qq hq l hl) (by rw [bkeys_comp]; exact hk), bat_comp]
      have e1 := (fierzFlavioLep_eq hP (sub3 hq) hx).1
      have e2 := flavioFierzLep_eq hP (sub3 hq) hx
      have hF : ∀ j ∈ bkeys (bernFierzLepTable (indLep (nameLep qq l))), bat w (okOr (bernFierzLep (nameLep qq l))) j =
          bat v (okOr (flavioFierzLep P (nameLep qq l))) j := by
        intro j hj
        refine (bat_congr (fun i hi => ?_) j).trans
          (lep_round (indLep (nameLep qq l)) (bat v (okOr (flavioFierzLep P (nameLep qq l)))) j hj)
        rw [hw (comp (okOr (flavioFierzLep P (nameLep qq l))) (okOr (fierzBernLep (nameLep qq l))))]
        · rw [bat_comp]; rfl
        · refine List.mem_append_left _ (List.mem_append_right _ (List.mem_flatMap.2 ⟨l, hl, ?_⟩))
          simp only [List.mem_cons, List.not_mem_nil, or_false] at hq
          rcases hq with rfl | rfl <;> simp
        · rw [bkeys_comp]
          revert i
          simp [bsources, bernFierzLepTable, bkeys, fierzBernLepTable, fierzBernLep, bernFierzLep]
      rw [bat_congr fun j hj => hF j ((bern_fierzFlavioLep hP (sub3 hq) hx true).src j hj)]
      rw [e1, okOr_ok] at hk hnd ⊢
      rw [e2, okOr_ok]
      rw [bkeys_scaleBy] at hnd
      exact flLep_round _ _ _ (k8v_ne hP) (k16v_ne hP) (kSv_ne hP) (prefXiv_ne hP (xiv_ne hP qq)) v hnd k hk
    · rw [← bkeys_fierzFlavioChrom hP (sub3 hq)] at hk
      rw [bat_flatten hn' (mC qq hq) (by rw [bkeys_comp]; exact hk), bat_comp]
      have hF : ∀ j ∈ bkeys (bernFierzChromTable qq (kgv P) (kgsv P)), bat w (okOr (bernFierzChrom P qq)) j =
          bat v (okOr (flavioFierzChrom P qq)) j := by
        intro j hj
        rw [bernFierzChrom_eq hP, okOr_ok]
        refine (bat_congr (fun i hi => ?_) j).trans
          (chrom_round qq (kgv_ne hP) (kgsv_ne hP) (bat v (okOr (flavioFierzChrom P qq))) j hj)
        rw [hw (comp (okOr (flavioFierzChrom P qq)) (okOr (fierzBernChrom P qq)))]
        · rw [bat_comp, fierzBernChrom_eq hP]; rfl
        · refine List.mem_append_right _ ?_
          simp only [List.mem_cons, List.not_mem_nil, or_false] at hq
          rcases hq with rfl | rfl <;> simp
        · rw [bkeys_comp, fierzBernChrom_eq hP, okOr_ok]
          revert i
          simp [bsources, bernFierzChromTable, bkeys, fierzBernChromTable]
      have hsrc := (bern_fierzFlavioChrom hP (sub3 hq)).src
      rw [bernFierzChrom_eq hP, okOr_ok] at hsrc
      rw [bat_congr fun j hj => hF j (hsrc j hj)]
      rw [fierzFlavioChrom_eq hP (sub3 hq), okOr_ok] at hk ⊢
      rw [flavioFierzChrom_eq hP (sub3 hq), okOr_ok]
      exact flChrom_round _ _ (k7v_ne hP) (k7gv_ne hP) (prefXiv_ne hP (xiv_ne hP qq)) v k hk
  · intro k hk
    by_cases hk' : k ∈ bkeys (blkBernFlavio P).flatten
    swap
    · exact bat_of_not_mem hk' w
    obtain ⟨e, he⟩ := exists_mem_of_bkeys hk'
    obtain ⟨b, hb, he⟩ := List.mem_flatten.1 he
    have hkb : k ∈ bkeys b := List.mem_map.2 ⟨_, he, rfl⟩
    rw [bat_flatten hn' hb hkb]
    have sfx : ∀ {L : List String} {y : String}, k ∈ L.map (· ++ y) → ∃ n ∈ L, k = n ++ y := by
      intro L y h
      obtain ⟨n, hn, rfl⟩ := List.mem_map.1 h
      exact ⟨n, hn, rfl⟩
    simp only [blkBernFlavio, List.mem_append, List.mem_map, List.mem_flatMap] at hb
    rcases hb with ((⟨qq, hq, rfl⟩ | ⟨x, hx, rfl⟩) | ⟨l, hl, hb⟩) | hb
    · rw [bkeys_bernFlavioI hq] at hkb
      obtain ⟨n, hn, rfl⟩ := sfx hkb
      exact absurd (flavio_I hn (pyRev_pyRev3 qq hq).2) hk
    · rw [bkeys_bernFlavioII hP hx] at hkb
      obtain ⟨n, hn, rfl⟩ := sfx hkb
      exact absurd (flavio_II hn hx) hk
    · have bad : ∀ qq ∈ ["sb", "db"], k ∉ keysFlNu (nameLep qq l) ++ keysFlLep (nameLep qq l) := by
        intro qq hq h
        rcases List.mem_append.1 h with h | h
        · obtain ⟨n, hn, rfl⟩ := sfx h
          exact hk (flavio_nu hn hq (mem_namesLep qq hl))
        · obtain ⟨n, hn, rfl⟩ := sfx h
          exact hk (flavio_lep hn hq (mem_namesLep qq hl))
      simp only [List.mem_cons, List.not_mem_nil, or_false] at hb
      rcases hb with rfl | rfl | rfl
      · rw [bkeys_comp, (bkeys_fierzFlavioLep hP (by simp) (mem_namesLep "sb" hl)).1] at hkb
        exact absurd hkb (bad "sb" (by simp))
      · rw [bkeys_comp, (bkeys_fierzFlavioLep hP (by simp) (mem_namesLep "db" hl)).1] at hkb
        exact absurd hkb (bad "db" (by simp))
      · have hx := mem_namesLep "ds" hl
        have e1 := (fierzFlavioLep_eq hP (qq := "ds") (by simp) hx).2
        have w1 : w ("nu1" ++ indLep (nameLep "ds" l)) = 0 := hw0 _ (mem_keysFlavioBern_code (dsnu_lost l hl "nu1" (by simp)))
        have w2 : w ("nu1p" ++ indLep (nameLep "ds" l)) = 0 := hw0 _ (mem_keysFlavioBern_code (dsnu_lost l hl "nu1p" (by simp)))
        have hz : ∀ j ∈ bsources (okOr (fierzFlavioLep P (nameLep "ds" l) false)), bat w (okOr (bernFierzLep (nameLep "ds" l))) j = 0 := by
          have hb := at_bernFierzLep (indLep (nameLep "ds" l)) w
          rw [e1, okOr_ok, bsources_scaleBy]
          simp only [bernFierzLepTable, List.forall_mem_cons, Ex.val_src] at hb
          obtain ⟨-, -, -, -, -, -, -, -, -, -, h11, h12, -⟩ := hb
          intro j hj
          simp only [bsources, fierzFlavioNuTable, List.flatMap_cons, List.flatMap_nil, Ex.sources_mul, Ex.sources_src, List.mem_append,
            List.mem_cons, List.not_mem_nil, or_false] at hj
          rcases hj with rfl | rfl
          · exact h11.trans w1
          · exact h12.trans w2
        rw [bat_comp, bat_congr (w := fun _ => ((0 : ℝ) : ℂ) * 0) (fun j hj => by rw [hz j hj]; simp), bat_real]; simp
    · have bad : ∀ qq ∈ ["sb", "db"], k ∉ keysFlChrom (pyRev qq) := by
        intro qq hq h
        obtain ⟨n, hn, rfl⟩ := sfx h
        exact hk (flavio_chrom hn (pyRev_sub hq))
      simp only [List.mem_cons, List.not_mem_nil, or_false] at hb
      rcases hb with rfl | rfl
      · rw [bkeys_comp, bkeys_fierzFlavioChrom hP (by simp)] at hkb
        exact absurd hkb (bad "sb" (by simp))
      · rw [bkeys_comp, bkeys_fierzFlavioChrom hP (by simp)] at hkb
        exact absurd hkb (bad "db" (by simp))

/-- flavio to Bern to flavio, for all coefficients. -/
theorem flavio_bern_flavio (hp : penv E scale par = .ok P) (hP : Admissible P) (hF : ∀ k ∈ flavioNames, k ∈ E.flavio)
    (hB : ∀ k ∈ bernNames, k ∈ E.bern) {C B B' : Dict String ℂ} (h : flavioToBern E C scale par = .ok B)
    (h' : ∀ k, Dict.getD B' k 0 = Dict.getD B k 0) :
    ∃ d, bernToFlavio E B' scale par = .ok d ∧ (∀ k ∈ flavioNames, Dict.getD d k 0 = Dict.getD C k 0) ∧
      ∀ k, k ∉ flavioNames → Dict.getD d k 0 = 0 := by
  rw [bernToFlavio_closed hp hP hB]
  rw [flavioToBern_closed hp hP hF] at h
  injection h with h
  have e : sval B' = fun k => (prefBernv P : ℂ) * bat (sval C) (blkFlavioBern P).flatten k := by
    funext k
    rw [← bat_scaleBy, bat, h]; exact h' k
  rw [e, bval_pref (prefBernv_ne hP)]
  exact ⟨_, rfl, flavio_back hP (sval C)⟩

/-- **C41**, what holds: every coefficient of the flavio basis without `s -> d nu nu` is returned, and nothing else
appears. -/
theorem C41_partial (hp : penv E scale par = .ok P) (hP : Admissible P) (hF : ∀ k ∈ flavioNames, k ∈ E.flavio)
    (hB : ∀ k ∈ bernNames, k ∈ E.bern) {C B B' : Dict String ℂ} (h : flavioToBern E C scale par = .ok B)
    (h' : ∀ k, Dict.getD B' k 0 = Dict.getD B k 0) :
    ∃ d, bernToFlavio E B' scale par = .ok d ∧ (∀ k ∈ flavioNames, Dict.getD d k 0 = Dict.getD C k 0) ∧
      ∀ k, k ∉ flavioNames → Dict.getD d k 0 = 0 := flavio_bern_flavio hp hP hF hB h h'

/-- Non-trivial instance. -/
example : ∃ B d, flavioToBern exEnv [("C9_bsmumu", 1 + Complex.I), ("CSLL_bsbs", 2)] 160 none = .ok B ∧
    bernToFlavio exEnv B 160 none = .ok d ∧ Dict.getD d "CSLL_bsbs" 0 = 2 ∧ Dict.getD d "CTLL_bsbs" 0 = 0 := by
  have h := flavioToBern_closed exEnv_ok exP_admissible (fun k hk => hk) [("C9_bsmumu", 1 + Complex.I), ("CSLL_bsbs", 2)]
  obtain ⟨d, h1, h2, -⟩ := C41_partial exEnv_ok exP_admissible (fun k hk => hk) (fun k hk => hk) h (fun _ => rfl)
  refine ⟨_, d, h, h1, ?_, ?_⟩
  · have e : "CSLL_bsbs" ∈ flavioNames := by
      have := flavio_I (n := "CSLL_") (qq := "bs") (by simp) (by simp)
      rwa [show "CSLL_" ++ ("bs" ++ "bs") = "CSLL_bsbs" by decide +kernel] at this
    rw [h2 _ e]; simp [Dict.getD, Dict.find]
  · have e : "CTLL_bsbs" ∈ flavioNames := by
      have := flavio_I (n := "CTLL_") (qq := "bs") (by simp) (by simp)
      rwa [show "CTLL_" ++ ("bs" ++ "bs") = "CTLL_bsbs" by decide +kernel] at this
    rw [h2 _ e]; simp [Dict.getD, Dict.find]

set_option maxRecDepth 100000 in
/-- **C41** is false: the flavio coefficients of `s -> d nu nu`, which `Bern_to_flavio` produces, are lost. -/
theorem C41_refuted : ¬ ∀ (E : WEnv) (P : PEnv) (scale : ℝ) (par : Option Par), penv E scale par = .ok P → Admissible P →
    (∀ k ∈ flavioNames ++ flavioSdNuNu, k ∈ E.flavio) → (∀ k ∈ bernNames, k ∈ E.bern) → ∀ C B d : Dict String ℂ,
    (∀ k ∈ Dict.keys C, k ∈ flavioNames ++ flavioSdNuNu) →
    flavioToBern E C scale par = .ok B → bernToFlavio E B scale par = .ok d → ∀ k, Dict.getD d k 0 = Dict.getD C k 0 := by
  intro h
  have hp : penv { exEnv with flavio := flavioNames ++ flavioSdNuNu } 160 none = .ok exP := exEnv_ok
  have hF : ∀ k ∈ flavioNames, k ∈ ({ exEnv with flavio := flavioNames ++ flavioSdNuNu } : WEnv).flavio :=
    fun k hk => List.mem_append_left _ hk
  have hB : ∀ k ∈ bernNames, k ∈ ({ exEnv with flavio := flavioNames ++ flavioSdNuNu } : WEnv).bern := fun k hk => hk
  have h1 := flavioToBern_closed hp exP_admissible hF [("CL_sdnuenue", 1)]
  obtain ⟨d, h2, -, h3⟩ := flavio_bern_flavio hp exP_admissible hF hB h1 (fun _ => rfl)
  have h4 := h _ _ _ _ hp exP_admissible (fun k hk => hk) hB _ _ _ ?_ h1 h2 "CL_sdnuenue"
  · rw [h3 "CL_sdnuenue" ?_] at h4
    · simp [Dict.getD, Dict.find] at h4
    · intro hk
      have : ∀ k ∈ flavioNames, scode k ≠ scode "CL_sdnuenue" := by decide +kernel
      exact this _ hk rfl
  · intro k hk
    simp only [Dict.keys, List.map_cons, List.map_nil, List.mem_cons, List.not_mem_nil, or_false] at hk
    subst hk
    refine List.mem_append_right _ ?_
    decide +kernel

/-- Coefficients of Bern that mix the tensor operators with others. -/
def tensorNames : List String := words ["7", "7p"] (words ["sb", "db"] (words leptons leptons))

theorem keysFlavioBern_elim {k : String} (h : k ∈ keysFlavioBern) : k ∈ keptNames ∨ k ∈ tensorNames := by
  have lep : ∀ qq ∈ ["sb", "db"], ∀ l ∈ leptonPairs, k ∈ keysLep (nameLep qq l) → k ∈ keptNames ∨ k ∈ tensorNames := by
    intro qq hq l hl h
    obtain ⟨h1, h2⟩ := leptonPairs_elim hl
    obtain ⟨n, hn, rfl⟩ := List.mem_map.1 h
    have e : indLep (nameLep qq l) = qq ++ (l.1 ++ l.2) := (indLep_eq qq (sub3 hq) l.1 h1 l.2 h2).2.2
    rw [e]
    have hy := mem_words hq (mem_words h1 h2)
    have : ∀ n ∈ ["1", "3", "5", "7", "9", "1p", "3p", "5p", "7p", "9p", "nu1", "nu1p"],
        n ∈ ["1", "3", "5", "9", "1p", "3p", "5p", "9p", "nu1", "nu1p"] ∨ n ∈ ["7", "7p"] := by decide +kernel
    rcases this n hn with hn | hn
    · exact .inl (List.mem_append_left _ (List.mem_append_right _ (mem_words hn hy)))
    · exact .inr (mem_words hn hy)
  have chrom : ∀ qq ∈ ["sb", "db"], k ∈ keysChrom qq → k ∈ keptNames ∨ k ∈ tensorNames := by
    intro qq hq h
    obtain ⟨n, hn, rfl⟩ := List.mem_map.1 h
    exact .inl (List.mem_append_right _ (mem_words hn hq))
  unfold keysFlavioBern at h
  rcases List.mem_append.1 h with h | h
  · rcases List.mem_append.1 h with h | h
    · rcases List.mem_append.1 h with h | h
      · obtain ⟨qq, hq, h⟩ := List.mem_flatMap.1 h
        obtain ⟨n, hn, rfl⟩ := List.mem_map.1 h
        have : ∀ qq ∈ ["sb", "db", "ds"], qq ++ qq ∈ ["sbsb", "dbdb", "dsds"] := by decide +kernel
        exact .inl (List.mem_append_left _ (List.mem_append_left _ (List.mem_append_left _ (mem_words hn (this qq hq)))))
      · obtain ⟨x, hx, h⟩ := List.mem_flatMap.1 h
        obtain ⟨n, hn, rfl⟩ := List.mem_map.1 h
        have sub : ∀ n ∈ ["1", "1p", "5", "5p", "7p"], n ∈ ["1", "5", "1p", "5p", "7p"] := by decide +kernel
        have hn := sub n hn
        exact .inl (List.mem_append_left _ (List.mem_append_left _ (List.mem_append_right _ (mem_words hn (indII_mem x hx).1))))
    · obtain ⟨l, hl, h⟩ := List.mem_flatMap.1 h
      rcases List.mem_append.1 h with h | h
      · exact lep "sb" (by simp) l hl h
      · exact lep "db" (by simp) l hl h
  · rcases List.mem_append.1 h with h | h
    · exact chrom "sb" (by simp) h
    · exact chrom "db" (by simp) h

/-- From Bern to flavio and back: the semileptonic operators. -/
theorem bern_back_lep (hP : Admissible P) (u : String → ℂ) {qq : String} (hq : qq ∈ ["sb", "db"]) {l : String × String}
    (hl : l ∈ leptonPairs) :
    (∀ n ∈ ["1", "3", "5", "9", "1p", "3p", "5p", "9p", "nu1", "nu1p"],
      bat (bat u (blkBernFlavio P).flatten) (blkFlavioBern P).flatten (n ++ indLep (nameLep qq l)) = u (n ++ indLep (nameLep qq l))) ∧
    bat (bat u (blkBernFlavio P).flatten) (blkFlavioBern P).flatten ("7" ++ indLep (nameLep qq l)) = 16 * u ("9" ++ indLep (nameLep qq l)) ∧
    bat (bat u (blkBernFlavio P).flatten) (blkFlavioBern P).flatten ("7p" ++ indLep (nameLep qq l)) =
      16 * u ("9p" ++ indLep (nameLep qq l)) := by
  have hn : (bkeys (blkFlavioBern P).flatten).Nodup := by rw [bkeys_blkFlavioBern hP]; exact keysFlavioBern_nodup
  have hn' : (bkeys (blkBernFlavio P).flatten).Nodup := by rw [bkeys_blkBernFlavio hP]; exact keysFlavio_nodup
  have hx := mem_namesLep qq hl
  have hnd := nodup_fierzFlavioLep hP hq hl
  have e1 := (fierzFlavioLep_eq hP (sub3 hq) hx).1
  have e2 := flavioFierzLep_eq hP (sub3 hq) hx
  have hm : comp (okOr (flavioFierzLep P (nameLep qq l))) (okOr (fierzBernLep (nameLep qq l))) ∈ blkFlavioBern P := by
    refine List.mem_append_left _ (List.mem_append_right _ (List.mem_flatMap.2 ⟨l, hl, ?_⟩))
    simp only [List.mem_cons, List.not_mem_nil, or_false] at hq
    rcases hq with rfl | rfl <;> simp
  have hm' : comp (okOr (bernFierzLep (nameLep qq l))) (okOr (fierzFlavioLep P (nameLep qq l) true)) ∈ blkBernFlavio P := by
    refine List.mem_append_left _ (List.mem_append_right _ (List.mem_flatMap.2 ⟨l, hl, ?_⟩))
    simp only [List.mem_cons, List.not_mem_nil, or_false] at hq
    rcases hq with rfl | rfl <;> simp
  have hr : ∀ w, ∀ k ∈ keysLep (nameLep qq l), bat w (blkFlavioBern P).flatten k =
      bat (bat w (okOr (flavioFierzLep P (nameLep qq l)))) (fierzBernLepTable (indLep (nameLep qq l))) k := by
    intro w k hk
    rw [bat_flatten hn hm (by rw [bkeys_comp]; exact hk), bat_comp]; rfl
  have hF : ∀ j, bat (bat u (blkBernFlavio P).flatten) (okOr (flavioFierzLep P (nameLep qq l))) j =
      bat (bat (bat u (bernFierzLepTable (indLep (nameLep qq l)))) (okOr (fierzFlavioLep P (nameLep qq l) true)))
        (okOr (flavioFierzLep P (nameLep qq l))) j := by
    intro j
    refine bat_congr (fun i hi => ?_) j
    rw [bat_flatten hn' hm', bat_comp]
    · rfl
    · rw [bkeys_comp, e1, okOr_ok, bkeys_scaleBy]
      rw [e2, okOr_ok, bsources_divideBy] at hi
      clear e1 e2 hr hm hm' hx hnd
      generalize indLep (nameLep qq l) = i1 at *
      generalize indLepFl (nameLep qq l) = i2 at *
      generalize indNuFl (nameLep qq l) = i3 at *
      revert i
      simp [bsources, flavioFierzLepTable, bkeys, fierzFlavioNuTable, fierzFlavioLepTable]
  have hr' := hr (bat u (blkBernFlavio P).flatten)
  rw [funext hF, e1, e2, okOr_ok, okOr_ok] at hr'
  rw [e1, okOr_ok, bkeys_scaleBy] at hnd
  obtain ⟨f1, f2, f3⟩ := flLep_round' (indLep (nameLep qq l)) (indLepFl (nameLep qq l)) (indNuFl (nameLep qq l)) (k8v_ne hP) (k16v_ne hP)
    (kSv_ne hP) (prefXiv_ne hP (xiv_ne hP qq)) (bat u (bernFierzLepTable (indLep (nameLep qq l)))) hnd
  obtain ⟨t1, t2, t3⟩ := lep_tensor _ _ _ f1 f2 f3
  have mem : ∀ n ∈ ["1", "3", "5", "7", "9", "1p", "3p", "5p", "7p", "9p", "nu1", "nu1p"],
      n ++ indLep (nameLep qq l) ∈ keysLep (nameLep qq l) := fun n hn => List.mem_map.2 ⟨n, hn, rfl⟩
  have sub : ∀ n ∈ ["1", "3", "5", "9", "1p", "3p", "5p", "9p", "nu1", "nu1p"],
      n ∈ ["1", "3", "5", "7", "9", "1p", "3p", "5p", "7p", "9p", "nu1", "nu1p"] := by decide +kernel
  refine ⟨fun n hn => ?_, ?_, ?_⟩
  · rw [hr' _ (mem n (sub n hn))]
    exact t1 n hn
  · rw [hr' _ (mem "7" (by simp))]; exact t2
  · rw [hr' _ (mem "7p" (by simp))]; exact t3

/-- From Bern to flavio and back: the tables. -/
theorem bern_back (hP : Admissible P) (u : String → ℂ) :
    (∀ k ∈ keptNames, bat (bat u (blkBernFlavio P).flatten) (blkFlavioBern P).flatten k = u k) ∧
    (∀ y ∈ words ["sb", "db"] (words leptons leptons),
      bat (bat u (blkBernFlavio P).flatten) (blkFlavioBern P).flatten ("7" ++ y) = 16 * u ("9" ++ y) ∧
      bat (bat u (blkBernFlavio P).flatten) (blkFlavioBern P).flatten ("7p" ++ y) = 16 * u ("9p" ++ y)) ∧
    ∀ k, k ∉ keptNames → k ∉ tensorNames → bat (bat u (blkBernFlavio P).flatten) (blkFlavioBern P).flatten k = 0 := by
  have hn : (bkeys (blkFlavioBern P).flatten).Nodup := by rw [bkeys_blkFlavioBern hP]; exact keysFlavioBern_nodup
  have hn' : (bkeys (blkBernFlavio P).flatten).Nodup := by rw [bkeys_blkBernFlavio hP]; exact keysFlavio_nodup
  refine ⟨fun k hk => ?_, fun y hy => ?_, fun k h1 h2 => ?_⟩
  · rcases keptNames_elim hk with ⟨qq, hq, hk⟩ | ⟨x, hx, hk⟩ | ⟨qq, hq, l, hl, n, hn, rfl⟩ | ⟨qq, hq, hk⟩
    · obtain ⟨h1, h2⟩ := pyRev_pyRev3 qq hq
      have e := (flavio_flavioBernI h2).1
      rw [h1] at e
      have hm : okOr (flavioBernI (pyRev qq)) ∈ blkFlavioBern P :=
        List.mem_append_left _ (List.mem_append_left _ (List.mem_append_left _ (List.mem_map.2 ⟨pyRev qq, h2, rfl⟩)))
      have hm' : okOr (bernFlavioI qq) ∈ blkBernFlavio P :=
        List.mem_append_left _ (List.mem_append_left _ (List.mem_append_left _ (List.mem_map.2 ⟨qq, hq, rfl⟩)))
      rw [bat_flatten hn hm (by rw [bkeys_flavioBernI h2, h1]; exact hk)]
      rw [e, okOr_ok]
      refine (bat_congr (fun j hj => ?_) k).trans (I_round' (pyRev qq) qq u k hk)
      rw [bat_flatten hn' hm', bernFlavioI_eq hq, okOr_ok]
      rw [bernFlavioI_eq hq, okOr_ok]
      clear hn hn' hm hm' hk e
      generalize pyRev qq = q' at *
      revert j
      simp [bsources, bernFlavioITable, bkeys, flavioBernITable]
    · obtain ⟨a, d, l, lp, -, -, h⟩ := jmsBernII_eq hx
      have hm : okOr (flavioBernII P x) ∈ blkFlavioBern P :=
        List.mem_append_left _ (List.mem_append_left _ (List.mem_append_right _ (List.mem_map.2 ⟨x, hx, rfl⟩)))
      have hm' : okOr (bernFlavioII P x) ∈ blkBernFlavio P :=
        List.mem_append_left _ (List.mem_append_left _ (List.mem_append_right _ (List.mem_map.2 ⟨x, hx, rfl⟩)))
      rw [bat_flatten hn hm (by rw [bkeys_flavioBernII hP hx]; exact hk)]
      rw [flavioBernII_eq hP h, okOr_ok]
      refine (bat_congr (fun j hj => ?_) k).trans (II_round' (indII x) (indIIfl x) (prefIIv_ne hP a d) u k
        (by rw [bkeys_divideBy]; exact hk))
      rw [bat_flatten hn' hm', bernFlavioII_eq hP h, okOr_ok]
      rw [bernFlavioII_eq hP h, okOr_ok, bkeys_scaleBy]
      rw [bsources_divideBy] at hj
      clear hn hn' hm hm' hk h hx
      generalize indII x = i1 at *
      generalize indIIfl x = i2 at *
      revert j
      simp [bsources, bernFlavioIITable, bkeys, flavioBernIITable]
    · exact (bern_back_lep hP u hq hl).1 n hn
    · have hm : comp (okOr (flavioFierzChrom P qq)) (okOr (fierzBernChrom P qq)) ∈ blkFlavioBern P := by
        refine List.mem_append_right _ ?_
        simp only [List.mem_cons, List.not_mem_nil, or_false] at hq
        rcases hq with rfl | rfl <;> simp
      have hm' : comp (okOr (bernFierzChrom P qq)) (okOr (fierzFlavioChrom P qq)) ∈ blkBernFlavio P := by
        refine List.mem_append_right _ ?_
        simp only [List.mem_cons, List.not_mem_nil, or_false] at hq
        rcases hq with rfl | rfl <;> simp
      rw [bat_flatten hn hm (by rw [bkeys_comp, bkeys_fierzBernChrom hP]; exact hk), bat_comp]
      rw [bernFierzChrom_eq hP, fierzFlavioChrom_eq hP (sub3 hq), okOr_ok, okOr_ok] at hm'
      rw [fierzBernChrom_eq hP, flavioFierzChrom_eq hP (sub3 hq), okOr_ok, okOr_ok]
      refine (bat_congr (fun j hj => ?_) k).trans (chrom_round' qq (kgv_ne hP) (kgsv_ne hP) u k hk)
      refine Eq.trans (bat_congr (w := bat (bat u (bernFierzChromTable qq (kgv P) (kgsv P)))
        (scaleBy (prefXiv P (xiv P qq)) (fierzFlavioChromTable qq (pyRev qq) (k7v P) (k7gv P)))) (fun i hi => ?_) j)
        (flChrom_round' _ _ (k7v_ne hP) (k7gv_ne hP) (prefXiv_ne hP (xiv_ne hP qq)) _ j ?_)
      · rw [bat_flatten hn' hm', bat_comp]
        rw [bkeys_comp, bkeys_scaleBy]
        rw [bsources_divideBy] at hi
        clear hn hn' hm hm' hk
        generalize pyRev qq = q' at *
        revert i
        simp [bsources, flavioFierzChromTable, bkeys, fierzFlavioChromTable]
      · rw [bkeys_divideBy]
        clear hn hn' hm hm' hk
        generalize pyRev qq = q' at *
        revert j
        simp [bsources, fierzBernChromTable, bkeys, flavioFierzChromTable]
  · obtain ⟨qq, hq, y2, hy2, rfl⟩ := words_elim hy
    obtain ⟨l, hl, lp, hlp, rfl⟩ := words_elim hy2
    have := bern_back_lep hP u hq (leptonPairs_mem hl hlp)
    rw [(indLep_eq qq (sub3 hq) l hl lp hlp).2.2] at this
    exact this.2
  · refine bat_of_not_mem ?_ _
    rw [bkeys_blkFlavioBern hP]
    intro h
    rcases keysFlavioBern_elim h with h | h
    · exact h1 h
    · exact h2 h

/-- **C42**: Bern to flavio and back, for every dictionary. Coefficients that flavio represents come back unchanged; of
the operators `7` and `7p` only the part that is not tensor, a multiple of `9` and `9p`, comes back; everything else is
zero. The intermediate dictionary may drop or add zero coefficients (`F'`). -/
theorem C42_bern_back (hp : penv E scale par = .ok P) (hP : Admissible P) (hF : ∀ k ∈ flavioNames, k ∈ E.flavio)
    (hB : ∀ k ∈ bernNames, k ∈ E.bern) {C F F' : Dict String ℂ} (h : bernToFlavio E C scale par = .ok F)
    (h' : ∀ k, Dict.getD F' k 0 = Dict.getD F k 0) :
    ∃ d, flavioToBern E F' scale par = .ok d ∧ (∀ k ∈ keptNames, Dict.getD d k 0 = Dict.getD C k 0) ∧
      (∀ y ∈ words ["sb", "db"] (words leptons leptons), Dict.getD d ("7" ++ y) 0 = 16 * Dict.getD C ("9" ++ y) 0 ∧
        Dict.getD d ("7p" ++ y) 0 = 16 * Dict.getD C ("9p" ++ y) 0) ∧
      ∀ k, k ∉ keptNames → k ∉ tensorNames → Dict.getD d k 0 = 0 := by
  rw [flavioToBern_closed hp hP hF]
  rw [bernToFlavio_closed hp hP hB] at h
  injection h with h
  have e : sval F' = fun k => ((prefBernv P)⁻¹ : ℝ) * bat (sval C) (blkBernFlavio P).flatten k := by
    funext k
    rw [Complex.ofReal_inv, ← div_eq_inv_mul, ← bat_divideBy, bat, h]; exact h' k
  have key : ∀ k, Dict.getD (bval (sval F') (scaleBy (prefBernv P) (blkFlavioBern P).flatten)) k 0 =
      bat (bat (sval C) (blkBernFlavio P).flatten) (blkFlavioBern P).flatten k := by
    intro k
    change bat (sval F') _ k = _
    rw [e, bat_scaleBy, bat_real, Complex.ofReal_inv, ← mul_assoc, mul_inv_cancel₀ (prefBernv_ne hP), one_mul]
  obtain ⟨h1, h2, h3⟩ := bern_back hP (sval C)
  exact ⟨_, rfl, fun k hk => (key k).trans (h1 k hk), fun y hy => ⟨(key _).trans (h2 y hy).1, (key _).trans (h2 y hy).2⟩,
    fun k hk hk' => (key k).trans (h3 k hk hk')⟩

/-- Non-trivial instance: a four-quark coefficient and a leptonic one, which feeds the tensor one. -/
example : ∃ F d, bernToFlavio exEnv [("2sbsb", 1 + Complex.I), ("9dbee", 3), ("7dbee", 5)] 160 none = .ok F ∧
    flavioToBern exEnv F 160 none = .ok d ∧ Dict.getD d "2sbsb" 0 = 1 + Complex.I ∧ Dict.getD d "7dbee" 0 = 48 := by
  have h := bernToFlavio_closed exEnv_ok exP_admissible (fun k hk => hk) [("2sbsb", 1 + Complex.I), ("9dbee", 3), ("7dbee", 5)]
  obtain ⟨d, h1, h2, h3, -⟩ := C42_bern_back exEnv_ok exP_admissible (fun k hk => hk) (fun k hk => hk) h (fun _ => rfl)
  refine ⟨_, d, h, h1, ?_, ?_⟩
  · have e : "2sbsb" ∈ keptNames := by
      have : "2" ++ "sbsb" ∈ keptNames :=
        List.mem_append_left _ (List.mem_append_left _ (List.mem_append_left _ (mem_words (by simp) (by simp))))
      rwa [show "2" ++ "sbsb" = "2sbsb" by decide +kernel] at this
    rw [h2 _ e]; simp [Dict.getD, Dict.find]
  · have e := (h3 ("db" ++ ("e" ++ "e")) (mem_words (by simp) (mem_words (by simp [leptons]) (by simp [leptons])))).1
    rw [show "7" ++ ("db" ++ ("e" ++ "e")) = "7dbee" by decide +kernel,
      show "9" ++ ("db" ++ ("e" ++ "e")) = "9dbee" by decide +kernel] at e
    rw [e]; simp [Dict.getD, Dict.find]; norm_num

end Verif
