import Verif.Lemmas.WetKeys

/-! Keys of the tables of the WET translators. -/

set_option autoImplicit false

namespace Verif

variable {P : PEnv}

theorem bkeys_jmsBernI {qq : String} (hq : qq ∈ ["sb", "db", "ds"]) : bkeys (okOr (jmsBernI qq)) = keysI qq := by
  obtain ⟨i, j, h⟩ := jmsBernI_eq hq
  rw [h]; rfl

theorem bkeys_jmsBernII {x : String} (hx : x ∈ namesII) : bkeys (okOr (jmsBernII x)) = keysII x := by
  obtain ⟨u, d, l, lp, -, h, -⟩ := jmsBernII_eq hx
  rw [h]; rfl

theorem bkeys_fierzBernV {x : String} : bkeys (okOr (fierzBernV x)) = keysV x := by
  unfold fierzBernV keysV
  split_ifs <;> rfl

theorem bkeys_fierzBernLep (x : String) : bkeys (okOr (fierzBernLep x)) = keysLep x := rfl

theorem bkeys_fierzBernChrom (hP : Spec.Admissible P) (qq : String) : bkeys (okOr (fierzBernChrom P qq)) = keysChrom qq := by
  rw [fierzBernChrom_eq hP]; rfl

theorem bkeys_bernFlavioI {qq : String} (hq : qq ∈ ["sb", "db", "ds"]) :
    bkeys (okOr (bernFlavioI qq)) = keysFlI (pyRev qq) := by
  rw [bernFlavioI_eq hq]; rfl

theorem bkeys_bernFlavioII (hP : Spec.Admissible P) {x : String} (hx : x ∈ namesII) :
    bkeys (okOr (bernFlavioII P x)) = keysFlII x := by
  obtain ⟨u, d, l, lp, -, -, h⟩ := jmsBernII_eq hx
  rw [bernFlavioII_eq hP h, okOr_ok, bkeys_scaleBy]; rfl

theorem bkeys_fierzFlavioLep (hP : Spec.Admissible P) {qq x : String} (hq : qq ∈ ["sb", "db", "ds"]) (hx : x ∈ namesLep qq) :
    bkeys (okOr (fierzFlavioLep P x true)) = keysFlNu x ++ keysFlLep x ∧
    bkeys (okOr (fierzFlavioLep P x false)) = keysFlNu x := by
  obtain ⟨h1, h2⟩ := fierzFlavioLep_eq hP hq hx
  rw [h1, h2, okOr_ok, okOr_ok, bkeys_scaleBy, bkeys_scaleBy]
  exact ⟨rfl, rfl⟩

theorem bkeys_fierzFlavioChrom (hP : Spec.Admissible P) {qq : String} (hq : qq ∈ ["sb", "db", "ds"]) :
    bkeys (okOr (fierzFlavioChrom P qq)) = keysFlChrom (pyRev qq) := by
  rw [fierzFlavioChrom_eq hP hq, okOr_ok, bkeys_scaleBy]; rfl

theorem bkeys_flavioBernI {qq : String} (hq : qq ∈ ["bs", "bd", "sd"]) : bkeys (okOr (flavioBernI qq)) = keysI (pyRev qq) := by
  rw [(flavio_flavioBernI hq).1]; rfl

theorem bkeys_flavioBernII (hP : Spec.Admissible P) {x : String} (hx : x ∈ namesII) :
    bkeys (okOr (flavioBernII P x)) = keysIIb x := by
  obtain ⟨u, d, l, lp, -, -, h⟩ := jmsBernII_eq hx
  rw [flavioBernII_eq hP h, okOr_ok, bkeys_divideBy]; rfl

theorem pyRevs : pyRev "sb" = "bs" ∧ pyRev "db" = "bd" ∧ pyRev "ds" = "sd" ∧ pyRev "bs" = "sb" ∧ pyRev "bd" = "db" ∧
    pyRev "sd" = "ds" := by decide +kernel

theorem bkeys_blkJmsBern (hP : Spec.Admissible P) : bkeys (blkJmsBern P).flatten = keysJmsBern := by
  rw [bkeys_flatten]
  unfold blkJmsBern keysJmsBern
  simp only [List.flatMap_append, List.flatMap_map, List.flatMap_assoc]
  refine congrArg₂ _ (congrArg₂ _ (congrArg₂ _ (congrArg₂ _ ?_ ?_) ?_) ?_) ?_
  · exact List.flatMap_congr fun qq hq => bkeys_jmsBernI hq
  · exact List.flatMap_congr fun x hx => bkeys_jmsBernII hx
  · exact List.flatMap_congr fun x hx => by rw [bkeys_comp, bkeys_fierzBernV]
  · refine List.flatMap_congr fun l hl => ?_
    simp only [List.flatMap_cons, List.flatMap_nil, bkeys_comp, bkeys_fierzBernLep, List.append_nil]
  · simp only [List.flatMap_cons, List.flatMap_nil, bkeys_comp, bkeys_fierzBernChrom hP, List.append_nil]

theorem bkeys_blkFlavioBern (hP : Spec.Admissible P) : bkeys (blkFlavioBern P).flatten = keysFlavioBern := by
  obtain ⟨-, -, -, h4, h5, h6⟩ := pyRevs
  rw [bkeys_flatten]
  unfold blkFlavioBern keysFlavioBern
  simp only [List.flatMap_append, List.flatMap_map, List.flatMap_assoc]
  refine congrArg₂ _ (congrArg₂ _ (congrArg₂ _ ?_ ?_) ?_) ?_
  · rw [List.flatMap_congr fun qq hq => bkeys_flavioBernI hq]
    simp only [List.flatMap_cons, List.flatMap_nil, h4, h5, h6]
  · exact List.flatMap_congr fun x hx => bkeys_flavioBernII hP hx
  · refine List.flatMap_congr fun l hl => ?_
    simp only [List.flatMap_cons, List.flatMap_nil, bkeys_comp, bkeys_fierzBernLep, List.append_nil]
  · simp only [List.flatMap_cons, List.flatMap_nil, bkeys_comp, bkeys_fierzBernChrom hP, List.append_nil]

theorem bkeys_blkJmsFlavio (hP : Spec.Admissible P) : bkeys (blkJmsFlavio P).flatten = keysFlavio := by
  obtain ⟨h1, h2, h3, -, -, -⟩ := pyRevs
  rw [bkeys_flatten]
  unfold blkJmsFlavio keysFlavio
  simp only [List.flatMap_append, List.flatMap_map, List.flatMap_assoc]
  refine congrArg₂ _ (congrArg₂ _ (congrArg₂ _ ?_ ?_) ?_) ?_
  · rw [List.flatMap_congr fun qq hq => (bkeys_comp _ _).trans (bkeys_bernFlavioI hq)]
    simp only [List.flatMap_cons, List.flatMap_nil, h1, h2, h3]
  · exact List.flatMap_congr fun x hx => (bkeys_comp _ _).trans (bkeys_bernFlavioII hP hx)
  · refine List.flatMap_congr fun l hl => ?_
    simp only [List.flatMap_cons, List.flatMap_nil, bkeys_comp, List.append_nil,
        (bkeys_fierzFlavioLep hP (by simp) (mem_namesLep "sb" hl)).1, (bkeys_fierzFlavioLep hP (by simp) (mem_namesLep "db" hl)).1,
        (bkeys_fierzFlavioLep hP (by simp) (mem_namesLep "ds" hl)).2]
  · simp only [List.flatMap_cons, List.flatMap_nil, bkeys_comp, List.append_nil]
    rw [bkeys_fierzFlavioChrom hP (by simp), bkeys_fierzFlavioChrom hP (by simp), h1, h2]

theorem bkeys_blkBernFlavio (hP : Spec.Admissible P) : bkeys (blkBernFlavio P).flatten = keysFlavio := by
  obtain ⟨h1, h2, h3, -, -, -⟩ := pyRevs
  rw [bkeys_flatten]
  unfold blkBernFlavio keysFlavio
  simp only [List.flatMap_append, List.flatMap_map, List.flatMap_assoc]
  refine congrArg₂ _ (congrArg₂ _ (congrArg₂ _ ?_ ?_) ?_) ?_
  · rw [List.flatMap_congr fun qq hq => bkeys_bernFlavioI hq]
    simp only [List.flatMap_cons, List.flatMap_nil, h1, h2, h3]
  · exact List.flatMap_congr fun x hx => bkeys_bernFlavioII hP hx
  · refine List.flatMap_congr fun l hl => ?_
    simp only [List.flatMap_cons, List.flatMap_nil, bkeys_comp, List.append_nil,
        (bkeys_fierzFlavioLep hP (by simp) (mem_namesLep "sb" hl)).1, (bkeys_fierzFlavioLep hP (by simp) (mem_namesLep "db" hl)).1,
        (bkeys_fierzFlavioLep hP (by simp) (mem_namesLep "ds" hl)).2]
  · simp only [List.flatMap_cons, List.flatMap_nil, bkeys_comp, List.append_nil]
    rw [bkeys_fierzFlavioChrom hP (by simp), bkeys_fierzFlavioChrom hP (by simp), h1, h2]

end Verif
