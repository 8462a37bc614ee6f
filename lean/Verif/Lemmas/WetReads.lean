import Verif.Lemmas.WetJobs

/-! Entries read by the tables of the WET translators. -/

set_option autoImplicit false

namespace Verif

variable {S : Type} {P : PEnv}

theorem isJms2 {n : String} {a b : Fin 3} {r1 r2 : ℕ} (h : (n, [r1, r2]) ∈ Spec.jmsRanges) (ha : a.val < r1)
    (hb : b.val < r2) : Spec.IsJms (n, [a, b]) := ⟨_, h, by simp [ha, hb]⟩

theorem isJms4 {n : String} {a b c d : Fin 3} {r1 r2 r3 r4 : ℕ} (h : (n, [r1, r2, r3, r4]) ∈ Spec.jmsRanges)
    (ha : a.val < r1) (hb : b.val < r2) (hc : c.val < r3) (hd : d.val < r4) : Spec.IsJms (n, [a, b, c, d]) :=
  ⟨_, h, by simp [ha, hb, hc, hd]⟩

/-- Every entry with down quarks and leptons only. -/
theorem isJms3333 {n : String} (a b c d : Fin 3) (h : (n, [3, 3, 3, 3]) ∈ Spec.jmsRanges) :
    Spec.IsJms (n, [a, b, c, d]) := isJms4 h a.isLt b.isLt c.isLt d.isLt

theorem reads_jmsBernII {x : String} (hx : x ∈ namesII) : Reads Spec.IsJms (jmsBernII x) := by
  obtain ⟨u, d, l, lp, hu, h, -⟩ := jmsBernII_eq hx
  refine .mk' h ?_
  have : ∀ n ∈ ["VnueduLL", "VnueduLR", "SnueduRL", "SnueduRR", "TnueduRR"], (n, [3, 3, 3, 2]) ∈ Spec.jmsRanges := by
    decide +kernel
  simp only [bsources, jmsBernIITable, List.flatMap_cons, List.flatMap_nil, List.forall_mem_append, List.forall_mem_cons,
    Ex.sources_cj, Ex.sources_src, List.not_mem_nil, IsEmpty.forall_iff, forall_const, and_true]
  refine ⟨?_, ?_, ?_, ?_, ?_⟩ <;> exact isJms4 (this _ (by simp)) lp.isLt l.isLt d.isLt hu

theorem reads_jmsFierzLep {qq x : String} (hq : qq ∈ ["sb", "db", "ds"]) (hx : x ∈ namesLep qq) :
    Reads Spec.IsJms (jmsFierzLep x) := by
  obtain ⟨s, b, l, lp, h⟩ := jmsFierzLep_eq hq hx
  refine .mk' h ?_
  have : ∀ n ∈ ["VedLL", "VedRR", "VedLR", "VdeLR", "SedRR", "SedRL", "TedRR", "VnudLL", "VnudLR"],
      (n, [3, 3, 3, 3]) ∈ Spec.jmsRanges := by decide +kernel
  simp only [bsources, jmsFierzLepTable, List.flatMap_cons, List.flatMap_nil, List.forall_mem_append,
    List.forall_mem_cons, Ex.sources_cj, Ex.sources_src, Ex.sources_add, Ex.sources_sub, Ex.sources_neg,
    Ex.sources_div, List.not_mem_nil, IsEmpty.forall_iff, forall_const, and_true]
  refine_lift ?_
  repeat' apply And.intro
  all_goals exact isJms3333 _ _ _ _ (this _ (by simp))

theorem reads_jmsFierzChrom {qq : String} (hq : qq ∈ ["sb", "db", "ds"]) : Reads Spec.IsJms (jmsFierzChrom qq) := by
  obtain ⟨s, b, h⟩ := jmsFierzChrom_eq hq
  refine .mk' h ?_
  have : ∀ n ∈ ["dgamma", "dG"], (n, [3, 3]) ∈ Spec.jmsRanges := by decide +kernel
  simp only [bsources, jmsFierzChromTable, List.flatMap_cons, List.flatMap_nil, List.forall_mem_append,
    List.forall_mem_cons, Ex.sources_cj, Ex.sources_src, List.not_mem_nil, IsEmpty.forall_iff, forall_const, and_true]
  repeat' apply And.intro
  all_goals exact isJms2 (this _ (by simp)) (Fin.isLt _) (Fin.isLt _)

theorem reads_jmsBernI {qq : String} (hq : qq ∈ ["sb", "db", "ds"]) : Reads Spec.IsJms (jmsBernI qq) := by
  obtain ⟨i, j, h⟩ := jmsBernI_eq hq
  refine .mk' h ?_
  have : ∀ n ∈ ["VddLL", "VddRR", "V1ddLR", "V8ddLR", "S1ddRR", "S8ddRR"], (n, [3, 3, 3, 3]) ∈ Spec.jmsRanges := by
    decide +kernel
  simp only [bsources, jmsBernIDown, List.flatMap_cons, List.flatMap_nil,
    List.forall_mem_cons, Ex.sources_cj, Ex.sources_src, Ex.sources_add, Ex.sources_sub, Ex.sources_neg,
    Ex.sources_div, Ex.sources_mul, List.not_mem_nil, IsEmpty.forall_iff, forall_const, and_true, List.cons_append,
    List.nil_append]
  repeat' apply And.intro
  all_goals exact isJms3333 _ _ _ _ (this _ (by simp))

theorem reads_jmsFierzV {x : String} (hx : x ∈ namesV) : Reads Spec.IsJms (jmsFierzV x) := by
  rcases namesV_split x hx with hx | hx
  · obtain ⟨f1, f2, f3, f4, h3, h4, h⟩ := jmsFierzV_u hx
    refine .mk' h ?_
    have r1 : ∀ n ∈ ["V1udLL", "V8udLL", "V1udRR", "V8udRR", "V1udLR", "V8udLR", "S1udRR", "S8udRR"],
      (n, [2, 2, 3, 3]) ∈ Spec.jmsRanges := by decide +kernel
    have r2 : ∀ n ∈ ["V1duLR", "V8duLR"], (n, [3, 3, 2, 2]) ∈ Spec.jmsRanges := by decide +kernel
    have r3 : ∀ n ∈ ["S1udduRR", "S8udduRR", "V1udduLR", "V8udduLR"], (n, [2, 3, 3, 2]) ∈ Spec.jmsRanges := by
      decide +kernel
    simp only [bsources, fierzDDUU, List.flatMap_cons, List.flatMap_nil,
      List.forall_mem_cons, Ex.sources_cj, Ex.sources_src, Ex.sources_add, Ex.sources_sub, Ex.sources_neg,
      Ex.sources_div, Ex.sources_mul, List.not_mem_nil, IsEmpty.forall_iff, forall_const, and_true, List.cons_append,
      List.nil_append]
    repeat' apply And.intro
    all_goals first
      | exact isJms4 (r1 _ (by simp)) (by omega) (by omega) (by omega) (by omega)
      | exact isJms4 (r2 _ (by simp)) (by omega) (by omega) (by omega) (by omega)
      | exact isJms4 (r3 _ (by simp)) (by omega) (by omega) (by omega) (by omega)
  · obtain ⟨f1, f2, f3, f4, h⟩ := jmsFierzV_d hx
    refine .mk' h ?_
    have : ∀ n ∈ ["VddLL", "VddRR", "V1ddLR", "V8ddLR", "S1ddRR", "S8ddRR"], (n, [3, 3, 3, 3]) ∈ Spec.jmsRanges := by
      decide +kernel
    simp only [bsources, fierzDDDD, List.flatMap_cons, List.flatMap_nil,
      List.forall_mem_cons, Ex.sources_cj, Ex.sources_src, Ex.sources_add, Ex.sources_sub, Ex.sources_neg,
      Ex.sources_div, Ex.sources_mul, List.not_mem_nil, IsEmpty.forall_iff, forall_const, and_true, List.cons_append,
      List.nil_append]
    repeat' apply And.intro
    all_goals exact isJms3333 _ _ _ _ (this _ (by simp))

/-! ### Second stage -/

theorem reads_bernFlavioI {qq : String} (hq : qq ∈ ["sb", "db", "ds"]) :
    Reads (· ∈ bkeys (okOr (jmsBernI qq))) (bernFlavioI qq) := by
  obtain ⟨i, j, h⟩ := jmsBernI_eq hq
  refine .mk' (bernFlavioI_eq hq) ?_
  rw [h, okOr_ok]
  simp [bsources, bernFlavioITable, bkeys, jmsBernIDown]

theorem reads_bernFlavioII (hP : Spec.Admissible P) {x : String} (hx : x ∈ namesII) :
    Reads (· ∈ bkeys (okOr (jmsBernII x))) (bernFlavioII P x) := by
  obtain ⟨u, d, l, lp, -, h, h'⟩ := jmsBernII_eq hx
  refine .mk' (bernFlavioII_eq hP h') ?_
  rw [h, okOr_ok, bsources_scaleBy]
  simp [bsources, bernFlavioIITable, bkeys, jmsBernIITable]

theorem reads_fierzFlavioLep (hP : Spec.Admissible P) {qq x : String} (hq : qq ∈ ["sb", "db", "ds"])
    (hx : x ∈ namesLep qq) (c : Bool) : Reads (· ∈ bkeys (okOr (jmsFierzLep x))) (fierzFlavioLep P x c) := by
  obtain ⟨s, b, l, lp, h⟩ := jmsFierzLep_eq hq hx
  obtain ⟨h1, h2⟩ := fierzFlavioLep_eq hP hq hx
  cases c with
  | true =>
    refine .mk' h1 ?_
    rw [h, okOr_ok, bsources_scaleBy]
    simp [bsources, fierzFlavioNuTable, fierzFlavioLepTable, bkeys, jmsFierzLepTable]
  | false =>
    refine .mk' h2 ?_
    rw [h, okOr_ok, bsources_scaleBy]
    simp [bsources, fierzFlavioNuTable, bkeys, jmsFierzLepTable]

theorem reads_fierzFlavioChrom (hP : Spec.Admissible P) {qq : String} (hq : qq ∈ ["sb", "db", "ds"]) :
    Reads (· ∈ bkeys (okOr (jmsFierzChrom qq))) (fierzFlavioChrom P qq) := by
  obtain ⟨s, b, h⟩ := jmsFierzChrom_eq hq
  refine .mk' (fierzFlavioChrom_eq hP hq) ?_
  rw [h, okOr_ok, bsources_scaleBy]
  simp [bsources, fierzFlavioChromTable, bkeys, jmsFierzChromTable]

theorem reads_fierzBernLep {qq x : String} (hq : qq ∈ ["sb", "db", "ds"]) (hx : x ∈ namesLep qq) :
    Reads (· ∈ bkeys (okOr (jmsFierzLep x))) (fierzBernLep x) := by
  obtain ⟨s, b, l, lp, h⟩ := jmsFierzLep_eq hq hx
  refine .mk' rfl ?_
  rw [h, okOr_ok]
  simp [bsources, fierzBernLepTable, bkeys, jmsFierzLepTable]

theorem reads_fierzBernChrom (hP : Spec.Admissible P) {qq : String} (hq : qq ∈ ["sb", "db", "ds"]) :
    Reads (· ∈ bkeys (okOr (jmsFierzChrom qq))) (fierzBernChrom P qq) := by
  obtain ⟨s, b, h⟩ := jmsFierzChrom_eq hq
  refine .mk' (fierzBernChrom_eq hP qq) ?_
  rw [h, okOr_ok]
  simp [bsources, fierzBernChromTable, bkeys, jmsFierzChromTable]

theorem reads_fierzBernV {x : String} (hx : x ∈ namesV) : Reads (· ∈ bkeys (okOr (jmsFierzV x))) (fierzBernV x) := by
  have hk : bkeys (okOr (jmsFierzV x)) = bkeys (fierzDDUU x 0 0 0 0) := by
    rcases namesV_split x hx with hx | hx
    · obtain ⟨f1, f2, f3, f4, h3, h4, h⟩ := jmsFierzV_u hx
      rw [h]; rfl
    · obtain ⟨f1, f2, f3, f4, h⟩ := jmsFierzV_d hx
      rw [h]; rfl
  rw [hk]
  rcases fierzBernV_eq x hx with h | h | h
  · refine .mk' h ?_
    simp [bsources, fierzBern24, bkeys, fierzDDUU]
  · refine .mk' h ?_
    simp [bsources, fierzBern22, bkeys, fierzDDUU]
  · refine .mk' h ?_
    simp [bsources, fierzBernGen, bkeys, fierzDDUU]

/-! ### Names of the Bern and flavio bases -/

theorem mem_words {a b : List String} {x y : String} (hx : x ∈ a) (hy : y ∈ b) : x ++ y ∈ Spec.words a b :=
  List.mem_flatMap.2 ⟨x, hx, List.mem_map.2 ⟨y, hy, rfl⟩⟩

theorem indII_mem : ∀ x ∈ namesII,
    indII x ∈ Spec.words ["u", "c"] (Spec.words ["d", "s", "b"] (Spec.words Spec.leptons Spec.leptons)) ∧
    indIIfl x ∈ Spec.words ["d", "s", "b"] (Spec.words ["u", "c"] (Spec.words Spec.leptons (Spec.words ["nu"] Spec.leptons))) := by
  decide +kernel

theorem indLep_mem : ∀ qq ∈ ["sb", "db", "ds"], ∀ x ∈ namesLep qq,
    indLep x ∈ Spec.words ["sb", "db", "ds"] (Spec.words Spec.leptons Spec.leptons) := by decide +kernel

theorem indLepFl_mem : ∀ qq ∈ ["sb", "db"], ∀ x ∈ namesLep qq,
    indLepFl x ∈ Spec.words ["bs", "bd"] (Spec.words Spec.leptons Spec.leptons) ∧
    indNuFl x ∈ Spec.words ["bs", "bd"] (Spec.words ["nu"] (Spec.words Spec.leptons (Spec.words ["nu"] Spec.leptons))) := by
  decide +kernel

theorem bern_I {n qq : String} (hn : n ∈ ["1", "2", "3", "4", "5", "1p", "2p", "3p"]) (hq : qq ∈ ["sb", "db", "ds"]) :
    n ++ (qq ++ qq) ∈ Spec.bernNames := by
  have : qq ++ qq ∈ ["sbsb", "dbdb", "dsds"] := by
    simp only [List.mem_cons, List.not_mem_nil, or_false] at hq
    rcases hq with rfl | rfl | rfl <;> decide +kernel
  have := mem_words hn this
  unfold Spec.bernNames
  simp only [List.mem_append]; tauto

theorem bern_II {n x : String} (hn : n ∈ ["1", "5", "1p", "5p", "7p"]) (hx : x ∈ namesII) :
    n ++ indII x ∈ Spec.bernNames := by
  have := mem_words hn (indII_mem x hx).1
  unfold Spec.bernNames
  simp only [List.mem_append]; tauto

theorem bern_lep {n qq x : String} (hn : n ∈ ["1", "3", "5", "7", "9", "1p", "3p", "5p", "7p", "9p", "nu1", "nu1p"])
    (hq : qq ∈ ["sb", "db", "ds"]) (hx : x ∈ namesLep qq) : n ++ indLep x ∈ Spec.bernNames := by
  have := mem_words hn (indLep_mem qq hq x hx)
  unfold Spec.bernNames
  simp only [List.mem_append]; tauto

theorem bern_chrom {n qq : String} (hn : n ∈ ["7gamma", "8g", "7pgamma", "8pg"]) (hq : qq ∈ ["sb", "db"]) :
    n ++ qq ∈ Spec.bernNames := by
  have := mem_words hn hq
  unfold Spec.bernNames
  simp only [List.mem_append]; tauto

theorem flavio_I {n qq : String}
    (hn : n ∈ ["CVLL_", "CSLL_", "CTLL_", "CVLR_", "CVRR_", "CSRR_", "CTRR_", "CSLR_"]) (hq : qq ∈ ["bs", "bd", "sd"]) :
    n ++ (qq ++ qq) ∈ Spec.flavioNames := by
  have : qq ++ qq ∈ ["bsbs", "bdbd", "sdsd"] := by
    simp only [List.mem_cons, List.not_mem_nil, or_false] at hq
    rcases hq with rfl | rfl | rfl <;> decide +kernel
  have := mem_words hn this
  unfold Spec.flavioNames
  simp only [List.mem_append]; tauto

theorem flavio_II {n x : String} (hn : n ∈ ["CVL_", "CVR_", "CSR_", "CSL_", "CT_"]) (hx : x ∈ namesII) :
    n ++ indIIfl x ∈ Spec.flavioNames := by
  have := mem_words hn (indII_mem x hx).2
  unfold Spec.flavioNames
  simp only [List.mem_append]; tauto

theorem flavio_lep {n qq x : String} (hn : n ∈ ["C9_", "C9p_", "C10_", "C10p_", "CS_", "CSp_", "CP_", "CPp_"])
    (hq : qq ∈ ["sb", "db"]) (hx : x ∈ namesLep qq) : n ++ indLepFl x ∈ Spec.flavioNames := by
  have := mem_words hn (indLepFl_mem qq hq x hx).1
  unfold Spec.flavioNames
  simp only [List.mem_append]; tauto

theorem flavio_nu {n qq x : String} (hn : n ∈ ["CL_", "CR_"]) (hq : qq ∈ ["sb", "db"]) (hx : x ∈ namesLep qq) :
    n ++ indNuFl x ∈ Spec.flavioNames := by
  have := mem_words hn (indLepFl_mem qq hq x hx).2
  unfold Spec.flavioNames
  simp only [List.mem_append]; tauto

theorem flavio_chrom {n qq : String} (hn : n ∈ ["C7_", "C8_", "C7p_", "C8p_"]) (hq : qq ∈ ["bs", "bd"]) :
    n ++ qq ∈ Spec.flavioNames := by
  have := mem_words hn hq
  unfold Spec.flavioNames
  simp only [List.mem_append]; tauto

theorem sub3 {qq : String} (hq : qq ∈ ["sb", "db"]) : qq ∈ ["sb", "db", "ds"] := by
  simp only [List.mem_cons, List.not_mem_nil, or_false] at hq ⊢; tauto

/-! ### Reading Bern -/

theorem bern_bernFlavioI {qq : String} (hq : qq ∈ ["sb", "db", "ds"]) :
    Reads (· ∈ Spec.bernNames) (bernFlavioI qq) := by
  refine .mk' (bernFlavioI_eq hq) ?_
  simp only [bsources, bernFlavioITable, List.flatMap_cons, List.flatMap_nil,
    List.forall_mem_cons, Ex.sources_src, Ex.sources_sub, Ex.sources_mul, List.not_mem_nil,
    IsEmpty.forall_iff, forall_const, and_true, List.cons_append, List.nil_append]
  repeat' apply And.intro
  all_goals exact bern_I (by simp) hq

theorem bern_bernFlavioII (hP : Spec.Admissible P) {x : String} (hx : x ∈ namesII) :
    Reads (· ∈ Spec.bernNames) (bernFlavioII P x) := by
  obtain ⟨u, d, l, lp, -, h, h'⟩ := jmsBernII_eq hx
  refine .mk' (bernFlavioII_eq hP h') ?_
  rw [bsources_scaleBy]
  simp only [bsources, bernFlavioIITable, List.flatMap_cons, List.flatMap_nil,
    List.forall_mem_cons, Ex.sources_src, List.not_mem_nil,
    IsEmpty.forall_iff, forall_const, and_true, List.cons_append, List.nil_append]
  repeat' apply And.intro
  all_goals exact bern_II (by simp) hx

theorem bern_bernFierzLep {qq x : String} (hq : qq ∈ ["sb", "db", "ds"]) (hx : x ∈ namesLep qq) :
    Reads (· ∈ Spec.bernNames) (bernFierzLep x) := by
  refine .mk' rfl ?_
  simp only [bsources, bernFierzLepTable, List.flatMap_cons, List.flatMap_nil,
    List.forall_mem_cons, Ex.sources_src, Ex.sources_add, Ex.sources_sub, Ex.sources_mul, Ex.sources_div, List.not_mem_nil,
    IsEmpty.forall_iff, forall_const, and_true, List.cons_append, List.nil_append]
  repeat' apply And.intro
  all_goals exact bern_lep (by simp) hq hx

theorem bern_bernFierzChrom (hP : Spec.Admissible P) {qq : String} (hq : qq ∈ ["sb", "db"]) :
    Reads (· ∈ Spec.bernNames) (bernFierzChrom P qq) := by
  refine .mk' (bernFierzChrom_eq hP qq) ?_
  simp only [bsources, bernFierzChromTable, List.flatMap_cons, List.flatMap_nil,
    List.forall_mem_cons, Ex.sources_src, Ex.sources_div, List.not_mem_nil,
    IsEmpty.forall_iff, forall_const, and_true, List.cons_append, List.nil_append]
  repeat' apply And.intro
  all_goals exact bern_chrom (by simp) hq

theorem bern_fierzFlavioLep (hP : Spec.Admissible P) {qq x : String} (hq : qq ∈ ["sb", "db", "ds"])
    (hx : x ∈ namesLep qq) (c : Bool) : Reads (· ∈ bkeys (okOr (bernFierzLep x))) (fierzFlavioLep P x c) := by
  obtain ⟨h1, h2⟩ := fierzFlavioLep_eq hP hq hx
  cases c with
  | true =>
    refine .mk' h1 ?_
    rw [bsources_scaleBy]
    simp [bsources, fierzFlavioNuTable, fierzFlavioLepTable, bkeys, bernFierzLepTable, bernFierzLep]
  | false =>
    refine .mk' h2 ?_
    rw [bsources_scaleBy]
    simp [bsources, fierzFlavioNuTable, bkeys, bernFierzLepTable, bernFierzLep]

theorem bern_fierzFlavioChrom (hP : Spec.Admissible P) {qq : String} (hq : qq ∈ ["sb", "db", "ds"]) :
    Reads (· ∈ bkeys (okOr (bernFierzChrom P qq))) (fierzFlavioChrom P qq) := by
  refine .mk' (fierzFlavioChrom_eq hP hq) ?_
  rw [bernFierzChrom_eq hP, okOr_ok, bsources_scaleBy]
  simp [bsources, fierzFlavioChromTable, bkeys, bernFierzChromTable]

/-! ### Reading flavio -/

theorem flavio_flavioBernI {qq : String} (hq : qq ∈ ["bs", "bd", "sd"]) :
    flavioBernI qq = .ok (flavioBernITable qq (pyRev qq)) ∧ Reads (· ∈ Spec.flavioNames) (flavioBernI qq) := by
  have h : flavioBernI qq = .ok (flavioBernITable qq (pyRev qq)) := by
    unfold flavioBernI
    rw [if_pos]
    simp only [List.mem_cons, List.not_mem_nil, or_false] at hq ⊢
    tauto
  refine ⟨h, .mk' h ?_⟩
  simp only [bsources, flavioBernITable, List.flatMap_cons, List.flatMap_nil,
    List.forall_mem_cons, Ex.sources_src, Ex.sources_sub, Ex.sources_mul, List.not_mem_nil,
    IsEmpty.forall_iff, forall_const, and_true, List.cons_append, List.nil_append]
  repeat' apply And.intro
  all_goals exact flavio_I (by simp) hq

theorem flavio_flavioBernII (hP : Spec.Admissible P) {x : String} (hx : x ∈ namesII) :
    Reads (· ∈ Spec.flavioNames) (flavioBernII P x) := by
  obtain ⟨u, d, l, lp, -, h, h'⟩ := jmsBernII_eq hx
  refine .mk' (flavioBernII_eq hP h') ?_
  rw [bsources_divideBy]
  simp only [bsources, flavioBernIITable, List.flatMap_cons, List.flatMap_nil,
    List.forall_mem_cons, Ex.sources_src, List.not_mem_nil,
    IsEmpty.forall_iff, forall_const, and_true, List.cons_append, List.nil_append]
  repeat' apply And.intro
  all_goals exact flavio_II (by simp) hx

theorem flavio_flavioFierzLep (hP : Spec.Admissible P) {qq x : String} (hq : qq ∈ ["sb", "db"]) (hx : x ∈ namesLep qq) :
    Reads (· ∈ Spec.flavioNames) (flavioFierzLep P x) := by
  refine .mk' (flavioFierzLep_eq hP (sub3 hq) hx) ?_
  rw [bsources_divideBy]
  simp only [bsources, flavioFierzLepTable, List.flatMap_cons, List.flatMap_nil,
    List.forall_mem_cons, Ex.sources_src, Ex.sources_div, Ex.sources_zero, List.not_mem_nil,
    IsEmpty.forall_iff, forall_const, and_true, List.cons_append, List.nil_append]
  have hl : ∀ n ∈ ["C9_", "C9p_", "C10_", "C10p_", "CS_", "CSp_", "CP_", "CPp_"], n ++ indLepFl x ∈ Spec.flavioNames :=
    fun n hn => flavio_lep hn hq hx
  have hn : ∀ n ∈ ["CL_", "CR_"], n ++ indNuFl x ∈ Spec.flavioNames := fun n hn => flavio_nu hn hq hx
  generalize indLepFl x = y at hl ⊢
  generalize indNuFl x = z at hn ⊢
  refine ⟨hl _ ?_, hl _ ?_, hl _ ?_, hl _ ?_, hl _ ?_, hl _ ?_, hl _ ?_, hl _ ?_, hn _ ?_, hn _ ?_⟩ <;> simp

theorem pyRev_sub {qq : String} (hq : qq ∈ ["sb", "db"]) : pyRev qq ∈ ["bs", "bd"] := by
  simp only [List.mem_cons, List.not_mem_nil, or_false] at hq
  rcases hq with rfl | rfl <;> decide +kernel

theorem flavio_flavioFierzChrom (hP : Spec.Admissible P) {qq : String} (hq : qq ∈ ["sb", "db"]) :
    Reads (· ∈ Spec.flavioNames) (flavioFierzChrom P qq) := by
  refine .mk' (flavioFierzChrom_eq hP (sub3 hq)) ?_
  rw [bsources_divideBy]
  simp only [bsources, flavioFierzChromTable, List.flatMap_cons, List.flatMap_nil,
    List.forall_mem_cons, Ex.sources_src, Ex.sources_div, List.not_mem_nil,
    IsEmpty.forall_iff, forall_const, and_true, List.cons_append, List.nil_append]
  repeat' apply And.intro
  all_goals exact flavio_chrom (by simp) (pyRev_sub hq)

theorem flavio_fierzBernLep (hP : Spec.Admissible P) {qq x : String} (hq : qq ∈ ["sb", "db", "ds"])
    (hx : x ∈ namesLep qq) : Reads (· ∈ bkeys (okOr (flavioFierzLep P x))) (fierzBernLep x) := by
  refine .mk' rfl ?_
  rw [flavioFierzLep_eq hP hq hx, okOr_ok, bkeys_divideBy]
  simp [bsources, fierzBernLepTable, bkeys, flavioFierzLepTable]

theorem flavio_fierzBernChrom (hP : Spec.Admissible P) {qq : String} (hq : qq ∈ ["sb", "db", "ds"]) :
    Reads (· ∈ bkeys (okOr (flavioFierzChrom P qq))) (fierzBernChrom P qq) := by
  refine .mk' (fierzBernChrom_eq hP qq) ?_
  rw [flavioFierzChrom_eq hP hq, okOr_ok, bkeys_divideBy]
  simp [bsources, fierzBernChromTable, bkeys, flavioFierzChromTable]

end Verif
