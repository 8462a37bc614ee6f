import Verif.Lemmas.WetReads

/-! The WET translators as linear tables. -/

set_option autoImplicit false

namespace Verif

variable {P : PEnv}

/-- Tables of `JMS_to_flavio`. -/
noncomputable def blkJmsFlavio (P : PEnv) : List (Block JSrc) :=
  (["sb", "db", "ds"].map fun qq => comp (okOr (jmsBernI qq)) (okOr (bernFlavioI qq))) ++
  (namesII.map fun x => comp (okOr (jmsBernII x)) (okOr (bernFlavioII P x))) ++
  (leptonPairs.flatMap fun l =>
    [comp (okOr (jmsFierzLep (nameLep "sb" l))) (okOr (fierzFlavioLep P (nameLep "sb" l) true)),
     comp (okOr (jmsFierzLep (nameLep "db" l))) (okOr (fierzFlavioLep P (nameLep "db" l) true)),
     comp (okOr (jmsFierzLep (nameLep "ds" l))) (okOr (fierzFlavioLep P (nameLep "ds" l) false))]) ++
  [comp (okOr (jmsFierzChrom "sb")) (okOr (fierzFlavioChrom P "sb")),
   comp (okOr (jmsFierzChrom "db")) (okOr (fierzFlavioChrom P "db"))]

/-- Tables of `JMS_to_Bern`. -/
noncomputable def blkJmsBern (P : PEnv) : List (Block JSrc) :=
  (["sb", "db", "ds"].map fun qq => okOr (jmsBernI qq)) ++
  (namesII.map fun x => okOr (jmsBernII x)) ++
  (namesV.map fun x => comp (okOr (jmsFierzV x)) (okOr (fierzBernV x))) ++
  (leptonPairs.flatMap fun l =>
    [comp (okOr (jmsFierzLep (nameLep "sb" l))) (okOr (fierzBernLep (nameLep "sb" l))),
     comp (okOr (jmsFierzLep (nameLep "db" l))) (okOr (fierzBernLep (nameLep "db" l))),
     comp (okOr (jmsFierzLep (nameLep "ds" l))) (okOr (fierzBernLep (nameLep "ds" l)))]) ++
  [comp (okOr (jmsFierzChrom "sb")) (okOr (fierzBernChrom P "sb")),
   comp (okOr (jmsFierzChrom "db")) (okOr (fierzBernChrom P "db")),
   comp (okOr (jmsFierzChrom "ds")) (okOr (fierzBernChrom P "ds"))]

/-- Tables of `Bern_to_flavio`. -/
noncomputable def blkBernFlavio (P : PEnv) : List (Block String) :=
  (["sb", "db", "ds"].map fun qq => okOr (bernFlavioI qq)) ++
  (namesII.map fun x => okOr (bernFlavioII P x)) ++
  (leptonPairs.flatMap fun l =>
    [comp (okOr (bernFierzLep (nameLep "sb" l))) (okOr (fierzFlavioLep P (nameLep "sb" l) true)),
     comp (okOr (bernFierzLep (nameLep "db" l))) (okOr (fierzFlavioLep P (nameLep "db" l) true)),
     comp (okOr (bernFierzLep (nameLep "ds" l))) (okOr (fierzFlavioLep P (nameLep "ds" l) false))]) ++
  [comp (okOr (bernFierzChrom P "sb")) (okOr (fierzFlavioChrom P "sb")),
   comp (okOr (bernFierzChrom P "db")) (okOr (fierzFlavioChrom P "db"))]

/-- Tables of `flavio_to_Bern`. -/
noncomputable def blkFlavioBern (P : PEnv) : List (Block String) :=
  (["bs", "bd", "sd"].map fun qq => okOr (flavioBernI qq)) ++
  (namesII.map fun x => okOr (flavioBernII P x)) ++
  (leptonPairs.flatMap fun l =>
    [comp (okOr (flavioFierzLep P (nameLep "sb" l))) (okOr (fierzBernLep (nameLep "sb" l))),
     comp (okOr (flavioFierzLep P (nameLep "db" l))) (okOr (fierzBernLep (nameLep "db" l)))]) ++
  [comp (okOr (flavioFierzChrom P "sb")) (okOr (fierzBernChrom P "sb")),
   comp (okOr (flavioFierzChrom P "db")) (okOr (fierzBernChrom P "db"))]

theorem mem_namesLep (qq : String) {l : String × String} (hl : l ∈ leptonPairs) : nameLep qq l ∈ namesLep qq :=
  List.mem_map.2 ⟨l, hl, rfl⟩

section

variable {rd : JSrc → Except PyErr ℂ} {v : JSrc → ℂ}

theorem jobsJmsFlavio_eq (hP : Spec.Admissible P) (hrd : ∀ s, Spec.IsJms s → rd s = .ok (v s)) :
    jobsJmsFlavio P rd = (blkJmsFlavio P).map fun b => .ok (bval v b) := by
  unfold jobsJmsFlavio blkJmsFlavio
  simp only [List.map_append, List.map_map, List.map_flatMap, Function.comp_def]
  congr 1
  · congr 1
    · congr 1
      · exact List.map_congr_left fun qq hq => call2_reads hrd (reads_jmsBernI hq) (reads_bernFlavioI hq)
      · exact List.map_congr_left fun x hx => call2_reads hrd (reads_jmsBernII hx) (reads_bernFlavioII hP hx)
    · refine List.flatMap_congr fun l hl => ?_
      simp only [List.map_cons, List.map_nil]
      rw [call2_reads hrd (reads_jmsFierzLep (by simp) (mem_namesLep "sb" hl)) (reads_fierzFlavioLep hP (by simp) (mem_namesLep "sb" hl) true),
        call2_reads hrd (reads_jmsFierzLep (by simp) (mem_namesLep "db" hl)) (reads_fierzFlavioLep hP (by simp) (mem_namesLep "db" hl) true),
        call2_reads hrd (reads_jmsFierzLep (by simp) (mem_namesLep "ds" hl)) (reads_fierzFlavioLep hP (by simp) (mem_namesLep "ds" hl) false)]
  · simp only [List.map_cons, List.map_nil]
    rw [call2_reads hrd (reads_jmsFierzChrom (by simp)) (reads_fierzFlavioChrom hP (qq := "sb") (by simp)),
      call2_reads hrd (reads_jmsFierzChrom (by simp)) (reads_fierzFlavioChrom hP (qq := "db") (by simp))]

theorem jobsJmsBern_eq (hP : Spec.Admissible P) (hrd : ∀ s, Spec.IsJms s → rd s = .ok (v s)) :
    jobsJmsBern P rd = (blkJmsBern P).map fun b => .ok (bval v b) := by
  unfold jobsJmsBern blkJmsBern
  simp only [List.map_append, List.map_map, List.map_flatMap, Function.comp_def]
  congr 1
  · congr 1
    · congr 1
      · congr 1
        · exact List.map_congr_left fun qq hq => call_reads hrd (reads_jmsBernI hq)
        · exact List.map_congr_left fun x hx => call_reads hrd (reads_jmsBernII hx)
      · exact List.map_congr_left fun x hx => call2_reads hrd (reads_jmsFierzV hx) (reads_fierzBernV hx)
    · refine List.flatMap_congr fun l hl => ?_
      simp only [List.map_cons, List.map_nil]
      rw [call2_reads hrd (reads_jmsFierzLep (by simp) (mem_namesLep "sb" hl)) (reads_fierzBernLep (by simp) (mem_namesLep "sb" hl)),
        call2_reads hrd (reads_jmsFierzLep (by simp) (mem_namesLep "db" hl)) (reads_fierzBernLep (by simp) (mem_namesLep "db" hl)),
        call2_reads hrd (reads_jmsFierzLep (by simp) (mem_namesLep "ds" hl)) (reads_fierzBernLep (by simp) (mem_namesLep "ds" hl))]
  · simp only [List.map_cons, List.map_nil]
    rw [call2_reads hrd (reads_jmsFierzChrom (by simp)) (reads_fierzBernChrom hP (qq := "sb") (by simp)),
      call2_reads hrd (reads_jmsFierzChrom (by simp)) (reads_fierzBernChrom hP (qq := "db") (by simp)),
      call2_reads hrd (reads_jmsFierzChrom (by simp)) (reads_fierzBernChrom hP (qq := "ds") (by simp))]

end

section

variable {rd : String → Except PyErr ℂ} {v : String → ℂ}

theorem jobsBernFlavio_eq (hP : Spec.Admissible P) (hrd : ∀ s, s ∈ Spec.bernNames → rd s = .ok (v s)) :
    jobsBernFlavio P rd = (blkBernFlavio P).map fun b => .ok (bval v b) := by
  unfold jobsBernFlavio blkBernFlavio
  simp only [List.map_append, List.map_map, List.map_flatMap, Function.comp_def]
  congr 1
  · congr 1
    · congr 1
      · exact List.map_congr_left fun qq hq => call_reads hrd (bern_bernFlavioI hq)
      · exact List.map_congr_left fun x hx => call_reads hrd (bern_bernFlavioII hP hx)
    · refine List.flatMap_congr fun l hl => ?_
      simp only [List.map_cons, List.map_nil]
      rw [call2_reads hrd (bern_bernFierzLep (by simp) (mem_namesLep "sb" hl)) (bern_fierzFlavioLep hP (by simp) (mem_namesLep "sb" hl) true),
        call2_reads hrd (bern_bernFierzLep (by simp) (mem_namesLep "db" hl)) (bern_fierzFlavioLep hP (by simp) (mem_namesLep "db" hl) true),
        call2_reads hrd (bern_bernFierzLep (by simp) (mem_namesLep "ds" hl)) (bern_fierzFlavioLep hP (by simp) (mem_namesLep "ds" hl) false)]
  · simp only [List.map_cons, List.map_nil]
    rw [call2_reads hrd (bern_bernFierzChrom hP (by simp)) (bern_fierzFlavioChrom hP (qq := "sb") (by simp)),
      call2_reads hrd (bern_bernFierzChrom hP (by simp)) (bern_fierzFlavioChrom hP (qq := "db") (by simp))]

theorem jobsFlavioBern_eq (hP : Spec.Admissible P) (hrd : ∀ s, s ∈ Spec.flavioNames → rd s = .ok (v s)) :
    jobsFlavioBern P rd = (blkFlavioBern P).map fun b => .ok (bval v b) := by
  unfold jobsFlavioBern blkFlavioBern
  simp only [List.map_append, List.map_map, List.map_flatMap, Function.comp_def]
  congr 1
  · congr 1
    · congr 1
      · exact List.map_congr_left fun qq hq => call_reads hrd (flavio_flavioBernI hq).2
      · exact List.map_congr_left fun x hx => call_reads hrd (flavio_flavioBernII hP hx)
    · refine List.flatMap_congr fun l hl => ?_
      simp only [List.map_cons, List.map_nil]
      rw [call2_reads hrd (flavio_flavioFierzLep hP (by simp) (mem_namesLep "sb" hl)) (flavio_fierzBernLep hP (by simp) (mem_namesLep "sb" hl)),
        call2_reads hrd (flavio_flavioFierzLep hP (by simp) (mem_namesLep "db" hl)) (flavio_fierzBernLep hP (by simp) (mem_namesLep "db" hl))]
  · simp only [List.map_cons, List.map_nil]
    rw [call2_reads hrd (flavio_flavioFierzChrom hP (by simp)) (flavio_fierzBernChrom hP (qq := "sb") (by simp)),
      call2_reads hrd (flavio_flavioFierzChrom hP (by simp)) (flavio_fierzBernChrom hP (qq := "db") (by simp))]

end

end Verif
