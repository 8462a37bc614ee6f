import Verif.Lemmas.WetComp

/-! The tables used by the WET translators can be evaluated. -/

set_option autoImplicit false

namespace Verif

variable {S : Type} {P : PEnv}

/-- The table if there is one. -/
def okOr (b : Except PyErr (Block S)) : Block S :=
  match b with
  | .ok b => b
  | .error _ => []

@[simp] theorem okOr_ok (b : Block S) : okOr (.ok b) = b := rfl

/-- Entries of the basis are read, and there is a table. -/
structure Reads (Q : S → Prop) (b : Except PyErr (Block S)) : Prop where
  ok : b = .ok (okOr b)
  src : ∀ s ∈ bsources (okOr b), Q s

theorem Reads.mk' {Q : S → Prop} {b : Except PyErr (Block S)} {t : Block S} (h : b = .ok t)
    (hs : ∀ s ∈ bsources t, Q s) : Reads Q b := by
  subst h; exact ⟨rfl, hs⟩

theorem Reads.mono {Q R : S → Prop} {b : Except PyErr (Block S)} (h : Reads Q b) (hi : ∀ s, Q s → R s) : Reads R b :=
  ⟨h.ok, fun s hs => hi s (h.src s hs)⟩

theorem call_reads {Q : S → Prop} {rd : S → Except PyErr ℂ} {v : S → ℂ} (hrd : ∀ s, Q s → rd s = .ok (v s))
    {b : Except PyErr (Block S)} (h : Reads Q b) : call rd b = .ok (bval v (okOr b)) := by
  have h1 := h.ok
  generalize hb : okOr b = t at h1
  subst h1
  exact call_ok fun s hs => hrd s (h.src s (by rw [hb]; exact hs))

theorem call2_reads {Q : S → Prop} {rd : S → Except PyErr ℂ} {v : S → ℂ} (hrd : ∀ s, Q s → rd s = .ok (v s))
    {b : Except PyErr (Block S)} {b' : Except PyErr (Block String)} (h : Reads Q b)
    (h' : Reads (· ∈ bkeys (okOr b)) b') : call2 rd b b' = .ok (bval v (comp (okOr b) (okOr b'))) := by
  have h1 := h.ok
  have h2 := h'.ok
  generalize hb : okOr b = t at *
  generalize hb' : okOr b' = t' at *
  subst h1 h2
  exact call2_comp (fun s hs => hrd s (h.src s (by rw [hb]; exact hs))) (fun k hk => h'.src k (by rw [hb']; exact hk))

/-! ### Flavour indices -/

/-- There is a value. -/
def okB {α : Type} : Except PyErr α → Bool
  | .ok _ => true
  | .error _ => false

theorem okB_elim {α : Type} {x : Except PyErr α} (h : okB x = true) : ∃ a, x = .ok a := by
  cases x with
  | ok a => exact ⟨a, rfl⟩
  | error e => cases h

/-- An up quark index is 0 or 1. -/
theorem uflav_lt {k : String} {i : Fin 3} (h : Dict.get uflav k = .ok i) : i.val < 2 := by
  have := Dict.mem_of_find (Dict.get_ok_iff.1 h)
  simp only [uflav, List.mem_cons, List.not_mem_nil, or_false, Prod.mk.injEq] at this
  rcases this with ⟨-, rfl⟩ | ⟨-, rfl⟩ <;> decide

/-- The names of the loop over semileptonic operators. -/
def namesLep (qq : String) : List String := leptonPairs.map (nameLep qq)

theorem flavII_names : ∀ x ∈ namesII, okB (flavII x) = true := by decide +kernel

theorem flavLep_names : ∀ qq ∈ ["sb", "db", "ds"], ∀ x ∈ namesLep qq, okB (Dict.get dflav (chr x 0)) = true ∧
    okB (Dict.get dflav (chr x 1)) = true ∧ okB (Dict.get lflav (lepPart x)) = true ∧
    okB (Dict.get lflav (nuPart x)) = true ∧ pySlice x 0 2 = qq := by decide +kernel

theorem flavII_elim {x : String} (hx : x ∈ namesII) :
    ∃ u d l lp : Fin 3, flavII x = .ok (u, d, l, lp) ∧ u.val < 2 := by
  obtain ⟨⟨u, d, l, lp⟩, h⟩ := okB_elim (flavII_names x hx)
  refine ⟨u, d, l, lp, h, ?_⟩
  unfold flavII at h
  cases h1 : Dict.get uflav (chr x 0) with
  | error e => rw [h1] at h; cases h
  | ok u' =>
    rw [h1, except_ok_bind] at h
    cases h2 : Dict.get dflav (chr x 1) with
    | error e => rw [h2] at h; cases h
    | ok d' =>
      rw [h2, except_ok_bind] at h
      cases h3 : Dict.get lflav (lepPart x) with
      | error e => rw [h3] at h; cases h
      | ok l' =>
        rw [h3, except_ok_bind] at h
        cases h4 : Dict.get lflav (nuPart x) with
        | error e => rw [h4] at h; cases h
        | ok lp' =>
          rw [h4, except_ok_bind] at h
          injection h with h
          injection h with h _
          subst h
          exact uflav_lt h1

theorem jmsBernII_eq {x : String} (hx : x ∈ namesII) : ∃ u d l lp : Fin 3, u.val < 2 ∧
    jmsBernII x = .ok (jmsBernIITable (indII x) u d l lp) ∧ flavII x = .ok (u, d, l, lp) := by
  obtain ⟨u, d, l, lp, h, hu⟩ := flavII_elim hx
  refine ⟨u, d, l, lp, hu, ?_, h⟩
  unfold jmsBernII
  rw [h]; rfl

theorem bernFlavioII_eq (hP : Spec.Admissible P) {x : String} {u d l lp : Fin 3} (h : flavII x = .ok (u, d, l, lp)) :
    bernFlavioII P x = .ok (scaleBy (prefIIv P u d) (bernFlavioIITable (indII x) (indIIfl x))) := by
  unfold bernFlavioII
  rw [h, except_ok_bind]
  simp only [prefII_ok hP, except_ok_bind]; rfl

theorem flavioBernII_eq (hP : Spec.Admissible P) {x : String} {u d l lp : Fin 3} (h : flavII x = .ok (u, d, l, lp)) :
    flavioBernII P x = .ok (divideBy (prefIIv P u d) (flavioBernIITable (indII x) (indIIfl x))) := by
  unfold flavioBernII
  rw [h, except_ok_bind]
  simp only [prefII_ok hP, except_ok_bind]; rfl

theorem bernEosII_eq (hP : Spec.Admissible P) {x : String} {u d l lp : Fin 3} (h : flavII x = .ok (u, d, l, lp)) :
    bernEosII P x = .ok (scaleBy (prefIIv P u d) (bernEosIITable (indII x) (indIIeos x))) := by
  unfold bernEosII
  rw [h, except_ok_bind]
  simp only [prefII_ok hP, except_ok_bind]; rfl

theorem jmsFierzLep_eq {qq x : String} (hq : qq ∈ ["sb", "db", "ds"]) (hx : x ∈ namesLep qq) :
    ∃ s b l lp : Fin 3, jmsFierzLep x = .ok (jmsFierzLepTable (indLep x) s b l lp) := by
  obtain ⟨h1, h2, h3, h4, -⟩ := flavLep_names qq hq x hx
  obtain ⟨s, h1⟩ := okB_elim h1
  obtain ⟨b, h2⟩ := okB_elim h2
  obtain ⟨l, h3⟩ := okB_elim h3
  obtain ⟨lp, h4⟩ := okB_elim h4
  refine ⟨s, b, l, lp, ?_⟩
  unfold jmsFierzLep
  rw [h1, h2, h3, h4]; rfl

theorem sq_ne {x : ℝ} (h : x ≠ 0) : x ^ 2 ≠ 0 := pow_ne_zero 2 h

/-- `8 pi^2 / e^2` etc. -/
noncomputable def k8v (P : PEnv) : ℝ := 8 * Real.pi ^ 2 / ev P ^ 2
noncomputable def k16v (P : PEnv) : ℝ := 16 * Real.pi ^ 2 / ev P ^ 2
noncomputable def kSv (P : PEnv) : ℝ := k16v P / P.p.m_b

theorem k8v_ne (hP : Spec.Admissible P) : k8v P ≠ 0 :=
  div_ne_zero (by have := Real.pi_pos; positivity) (sq_ne (ev_ne hP))

theorem k16v_ne (hP : Spec.Admissible P) : k16v P ≠ 0 :=
  div_ne_zero (by have := Real.pi_pos; positivity) (sq_ne (ev_ne hP))

theorem kSv_ne (hP : Spec.Admissible P) : kSv P ≠ 0 := div_ne_zero (k16v_ne hP) hP.m_b

theorem fierzFlavioLep_eq (hP : Spec.Admissible P) {qq x : String} (hq : qq ∈ ["sb", "db", "ds"]) (hx : x ∈ namesLep qq) :
    fierzFlavioLep P x true = .ok (scaleBy (prefXiv P (xiv P qq))
      (fierzFlavioNuTable (indLep x) (indNuFl x) (k8v P) ++
        fierzFlavioLepTable (indLep x) (indLepFl x) (k16v P) (kSv P))) ∧
    fierzFlavioLep P x false = .ok (scaleBy (prefXiv P (xiv P qq))
      (fierzFlavioNuTable (indLep x) (indNuFl x) (k8v P))) := by
  obtain ⟨-, -, -, -, h5⟩ := flavLep_names qq hq x hx
  have he := sq_ne (ev_ne hP)
  have hxi := prefXi_ok hP (xiv_ne hP qq)
  constructor
  · unfold fierzFlavioLep
    rw [h5, xiOf_ok hq, except_ok_bind, e_ok hP, except_ok_bind, divE_ok he, except_ok_bind]
    simp only [if_true]
    rw [divE_ok he, except_ok_bind, divE_ok hP.m_b, except_ok_bind, hxi, except_ok_bind]; rfl
  · unfold fierzFlavioLep
    rw [h5, xiOf_ok hq, except_ok_bind, e_ok hP, except_ok_bind, divE_ok he, except_ok_bind]
    simp only [Bool.false_eq_true, if_false]
    rw [hxi, except_ok_bind]; rfl

theorem flavioFierzLep_eq (hP : Spec.Admissible P) {qq x : String} (hq : qq ∈ ["sb", "db", "ds"]) (hx : x ∈ namesLep qq) :
    flavioFierzLep P x = .ok (divideBy (prefXiv P (xiv P qq))
      (flavioFierzLepTable (indLep x) (indLepFl x) (indNuFl x) (k8v P) (k16v P) (kSv P))) := by
  obtain ⟨-, -, -, -, h5⟩ := flavLep_names qq hq x hx
  have he := sq_ne (ev_ne hP)
  unfold flavioFierzLep
  rw [h5, xiOf_ok hq, except_ok_bind, e_ok hP, except_ok_bind, divE_ok he, except_ok_bind, divE_ok hP.m_b,
    except_ok_bind, divE_ok he, except_ok_bind, prefXi_ok hP (xiv_ne hP qq), except_ok_bind]; rfl

/-! ### Dipoles -/

theorem jmsFierzChrom_eq {qq : String} (hq : qq ∈ ["sb", "db", "ds"]) :
    ∃ s b : Fin 3, jmsFierzChrom qq = .ok (jmsFierzChromTable qq s b) := by
  simp only [List.mem_cons, List.not_mem_nil, or_false] at hq
  have h : ∀ qq ∈ ["sb", "db", "ds"], okB (Dict.get dflav (chr qq 0)) = true ∧ okB (Dict.get dflav (chr qq 1)) = true := by
    decide +kernel
  obtain ⟨h1, h2⟩ := h qq (by simpa using hq)
  obtain ⟨s, h1⟩ := okB_elim h1
  obtain ⟨b, h2⟩ := okB_elim h2
  exact ⟨s, b, by unfold jmsFierzChrom; rw [h1, h2]; rfl⟩

noncomputable def kgv (P : PEnv) : ℝ := gv P ^ 2 / ev P / P.p.m_b
noncomputable def kgsv (P : PEnv) : ℝ := gv P / P.p.m_b
noncomputable def k7v (P : PEnv) : ℝ := 16 * Real.pi ^ 2 / ev P / P.p.m_b
noncomputable def k7gv (P : PEnv) : ℝ := 16 * Real.pi ^ 2 / gv P / P.p.m_b

theorem kgv_ne (hP : Spec.Admissible P) : kgv P ≠ 0 := div_ne_zero (div_ne_zero (sq_ne (gv_ne hP)) (ev_ne hP)) hP.m_b
theorem kgsv_ne (hP : Spec.Admissible P) : kgsv P ≠ 0 := div_ne_zero (gv_ne hP) hP.m_b
theorem k7v_ne (hP : Spec.Admissible P) : k7v P ≠ 0 :=
  div_ne_zero (div_ne_zero (by have := Real.pi_pos; positivity) (ev_ne hP)) hP.m_b
theorem k7gv_ne (hP : Spec.Admissible P) : k7gv P ≠ 0 :=
  div_ne_zero (div_ne_zero (by have := Real.pi_pos; positivity) (gv_ne hP)) hP.m_b

theorem bernChromFactors_ok (hP : Spec.Admissible P) : bernChromFactors P = .ok (kgv P, kgsv P) := by
  unfold bernChromFactors
  rw [e_ok hP, except_ok_bind, gs_ok hP, except_ok_bind, divE_ok (ev_ne hP), except_ok_bind, divE_ok hP.m_b,
    except_ok_bind, divE_ok hP.m_b, except_ok_bind]; rfl

theorem flavioChromFactors_ok (hP : Spec.Admissible P) : flavioChromFactors P = .ok (k7v P, k7gv P) := by
  unfold flavioChromFactors
  rw [e_ok hP, except_ok_bind, gs_ok hP, except_ok_bind, divE_ok (ev_ne hP), except_ok_bind, divE_ok hP.m_b,
    except_ok_bind, divE_ok (gv_ne hP), except_ok_bind, divE_ok hP.m_b, except_ok_bind]; rfl

theorem fierzBernChrom_eq (hP : Spec.Admissible P) (qq : String) :
    fierzBernChrom P qq = .ok (fierzBernChromTable qq (kgv P) (kgsv P)) := by
  unfold fierzBernChrom
  rw [bernChromFactors_ok hP, except_ok_bind]; rfl

theorem bernFierzChrom_eq (hP : Spec.Admissible P) (qq : String) :
    bernFierzChrom P qq = .ok (bernFierzChromTable qq (kgv P) (kgsv P)) := by
  unfold bernFierzChrom
  rw [bernChromFactors_ok hP, except_ok_bind]
  simp only [divE_ok (kgv_ne hP), divE_ok (kgsv_ne hP), except_ok_bind]; rfl

theorem fierzFlavioChrom_eq (hP : Spec.Admissible P) {qq : String} (hq : qq ∈ ["sb", "db", "ds"]) :
    fierzFlavioChrom P qq = .ok (scaleBy (prefXiv P (xiv P qq)) (fierzFlavioChromTable qq (pyRev qq) (k7v P) (k7gv P))) := by
  unfold fierzFlavioChrom
  rw [xiOf_ok hq, except_ok_bind, flavioChromFactors_ok hP, except_ok_bind]
  simp only [prefXi_ok hP (xiv_ne hP qq), except_ok_bind]; rfl

theorem flavioFierzChrom_eq (hP : Spec.Admissible P) {qq : String} (hq : qq ∈ ["sb", "db", "ds"]) :
    flavioFierzChrom P qq = .ok (divideBy (prefXiv P (xiv P qq)) (flavioFierzChromTable qq (pyRev qq) (k7v P) (k7gv P))) := by
  unfold flavioFierzChrom
  rw [xiOf_ok hq, except_ok_bind, flavioChromFactors_ok hP, except_ok_bind]
  simp only [prefXi_ok hP (xiv_ne hP qq), except_ok_bind]; rfl

/-! ### Class I and four-quark operators -/

theorem jmsBernI_eq {qq : String} (hq : qq ∈ ["sb", "db", "ds"]) :
    ∃ i j : Fin 3, jmsBernI qq = .ok (jmsBernIDown qq [i, j] [j, i]) := by
  have h : ∀ qq ∈ ["sb", "db", "ds"], okB (Dict.get dflav (chr qq 0)) = true ∧ okB (Dict.get dflav (chr qq 1)) = true := by
    decide +kernel
  obtain ⟨h1, h2⟩ := h qq hq
  obtain ⟨s, h1⟩ := okB_elim h1
  obtain ⟨b, h2⟩ := okB_elim h2
  exact ⟨s, b, by unfold jmsBernI; rw [if_pos hq, h1, h2]; rfl⟩

theorem bernFlavioI_eq {qq : String} (hq : qq ∈ ["sb", "db", "ds"]) :
    bernFlavioI qq = .ok (bernFlavioITable qq (pyRev qq)) := by
  unfold bernFlavioI
  rw [if_pos]
  simp only [List.mem_cons, List.not_mem_nil, or_false] at hq ⊢
  tauto

/-- Four-quark names with two down and two up quarks. -/
def names4ddu : List String :=
  ["sbuc", "sbcu", "dbuc", "dbcu", "dsuc", "dscu", "sbuu", "dbuu", "dsuu", "sbcc", "dbcc", "dscc"]

/-- Four-quark names with down quarks. -/
def names4ddd : List String :=
  ["sbsd", "dbds", "bsbd", "sbss", "dbdd", "dsdd", "sbbb", "dbbb", "dsss", "sbdd", "dsbb", "dbss"]

theorem flav4_u : ∀ x ∈ names4ddu, okB (Dict.get dflav (chr x 0)) = true ∧ okB (Dict.get dflav (chr x 1)) = true ∧
    okB (Dict.get uflav (chr x 2)) = true ∧ okB (Dict.get uflav (chr x 3)) = true := by decide +kernel

theorem flav4_d : ∀ x ∈ names4ddd, okB (Dict.get dflav (chr x 0)) = true ∧ okB (Dict.get dflav (chr x 1)) = true ∧
    okB (Dict.get dflav (chr x 2)) = true ∧ okB (Dict.get dflav (chr x 3)) = true := by decide +kernel

theorem names4_disjoint : ∀ x ∈ names4ddd, x ∉ names4ddu := by decide +kernel

theorem jmsFierzV_u {x : String} (hx : x ∈ names4ddu) : ∃ f1 f2 f3 f4 : Fin 3, f3.val < 2 ∧ f4.val < 2 ∧
    jmsFierzV x = .ok (fierzDDUU x f1 f2 f3 f4) := by
  obtain ⟨h1, h2, h3, h4⟩ := flav4_u x hx
  obtain ⟨f1, h1⟩ := okB_elim h1
  obtain ⟨f2, h2⟩ := okB_elim h2
  obtain ⟨f3, h3⟩ := okB_elim h3
  obtain ⟨f4, h4⟩ := okB_elim h4
  refine ⟨f1, f2, f3, f4, uflav_lt h3, uflav_lt h4, ?_⟩
  unfold names4ddu at hx
  unfold jmsFierzV flav4
  rw [if_pos hx, h1, h2, h3, h4]; rfl

theorem jmsFierzV_d {x : String} (hx : x ∈ names4ddd) : ∃ f1 f2 f3 f4 : Fin 3,
    jmsFierzV x = .ok (fierzDDDD x f1 f2 f3 f4) := by
  obtain ⟨h1, h2, h3, h4⟩ := flav4_d x hx
  obtain ⟨f1, h1⟩ := okB_elim h1
  obtain ⟨f2, h2⟩ := okB_elim h2
  obtain ⟨f3, h3⟩ := okB_elim h3
  obtain ⟨f4, h4⟩ := okB_elim h4
  refine ⟨f1, f2, f3, f4, ?_⟩
  have hn := names4_disjoint x hx
  unfold names4ddu at hn
  unfold names4ddd at hx
  unfold jmsFierzV flav4
  rw [if_neg hn, if_pos hx, h1, h2, h3, h4]; rfl

theorem fierzBernV_eq : ∀ x ∈ namesV, fierzBernV x = .ok (fierzBern24 x) ∨ fierzBernV x = .ok (fierzBern22 x) ∨
    fierzBernV x = .ok (fierzBernGen x) := by
  have h : ∀ x ∈ namesV, x ∈ ["sbss", "dbdd", "dbds", "sbsd", "bsbd", "dsdd"] ∨ x ∈ ["dbbb", "sbbb", "dsss"] ∨
    x ∈ ["sbuu", "sbdd", "sbuu", "sbuc", "sbcu", "sbcc", "dbuu", "dbss", "dbuu", "dbuc", "dbcu", "dbcc",
      "dsuu", "dsbb", "dsuu", "dsuc", "dscu", "dscc"] := by decide +kernel
  intro x hx
  unfold fierzBernV
  by_cases h1 : x ∈ ["sbss", "dbdd", "dbds", "sbsd", "bsbd", "dsdd"]
  · left; rw [if_pos h1]
  · by_cases h2 : x ∈ ["dbbb", "sbbb", "dsss"]
    · right; left; rw [if_neg h1, if_pos h2]
    · right; right; rw [if_neg h1, if_neg h2, if_pos ((h x hx).resolve_left h1 |>.resolve_left h2)]

theorem namesV_split : ∀ x ∈ namesV, x ∈ names4ddu ∨ x ∈ names4ddd := by decide +kernel

end Verif
