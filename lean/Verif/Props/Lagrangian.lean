import Verif.Lemmas.LagMain
import Verif.Props.WetLinear

/-! C69: `JMS_to_Bern` preserves the Lagrangian. -/

set_option autoImplicit false

namespace Verif

open Spec

section

variable {E : WEnv} {P : PEnv} {scale : ℝ} {par : Option (Dict String ℝ)} {C D : Dict String ℂ} {J : JSrc → ℂ}

/-- On the fields of a sector, in the order of its operators. -/
theorem lag_sector (hp : penv E scale par = .ok P) (hP : Admissible P) (hL : JmsListing E.jms) (hJ : JmsFull E.jms C J)
    (hD : jmsToBern E C scale par = .ok D) {p q r s : Leg} (h : fl4 p q r s ∈ sectorKeys) :
    (jmsLag J).anti p q r s = (bernLag P.p.GF fun k => Dict.getD D k 0).anti p q r s := by
  rw [jmsToBern_tensor hp hP hL hJ] at hD
  injection hD with hD
  rw [bernLag_anti _ _ h, lag_direct hP hJ h,
    secSum_smul (prefBernv P) (bat J (blkJmsBern P).flatten) (fun k => Dict.getD D k 0) (fun k => by rw [← bat_scaleBy, bat, hD])]
  have e : ((4 * P.p.GF / Real.sqrt 2 : ℝ) : ℂ) * (prefBernv P : ℂ) = 1 := by
    rw [← Complex.ofReal_mul, ← Complex.ofReal_one]
    congr 1
    have := hP.GF
    have h2 : Real.sqrt 2 ≠ 0 := by simp
    unfold prefBernv
    field_simp
  simp only [Four.anti]
  linear_combination (-(secSum (bat J (blkJmsBern P).flatten) p q r s - secSum (bat J (blkJmsBern P).flatten) r q p s -
    secSum (bat J (blkJmsBern P).flatten) p s r q + secSum (bat J (blkJmsBern P).flatten) r s p q)) * e

/-- On the fields of a sector, in any order. -/
theorem lag_has (hp : penv E scale par = .ok P) (hP : Admissible P) (hL : JmsListing E.jms) (hJ : JmsFull E.jms C J)
    (hD : jmsToBern E C scale par = .ok D) {x : Sector} (hx : x ∈ bernSectors) {p q r s : Leg} (h : x.Has p q r s) :
    (jmsLag J).anti p q r s = (bernLag P.p.GF fun k => Dict.getD D k 0).anti p q r s := by
  have key : ∀ {p q r s : Leg}, p.flav = x.f1 → q.flav = x.f2 → r.flav = x.f3 → s.flav = x.f4 →
      (jmsLag J).anti p q r s = (bernLag P.p.GF fun k => Dict.getD D k 0).anti p q r s := by
    intro p q r s h1 h2 h3 h4
    refine lag_sector hp hP hL hJ hD (List.mem_map.2 ⟨x, hx, ?_⟩)
    unfold Sector.key fl4
    rw [h1, h2, h3, h4]
  have s1 := fun T : Four => anti_swap1 T p q r s
  have s2 := fun T : Four => anti_swap2 T p q r s
  have s3 := fun T : Four => anti_swap1 T p s r q
  obtain ⟨⟨h1, h3⟩ | ⟨h3, h1⟩, ⟨h2, h4⟩ | ⟨h4, h2⟩⟩ := h
  · exact key h1 h2 h3 h4
  · have := key h1 h2 h3 h4
    rw [s2, s2] at this
    exact neg_injective this
  · have := key h1 h2 h3 h4
    rw [s1, s1] at this
    exact neg_injective this
  · have := key h1 h2 h3 h4
    rw [s3, s3, s2, s2] at this
    exact neg_injective (neg_injective this)

/-- **C69**: the coefficients returned by `JMS_to_Bern` describe the same four-fermion Lagrangian as the JMS coefficients
they are computed from, for every process of the Bern basis and every spin and colour of the fields. -/
theorem C69_lagrangian (hp : penv E scale par = .ok P) (hP : Admissible P) (hL : JmsListing E.jms) (hJ : JmsFull E.jms C J)
    (hD : jmsToBern E C scale par = .ok D) {p q r s : Leg} (h : Covered p q r s) :
    (jmsLag J).anti p q r s = (bernLag P.p.GF fun k => Dict.getD D k 0).anti p q r s := by
  obtain ⟨x, hx, h | h⟩ := h
  · exact lag_has hp hP hL hJ hD hx h
  · have h' : x.Has q.fl p.fl s.fl r.fl := h
    have := lag_has hp hP hL hJ hD hx h'
    have c : ∀ T : Four, T.adj = T → T.anti p q r s = starRingEnd ℂ (T.anti q.fl p.fl s.fl r.fl) := by
      intro T hT
      rw [← adj_eq, anti_adj, hT]
    rw [c _ (jmsLag_adj hJ), c _ (bernLag_adj _ _), this]

/-- **C69**: the same for the electromagnetic and chromomagnetic dipole operators. -/
theorem C69_dipoles (hp : penv E scale par = .ok P) (hP : Admissible P) (hL : JmsListing E.jms) (hJ : JmsFull E.jms C J)
    (hD : jmsToBern E C scale par = .ok D) (x : Fin 3 × Fin 3) (hx : x ∈ ddPairs) (X : Boson) (A : Chir) :
    jmsDipole J X A x.1 x.2 =
      bernDipole P.p.GF P.p.alpha_e P.p.alpha_s P.p.m_b (fun k => Dict.getD D k 0) X A x.1 x.2 := by
  rw [jmsToBern_tensor hp hP hL hJ] at hD
  injection hD with hD
  have hc : ∀ k, Dict.getD D k 0 = (prefBernv P : ℂ) * bat J (blkJmsBern P).flatten k := fun k => by rw [← bat_scaleBy, bat, hD]
  obtain ⟨F, hF, hW⟩ := table_chrom hP J x hx
  simp only [jmsFierzChromTable, fierzBernChromTable, List.forall_mem_cons, Ex.val_mul, Ex.val_src, Ex.val_cj] at hF hW
  obtain ⟨F7, F8, G7, G8, -⟩ := hF
  obtain ⟨W7, W8, V7, V8, -⟩ := hW
  have h0 := hP.GF
  have h1 := ev_ne hP
  have h2 := gv_ne hP
  have h3 := hP.m_b
  have h4 := sqrt2_ne
  have e7 : (4 * P.p.GF / Real.sqrt 2 * (ev P / gv P ^ 2 * P.p.m_b)) * (prefBernv P * kgv P) = 1 := by
    unfold prefBernv kgv
    field_simp
  have e8 : (4 * P.p.GF / Real.sqrt 2 * (1 / gv P * P.p.m_b)) * (prefBernv P * kgsv P) = 1 := by
    unfold prefBernv kgsv
    field_simp
  have e7' : ((4 * P.p.GF / Real.sqrt 2 * (ev P / gv P ^ 2 * P.p.m_b) : ℝ) : ℂ) * ((prefBernv P : ℂ) * (kgv P : ℂ)) = 1 := by
    exact_mod_cast e7
  have e8' : ((4 * P.p.GF / Real.sqrt 2 * (1 / gv P * P.p.m_b) : ℝ) : ℂ) * ((prefBernv P : ℂ) * (kgsv P : ℂ)) = 1 := by
    exact_mod_cast e8
  simp only [ev, gv] at e7' e8'
  cases X <;> cases A <;> simp only [jmsDipole, bernDipole, hc]
  · rw [V7, G7]; linear_combination (-starRingEnd ℂ (J ("dgamma", [x.2, x.1]))) * e7'
  · rw [W7, F7]; linear_combination (-J ("dgamma", [x.1, x.2])) * e7'
  · rw [V8, G8]; linear_combination (-starRingEnd ℂ (J ("dG", [x.2, x.1]))) * e8'
  · rw [W8, F8]; linear_combination (-J ("dG", [x.1, x.2])) * e8'

end

/-! Non-trivial instance: a complex semileptonic coefficient and its conjugate; the left-handed current `sbar b` with a
left-handed electron current, red quarks. -/

/-- Which of the two coefficients a name denotes. -/
def exWhich (x : String) : Fin 3 := if "VedLL_1123" = x then 1 else if "VedLL_1132" = x then 2 else 0

noncomputable def exC : Dict String ℂ := [("VedLL_1123", 2 + 4 * Complex.I), ("VedLL_1132", 2 - 4 * Complex.I)]

noncomputable def exJ (s : JSrc) : ℂ := Dict.getD exC (label s.1 s.2) 0

theorem exC_eq (x : String) : Dict.getD exC x 0 = ![0, 2 + 4 * Complex.I, 2 - 4 * Complex.I] (exWhich x) := by
  unfold exC exWhich Dict.getD Dict.find
  by_cases h1 : "VedLL_1123" = x
  · simp [h1]
  · by_cases h2 : "VedLL_1132" = x
    · simp [h1, h2, Dict.find]
    · simp [h1, h2, Dict.find]

theorem exJ_tensor : JmsFull exEnv.jms exC exJ where
  listed _ _ _ := rfl
  herm k hk p r s t := by
    have h : ∀ k ∈ jmsHermitian, ∀ p r s t : Fin 3, exWhich (label k [r, p, t, s]) = ![0, 2, 1] (exWhich (label k [p, r, s, t])) := by
      decide +kernel
    rw [exJ, exJ, exC_eq, exC_eq, h k hk]
    generalize exWhich (label k [p, r, s, t]) = i
    fin_cases i <;> simp [sub_eq_add_neg, map_ofNat]
  exch k hk p r s t := by
    have h : ∀ k ∈ jmsExchange, ∀ p r s t : Fin 3, exWhich (label k [s, t, p, r]) = exWhich (label k [p, r, s, t]) := by
      decide +kernel
    rw [exJ, exJ, exC_eq, exC_eq, h k hk]

/-- The component of the Lagrangian is not zero. -/
theorem exLag : (jmsLag exJ).anti ⟨.d, 1, 2, 0⟩ ⟨.d, 2, 0, 0⟩ ⟨.e, 0, 3, 0⟩ ⟨.e, 0, 1, 0⟩ = 4 + 8 * Complex.I := by
  have z : ∀ k i, exWhich (label k i) = 0 → exJ (k, i) = 0 := fun k i h => by rw [exJ, exC_eq, h]; rfl
  have v : exJ ("VedLL", [0, 0, 1, 2]) = 2 + 4 * Complex.I := by
    have h : exWhich (label "VedLL" [0, 0, 1, 2]) = 1 := by decide +kernel
    rw [exJ, exC_eq, h]; rfl
  have g : (Dir.g 1 .L .L).val 3 1 2 0 = 2 := by
    rw [Dir.val, show (Dir.g 1 .L .L).ent 3 1 2 0 = 2 by decide +kernel, tc2]
  simp only [Four.anti, jmsLag, jmsOps, List.map_cons, List.map_nil, List.sum_cons, List.sum_nil, JOp.term, term_adj,
    reduceCtorEq, and_self, and_true, and_false, if_true, if_false, Bool.false_eq_true, add_zero, zero_add,
    val0_adj, val1_adj, valS_adj, Chir.flip]
  rw [z "VdeLR" _ (by decide +kernel), z "VedRR" _ (by decide +kernel), z "VedLR" _ (by decide +kernel),
    z "SedRR" _ (by decide +kernel), z "SedRR" _ (by decide +kernel), z "SedRL" _ (by decide +kernel),
    z "SedRL" _ (by decide +kernel), z "TedRR" _ (by decide +kernel), z "TedRR" _ (by decide +kernel), v, g,
    show once "VedLL" (0, 0) (1, 2) = 1 from once_no (by decide +kernel) _ _]
  simp [Col.val]
  ring

example : ∃ D, jmsToBern exEnv exC 160 none = .ok D ∧
    (jmsLag exJ).anti ⟨.d, 1, 2, 0⟩ ⟨.d, 2, 0, 0⟩ ⟨.e, 0, 3, 0⟩ ⟨.e, 0, 1, 0⟩ =
      (bernLag exP.p.GF fun k => Dict.getD D k 0).anti ⟨.d, 1, 2, 0⟩ ⟨.d, 2, 0, 0⟩ ⟨.e, 0, 3, 0⟩ ⟨.e, 0, 1, 0⟩ := by
  have h := jmsToBern_tensor exEnv_ok exP_admissible allJms_listing exJ_tensor
  refine ⟨_, h, C69_lagrangian exEnv_ok exP_admissible allJms_listing exJ_tensor h ?_⟩
  refine ⟨sector (opsOdd .L .R .R .L) (.d, 1) (.d, 2) (.e, 0) (.e, 0), ?_, Or.inl ⟨Or.inl ⟨rfl, rfl⟩, Or.inl ⟨rfl, rfl⟩⟩⟩
  unfold bernSectors
  refine List.mem_append_right _ (List.mem_flatMap.2 ⟨(1, 2), by decide, List.mem_flatMap.2 ⟨0, by decide, List.mem_flatMap.2 ⟨0, by decide, ?_⟩⟩⟩)
  exact List.mem_cons_self

end Verif
