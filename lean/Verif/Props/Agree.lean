import Verif.Lemmas.WetClosed
import Verif.Lemmas.LagFlavio
import Verif.Props.LagEos
import Verif.Props.LagFormFlavor

/-! C91: the coefficients that `JMS_to_EOS`, `JMS_to_FormFlavor` and `JMS_to_flavio` compute for the same operators from the same
input agree. -/

set_option autoImplicit false

namespace Verif

open Spec

section

variable {E : WEnv} {P : PEnv} {scale : ℝ} {par : Option (Dict String ℝ)} {C D F : Dict String ℂ}

theorem flavio_bat (hp : penv E scale par = .ok P) (hP : Admissible P) (hL : JmsListing E.jms)
    (hF : jmsToFlavio E C scale par = .ok F) (k : String) : Dict.getD F k 0 = bat (jval E.jms C) (blkJmsFlavio P).flatten k := by
  rw [jmsToFlavio_closed hp hP hL] at hF
  injection hF with hF
  rw [bat, hF]

theorem eos_bat (hp : penv E scale par = .ok P) (hP : Admissible P) (hm : P.p.m_b ^ 2 ≠ P.p.m_s ^ 2) (hL : JmsListing E.jms)
    (hD : jmsToEos E C scale par = .ok D) (k : String) : Dict.getD D k 0 = bat (jval E.jms C) (blkEos P).flatten k := by
  rw [jmsToEos_closed hp hP hm hL, Dict.ofPairs_of_nodup (blkEos_nodup hP hm)] at hD
  injection hD with hD
  rw [bat, hD]

theorem ff_bat (hp : penv E scale par = .ok P) (hP : Admissible P) (hL : JmsListing E.jms)
    (hD : jmsToFormFlavor E C scale par = .ok D) (k : String) :
    Dict.getD D k 0 = bat (jval E.jms C) (Dict.ofPairs (blkFormFlavor P).flatten) k := by
  rw [jmsToFormFlavor_closed hp hP hL] at hD
  injection hD with hD
  rw [bat, hD]

theorem prefEosv_xi : prefEosv P = prefXiv P (ckmTop P.V (1, 2)) := by
  unfold prefEosv prefXiv ckmTop
  rw [div_div (((Real.sqrt 2 / P.p.GF : ℝ) : ℂ))]

theorem kSv_mul (hP : Admissible P) : (P.p.m_b : ℂ) * (kSv P : ℂ) = (k16v P : ℂ) := by
  have h : (P.p.m_b : ℂ) ≠ 0 := by exact_mod_cast hP.m_b
  unfold kSv
  push_cast
  field_simp

/-- **C91**: the vector coefficients of `b -> s l l` are the same in the EOS and flavio bases; the scalar ones differ by the mass of
the b quark. -/
theorem C91_semileptonic (hp : penv E scale par = .ok P) (hP : Admissible P) (hm : P.p.m_b ^ 2 ≠ P.p.m_s ^ 2) (hL : JmsListing E.jms)
    (hD : jmsToEos E C scale par = .ok D) (hF : jmsToFlavio E C scale par = .ok F) :
    ∀ l ∈ [(0 : Fin 3), 1],
      (∀ x ∈ [("::c9", "C9_"), ("::c9'", "C9p_"), ("::c10", "C10_"), ("::c10'", "C10p_")],
        Dict.getD D ("b->s" ++ (qname (.e, l) ++ qname (.e, l)) ++ x.1) 0 =
          Dict.getD F (x.2 ++ ("b" ++ ("s" ++ (qname (.e, l) ++ qname (.e, l))))) 0) ∧
      ∀ x ∈ [("::cS", "CS_"), ("::cS'", "CSp_"), ("::cP", "CP_"), ("::cP'", "CPp_")],
        Dict.getD D ("b->s" ++ (qname (.e, l) ++ qname (.e, l)) ++ x.1) 0 =
          P.p.m_b * Dict.getD F (x.2 ++ ("b" ++ ("s" ++ (qname (.e, l) ++ qname (.e, l))))) 0 := by
  intro l hl
  simp only [eos_bat hp hP hm hL hD, flavio_bat hp hP hL hF]
  obtain ⟨A, hA, hV⟩ := etable_lep hP (jval E.jms C) hm l hl
  obtain ⟨B, hB, -, hW⟩ := ftable_lep hP (jval E.jms C) (1, 2) (by decide) l l
  replace hW := hW (by decide)
  rw [prefEosv_xi] at hV
  have hk := kSv_mul hP
  simp only [scaleBy, jmsFierzLepTable, fierzEosLepTable, fierzFlavioLepTable, List.map_cons, List.map_nil, List.forall_mem_cons,
    Ex.val_mul, Ex.val_src] at hA hB hV hW
  obtain ⟨A1, A2, A3, A4, -, -, A7, A8, A9, A10, -, -, -⟩ := hA
  obtain ⟨B1, B2, B3, B4, -, -, B7, B8, B9, B10, -, -, -⟩ := hB
  obtain ⟨V1, V2, V3, V4, V5, V6, V7, V8, -, -, -⟩ := hV
  obtain ⟨W1, W2, W3, W4, W5, W6, W7, W8, -⟩ := hW
  simp only [List.forall_mem_cons, List.not_mem_nil, false_implies, implies_true, and_true]
  rw [A1.trans B1.symm] at V1
  rw [A2.trans B2.symm] at V3
  rw [A3.trans B3.symm] at V5
  rw [A4.trans B4.symm] at V7
  rw [A7.trans B7.symm] at V2
  rw [A8.trans B8.symm] at V4
  rw [A9.trans B9.symm] at V6
  rw [A10.trans B10.symm] at V8
  refine ⟨⟨V1.trans W1.symm, V2.trans W2.symm, V3.trans W3.symm, V4.trans W4.symm⟩, ?_, ?_, ?_, ?_⟩
  · refine V5.trans (Eq.trans ?_ (congrArg _ W5.symm)); rw [← hk]; ring
  · refine V6.trans (Eq.trans ?_ (congrArg _ W6.symm)); rw [← hk]; ring
  · refine V7.trans (Eq.trans ?_ (congrArg _ W7.symm)); rw [← hk]; ring
  · refine V8.trans (Eq.trans ?_ (congrArg _ W8.symm)); rw [← hk]; ring

/-- **C91**: the coefficients of `b -> u l nu` are the same in the EOS and flavio bases. -/
theorem C91_charged (hp : penv E scale par = .ok P) (hP : Admissible P) (hm : P.p.m_b ^ 2 ≠ P.p.m_s ^ 2) (hL : JmsListing E.jms)
    (hD : jmsToEos E C scale par = .ok D) (hF : jmsToFlavio E C scale par = .ok F) :
    ∀ l ∈ [(0 : Fin 3), 1], ∀ x ∈ [("::cVL", "CVL_"), ("::cVR", "CVR_"), ("::cSR", "CSR_"), ("::cSL", "CSL_"), ("::cT", "CT_")],
      Dict.getD D ("b->" ++ ("u" ++ (qname (.e, l) ++ ("nu" ++ qname (.nu, l)))) ++ x.1) 0 =
        Dict.getD F (x.2 ++ ("b" ++ ("u" ++ (qname (.e, l) ++ ("nu" ++ qname (.nu, l)))))) 0 := by
  intro l hl
  simp only [eos_bat hp hP hm hL hD, flavio_bat hp hP hL hF]
  obtain ⟨A, hA, hV⟩ := etable_II hP (jval E.jms C) hm l hl
  obtain ⟨B, hB, hW⟩ := ftable_II hP (jval E.jms C) 0 (by decide) 2 l l
  simp only [scaleBy, jmsBernIITable, bernEosIITable, bernFlavioIITable, List.map_cons, List.map_nil, List.forall_mem_cons,
    Ex.val_mul, Ex.val_src] at hA hB hV hW
  obtain ⟨A1, A2, A3, A4, A5, -⟩ := hA
  obtain ⟨B1, B2, B3, B4, B5, -⟩ := hB
  obtain ⟨V1, V2, V3, V4, V5, -⟩ := hV
  obtain ⟨W1, W2, W3, W4, W5, -⟩ := hW
  simp only [List.forall_mem_cons, List.not_mem_nil, false_implies, implies_true, and_true]
  rw [A1.trans B1.symm] at V1
  rw [A3.trans B3.symm] at V2
  rw [A2.trans B2.symm] at V3
  rw [A4.trans B4.symm] at V4
  rw [A5.trans B5.symm] at V5
  exact ⟨V1.trans W1.symm, V2.trans W2.symm, V3.trans W3.symm, V4.trans W4.symm, V5.trans W5.symm⟩

/-- **C91**: the dipole coefficients of EOS, which are defined with both quark masses, combine to those of flavio. -/
theorem C91_dipoles (hp : penv E scale par = .ok P) (hP : Admissible P) (hm : P.p.m_b ^ 2 ≠ P.p.m_s ^ 2) (hL : JmsListing E.jms)
    (hD : jmsToEos E C scale par = .ok D) (hF : jmsToFlavio E C scale par = .ok F) :
    ∀ x ∈ [("b->s::c7", "b->s::c7'", "C7_bs", "C7p_bs"), ("b->s::c8", "b->s::c8'", "C8_bs", "C8p_bs")],
      P.p.m_b * Dict.getD D x.1 0 + P.p.m_s * Dict.getD D x.2.1 0 = P.p.m_b * Dict.getD F x.2.2.1 0 ∧
      P.p.m_b * Dict.getD D x.2.1 0 + P.p.m_s * Dict.getD D x.1 0 = P.p.m_b * Dict.getD F x.2.2.2 0 := by
  simp only [eos_bat hp hP hm hL hD, flavio_bat hp hP hL hF]
  obtain ⟨A, hA, hV⟩ := etable_chrom hP (jval E.jms C) hm
  obtain ⟨B, hB, hW⟩ := ftable_chrom hP (jval E.jms C) (1, 2) (by decide)
  rw [prefEosv_xi] at hV
  have e1 : qname (.d, 1) ++ qname (.d, 2) = "sb" := by decide +kernel
  have e2 : ∀ p ∈ ["C7_", "C8_", "C7p_", "C8p_"], p ++ (qname (.d, 2) ++ qname (.d, 1)) = p ++ "bs" := by decide +kernel
  have e3 : "C7_" ++ "bs" = "C7_bs" ∧ "C8_" ++ "bs" = "C8_bs" ∧ "C7p_" ++ "bs" = "C7p_bs" ∧ "C8p_" ++ "bs" = "C8p_bs" := by
    decide +kernel
  simp only [scaleBy, e1, jmsFierzChromTable, fierzEosChromTable, fierzFlavioChromTable, List.map_cons, List.map_nil,
    List.forall_mem_cons, Ex.val_mul, Ex.val_add, Ex.val_sub, Ex.val_div, Ex.val_src, Ex.val_cj] at hA hB hV hW
  simp only [List.forall_mem_cons, List.not_mem_nil, false_implies, implies_true, and_true] at e2
  rw [e2.1, e2.2.1, e2.2.2.1, e2.2.2.2, e3.1, e3.2.1, e3.2.2.1, e3.2.2.2] at hW
  obtain ⟨A1, A2, A3, A4, -⟩ := hA
  obtain ⟨B1, B2, B3, B4, -⟩ := hB
  obtain ⟨V1, V2, V3, V4, -⟩ := hV
  obtain ⟨W1, W2, W3, W4, -⟩ := hW
  have h1 : (ev P : ℂ) ≠ 0 := by exact_mod_cast ev_ne hP
  have h2 : (gv P : ℂ) ≠ 0 := by exact_mod_cast gv_ne hP
  have h3 : (P.p.m_b : ℂ) ≠ 0 := by exact_mod_cast hP.m_b
  have hden : ((P.p.m_b : ℂ) ^ 2 - (P.p.m_s : ℂ) ^ 2) ≠ 0 := by exact_mod_cast sub_ne_zero.2 hm
  simp only [List.forall_mem_cons, List.not_mem_nil, false_implies, implies_true, and_true]
  rw [V1, V2, V3, V4, W1, W2, W3, W4, A1, A2, A3, A4, B1, B2, B3, B4]
  unfold k7v k7gv
  push_cast
  refine ⟨⟨?_, ?_⟩, ?_, ?_⟩ <;> · field_simp; ring

/-- **C91, partial**: of the `Delta F = 2` operators, the vector, left-right scalar and tensor coefficients are the same in the
FormFlavor and flavio bases; the other scalar ones differ by eight times the tensor coefficient. -/
theorem C91_mixing_partial (hp : penv E scale par = .ok P) (hP : Admissible P) (hL : JmsListing E.jms)
    (hD : jmsToFormFlavor E C scale par = .ok D) (hF : jmsToFlavio E C scale par = .ok F) :
    ∀ x ∈ ddPairs, let n := (qname (.d, x.2) ++ qname (.d, x.1)) ++ (qname (.d, x.2) ++ qname (.d, x.1))
      (∀ k ∈ ["CVLL_", "CVRR_", "CVLR_", "CSLR_", "CTLL_", "CTRR_"], Dict.getD D (k ++ n) 0 = Dict.getD F (k ++ n) 0) ∧
      ∀ k ∈ [("CSLL_", "CTLL_"), ("CSRR_", "CTRR_")],
        Dict.getD D (k.1 ++ n) 0 = Dict.getD F (k.1 ++ n) 0 - 8 * Dict.getD F (k.2 ++ n) 0 := by
  intro x hx
  simp only [ff_bat hp hP hL hD, flavio_bat hp hP hL hF]
  obtain ⟨A, hA, hV⟩ := fftable_I hP (jval E.jms C) x hx
  obtain ⟨B, hB, hW⟩ := ftable_I hP (jval E.jms C) x hx
  simp only [jmsBernIDown, bernFormFlavorITable, bernFlavioITable, List.forall_mem_cons,
    Ex.val_mul, Ex.val_add, Ex.val_sub, Ex.val_src] at hA hB hV hW
  obtain ⟨A1, A2, A3, A4, A5, A6, A7, A8, -⟩ := hA
  obtain ⟨B1, B2, B3, B4, B5, B6, B7, B8, -⟩ := hB
  obtain ⟨V1, V2, V3, V4, V5, V6, V7, V8, -⟩ := hV
  obtain ⟨W1, W2, W3, W4, W5, W6, W7, W8, -⟩ := hW
  simp only [List.forall_mem_cons, List.not_mem_nil, false_implies, implies_true, and_true]
  simp only [A1, A2, A3, A4, A5, A6, A7, A8] at V1 V2 V3 V4 V5 V6 V7 V8
  simp only [B1, B2, B3, B4, B5, B6, B7, B8] at W1 W2 W3 W4 W5 W6 W7 W8
  simp only [V1, V2, V3, V4, V5, V6, V7, V8, W1, W2, W3, W4, W5, W6, W7, W8, true_and]
  constructor <;> ring

/-- **C91**: the semimuonic operators of FormFlavor, which are chiral and not normalised, combine to those of flavio. -/
theorem C91_muons (hp : penv E scale par = .ok P) (hP : Admissible P) (hL : JmsListing E.jms)
    (hD : jmsToFormFlavor E C scale par = .ok D) (hF : jmsToFlavio E C scale par = .ok F) :
    ∀ x ∈ [((1, 2) : Fin 3 × Fin 3), (0, 2)],
      let f (k : String) := Dict.getD D (k ++ (qname (.d, x.2) ++ qname (.d, x.1)) ++ "mm") 0
      let c (k : String) := normLoop P.p.GF P.p.alpha_e P.V x *
        Dict.getD F (k ++ (qname (.d, x.2) ++ (qname (.d, x.1) ++ ("mu" ++ "mu")))) 0
      2 * c "C9_" = f "CVLR_" + f "CVLL_" ∧ 2 * c "C10_" = f "CVLR_" - f "CVLL_" ∧
      2 * c "C9p_" = f "CVRR_" + f "CVRL_" ∧ 2 * c "C10p_" = f "CVRR_" - f "CVRL_" ∧
      2 * P.p.m_b * c "CS_" = f "CSRR_" + f "CSRL_" ∧ 2 * P.p.m_b * c "CP_" = f "CSRR_" - f "CSRL_" ∧
      2 * P.p.m_b * c "CSp_" = f "CSLR_" + f "CSLL_" ∧ 2 * P.p.m_b * c "CPp_" = f "CSLR_" - f "CSLL_" := by
  intro x hx
  have h : ∀ x ∈ [((1, 2) : Fin 3 × Fin 3), (0, 2)], x ∈ ddPairs ∧ x ≠ (0, 1) := by decide
  obtain ⟨hx1, hx2⟩ := h x hx
  have hV := fftable_lep hP (jval E.jms C) x hx
  obtain ⟨B, hB, -, hW⟩ := ftable_lep hP (jval E.jms C) x hx1 1 1
  replace hW := hW hx2
  simp only [ff_bat hp hP hL hD, flavio_bat hp hP hL hF]
  simp only [ffLepTable, jmsFormFlavorLepTable, List.take_succ_cons, List.take_zero, scaleBy, jmsFierzLepTable, fierzFlavioLepTable,
    List.map_cons, List.map_nil, List.forall_mem_cons, Ex.val_mul, Ex.val_add, Ex.val_sub, Ex.val_neg, Ex.val_div, Ex.val_src,
    Ex.val_cj] at hB hV hW
  obtain ⟨B1, B2, B3, B4, -, -, B7, B8, B9, B10, -, -, -⟩ := hB
  obtain ⟨V1, V2, V3, V4, V5, V6, V7, V8, -⟩ := hV
  obtain ⟨W1, W2, W3, W4, W5, W6, W7, W8, -⟩ := hW
  rw [B1] at W1; rw [B7] at W2; rw [B2] at W3; rw [B8] at W4; rw [B3] at W5; rw [B9] at W6; rw [B4] at W7; rw [B10] at W8
  have q : qname (.e, 1) = "mu" := rfl
  rw [q] at W1 W2 W3 W4 W5 W6 W7 W8
  have h1 := ev_ne hP
  have hk := kSv_mul hP
  have e : 4 * Real.pi * P.p.alpha_e = ev P ^ 2 := by
    unfold ev; exact (Real.sq_sqrt (by have := hP.alpha_e; have := Real.pi_pos; positivity)).symm
  have hN := normXi hP (x := x) (ev P ^ 2 / (16 * Real.pi ^ 2)) (k16v P)
    (by unfold k16v; have := Real.pi_ne_zero; field_simp)
  unfold normLoop
  rw [e, W1, W2, W3, W4, W5, W6, W7, W8, V1, V2, V3, V4, V5, V6, V7, V8]
  set N := ((4 * P.p.GF / Real.sqrt 2 : ℝ) : ℂ) * ckmTop P.V x * ((ev P ^ 2 / (16 * Real.pi ^ 2) : ℝ) : ℂ)
  have key : ∀ z : ℂ, N * (prefXiv P (ckmTop P.V x) * ((k16v P : ℂ) * z)) = z := fun z => by linear_combination z * hN
  have key' : ∀ z : ℂ, 2 * (P.p.m_b : ℂ) * (N * (prefXiv P (ckmTop P.V x) * ((kSv P : ℂ) * z))) = 2 * z := fun z => by
    rw [← hk] at key; linear_combination 2 * key z
  simp only [key, key']
  refine ⟨?_, ?_, ?_, ?_, ?_, ?_, ?_, ?_⟩ <;> ring

/-- **C91**: the dipole coefficients of `b -> s` and `b -> d` in the FormFlavor basis are those of flavio without the normalisation. -/
theorem C91_dipoles_formflavor (hp : penv E scale par = .ok P) (hP : Admissible P) (hL : JmsListing E.jms)
    (hD : jmsToFormFlavor E C scale par = .ok D) (hF : jmsToFlavio E C scale par = .ok F) :
    ∀ x ∈ [((1, 2) : Fin 3 × Fin 3), (0, 2)], ∀ k ∈ [("CAR_", "C7_"), ("CGR_", "C8_"), ("CAL_", "C7p_"), ("CGL_", "C8p_")],
      Dict.getD D (k.1 ++ (qname (.d, x.1) ++ qname (.d, x.2))) 0 =
        ((4 * P.p.GF / Real.sqrt 2 : ℝ) : ℂ) * ckmTop P.V x * ((P.p.m_b / (16 * Real.pi ^ 2) : ℝ) : ℂ) *
          Dict.getD F (k.2 ++ (qname (.d, x.2) ++ qname (.d, x.1))) 0 := by
  intro x hx
  simp only [ff_bat hp hP hL hD, flavio_bat hp hP hL hF]
  have h : ∀ x ∈ [((1, 2) : Fin 3 × Fin 3), (0, 2)], x ∈ [((1, 2) : Fin 3 × Fin 3), (0, 2), (0, 0)] := by decide
  have hV := fftable_dipole hP (jval E.jms C) x (h x hx)
  obtain ⟨B, hB, hW⟩ := ftable_chrom hP (jval E.jms C) x hx
  simp only [formFlavorDownTable, scaleBy, jmsFierzChromTable, fierzFlavioChromTable, List.map_cons, List.map_nil,
    List.forall_mem_cons, Ex.val_mul, Ex.val_div, Ex.val_src, Ex.val_cj] at hV hB hW
  obtain ⟨V1, V2, V3, V4, -⟩ := hV
  obtain ⟨B1, B2, B3, B4, -⟩ := hB
  obtain ⟨W1, W2, W3, W4, -⟩ := hW
  have h1 := ev_ne hP
  have h2 := gv_ne hP
  have h3 := hP.m_b
  have hpi := Real.pi_ne_zero
  have c1 : (ev P : ℂ) ≠ 0 := by exact_mod_cast h1
  have c2 : (gv P : ℂ) ≠ 0 := by exact_mod_cast h2
  have e1 : ((P.p.m_b / (16 * Real.pi ^ 2) : ℝ) : ℂ) = ((ev P * (P.p.m_b / (16 * Real.pi ^ 2)) : ℝ) : ℂ) / ev P := by
    push_cast; field_simp
  have e2 : ((P.p.m_b / (16 * Real.pi ^ 2) : ℝ) : ℂ) = ((gv P * (P.p.m_b / (16 * Real.pi ^ 2)) : ℝ) : ℂ) / gv P := by
    push_cast; field_simp
  have n1 := normXi hP (x := x) (ev P * (P.p.m_b / (16 * Real.pi ^ 2))) (k7v P) (by unfold k7v; field_simp)
  have n2 := normXi hP (x := x) (gv P * (P.p.m_b / (16 * Real.pi ^ 2))) (k7gv P) (by unfold k7gv; field_simp)
  simp only [List.forall_mem_cons, List.not_mem_nil, false_implies, implies_true, and_true]
  rw [V1, V2, V3, V4, W1, W2, W3, W4, B1, B2, B3, B4]
  refine ⟨?_, ?_, ?_, ?_⟩
  · rw [e1]; linear_combination (-(jval E.jms C ("dgamma", [x.1, x.2])) / ev P) * n1
  · rw [e2]; linear_combination (-(jval E.jms C ("dG", [x.1, x.2])) / gv P) * n2
  · rw [e1]; linear_combination (-(starRingEnd ℂ (jval E.jms C ("dgamma", [x.2, x.1]))) / ev P) * n1
  · rw [e2]; linear_combination (-(starRingEnd ℂ (jval E.jms C ("dG", [x.2, x.1]))) / gv P) * n2

end

/-- **C91, refuted**: a `Delta F = 2` coefficient that has the same name in both bases can have different values. -/
theorem C91_refuted : ¬ ∀ (E : WEnv) (P : PEnv) (scale : ℝ) (par : Option (Dict String ℝ)) (C D F : Dict String ℂ),
    penv E scale par = .ok P → Admissible P → JmsListing E.jms → jmsToFormFlavor E C scale par = .ok D →
      jmsToFlavio E C scale par = .ok F → Dict.getD D "CSRR_bsbs" 0 = Dict.getD F "CSRR_bsbs" 0 := by
  intro H
  have hF := jmsToFlavio_tensor exEnv_ok exP_admissible allJms_listing octJ_tensor
  have hD := jmsToFormFlavor_tensor exEnv_ok exP_admissible allJms_listing octJ_tensor
  have h1 := H _ _ _ _ _ _ _ exEnv_ok exP_admissible allJms_listing hD hF
  have h2 := (C91_mixing_partial exEnv_ok exP_admissible allJms_listing hD hF (1, 2) (by decide)).2 ("CSRR_", "CTRR_") (by decide)
  have n : "CSRR_" ++ (qname (.d, 2) ++ qname (.d, 1) ++ (qname (.d, 2) ++ qname (.d, 1))) = "CSRR_bsbs" := by decide +kernel
  simp only [n] at h2
  rw [h1] at h2
  obtain ⟨B, hB, hW⟩ := ftable_I exP_admissible octJ (1, 2) (by decide)
  simp only [jmsBernIDown, bernFlavioITable, List.forall_mem_cons, Ex.val_mul, Ex.val_sub, Ex.val_div, Ex.val_src] at hB hW
  obtain ⟨-, -, -, -, -, -, -, B8, -⟩ := hB
  obtain ⟨-, -, -, -, -, -, W7, -⟩ := hW
  rw [B8] at W7
  have v : octJ ("S8ddRR", [1, 2] ++ [1, 2]) = 2 := by
    have h : octWhich (label "S8ddRR" ([1, 2] ++ [1, 2])) = 1 := by decide +kernel
    rw [octJ, octC_eq, h]; rfl
  rw [v] at W7
  have h4 : (8 : ℂ) * Dict.getD (bval octJ (blkJmsFlavio exP).flatten)
      ("CTRR_" ++ (qname (.d, 2) ++ qname (.d, 1) ++ (qname (.d, 2) ++ qname (.d, 1)))) 0 = -1 := by
    refine (congrArg _ W7).trans ?_
    norm_num
  have h5 : (1 : ℂ) = 0 := by linear_combination h4 - h2
  exact one_ne_zero h5

/-! Non-trivial instances: the coefficient of C71 (`ffC`) gives `C9` and `C10` of muons, opposite to each other, in all three bases. -/

example : ∃ D F, jmsToEos exEnv ffC 160 none = .ok D ∧ jmsToFlavio exEnv ffC 160 none = .ok F ∧
    Dict.getD D "b->smumu::c9" 0 = Dict.getD F "C9_bsmumu" 0 ∧ Dict.getD F "C9_bsmumu" 0 ≠ 0 := by
  have hF := jmsToFlavio_tensor exEnv_ok exP_admissible allJms_listing ffJ_tensor
  have hD := jmsToEos_tensor exEnv_ok exP_admissible exP_masses allJms_listing ffJ_tensor
  have hG := jmsToFormFlavor_tensor exEnv_ok exP_admissible allJms_listing ffJ_tensor
  have h1 := (C91_semileptonic exEnv_ok exP_admissible exP_masses allJms_listing hD hF 1 (by decide)).1 ("::c9", "C9_") (by decide)
  have h2 := (C91_muons exEnv_ok exP_admissible allJms_listing hG hF (1, 2) (by decide)).1
  have n1 : "b->s" ++ (qname (.e, 1) ++ qname (.e, 1)) ++ "::c9" = "b->smumu::c9" := by decide +kernel
  have n2 : "C9_" ++ ("b" ++ ("s" ++ (qname (.e, 1) ++ qname (.e, 1)))) = "C9_bsmumu" := by decide +kernel
  have n3 : "C9_" ++ (qname (.d, 2) ++ (qname (.d, 1) ++ ("mu" ++ "mu"))) = "C9_bsmumu" := by decide +kernel
  simp only [n1, n2] at h1
  simp only [n3] at h2
  refine ⟨_, _, hD, hF, h1, fun h => ?_⟩
  rw [h] at h2
  have hV := fftable_lep exP_admissible ffJ (1, 2) (by decide)
  simp only [ffLepTable, jmsFormFlavorLepTable, List.take_succ_cons, List.take_zero, List.forall_mem_cons, Ex.val_src] at hV
  obtain ⟨V1, -, V3, -⟩ := hV
  have v1 : ffJ ("VedLL", [1, 1, 1, 2]) = 2 + 4 * Complex.I := by
    have h : ffWhich (label "VedLL" [1, 1, 1, 2]) = 1 := by decide +kernel
    rw [ffJ, ffC_eq, h]; rfl
  have v2 : ffJ ("VdeLR", [1, 2, 1, 1]) = 0 := by
    have h : ffWhich (label "VdeLR" [1, 2, 1, 1]) = 0 := by decide +kernel
    rw [ffJ, ffC_eq, h]; rfl
  rw [v1] at V1
  rw [v2] at V3
  have h5 := h2.trans (congrArg₂ _ V3 V1)
  rw [mul_zero, mul_zero, zero_add] at h5
  have := congrArg Complex.re h5
  simp at this

end Verif
