import Verif.Lemmas.LagEos
import Verif.Props.LagFormFlavor

/-! C72: `JMS_to_EOS` preserves the Lagrangian of semileptonic and dipole operators and recovers the coefficients of a four-quark
Lagrangian of the EOS form. -/

set_option autoImplicit false

namespace Verif

open Spec

section

variable {E : WEnv} {P : PEnv} {scale : ℝ} {par : Option (Dict String ℝ)} {C D : Dict String ℂ} {J : JSrc → ℂ}

theorem eos_getD (hp : penv E scale par = .ok P) (hP : Admissible P) (hm : P.p.m_b ^ 2 ≠ P.p.m_s ^ 2) (hL : JmsListing E.jms)
    (hJ : JmsFull E.jms C J) (hD : jmsToEos E C scale par = .ok D) :
    (fun k => Dict.getD D k 0) = bat J (blkEos P).flatten := by
  rw [jmsToEos_tensor hp hP hm hL hJ, Dict.ofPairs_of_nodup (blkEos_nodup hP hm)] at hD
  injection hD with hD
  funext k
  rw [bat, hD]

/-- **C72**: the coefficients returned by `JMS_to_EOS` describe the same semileptonic four-fermion Lagrangian as the JMS
coefficients, for `b -> s l l` and `b -> u l nu` with electrons and muons, every spin and colour. -/
theorem C72_lagrangian (hp : penv E scale par = .ok P) (hP : Admissible P) (hm : P.p.m_b ^ 2 ≠ P.p.m_s ^ 2) (hL : JmsListing E.jms)
    (hJ : JmsFull E.jms C J) (hD : jmsToEos E C scale par = .ok D) {p q r s : Leg}
    (h : NCovered (eosLepSectors P.p.GF P.p.alpha_e P.V) p q r s) :
    (jmsLag J).anti p q r s = (nLag (eosLepSectors P.p.GF P.p.alpha_e P.V) fun k => Dict.getD D k 0).anti p q r s := by
  rw [eos_getD hp hP hm hL hJ hD]
  refine nCovered_ext (jmsLag_adj hJ) (fun {p q r s} h => ?_) h
  rw [eosLepKeys_eq] at h
  rw [nLag_anti _ (by rw [eosLepKeys_eq]; exact eosLepKeys_conj _ h), eos_direct hP hm J h]

/-- **C72**: the same for the electromagnetic and chromomagnetic dipole operators of `b -> s`, with both quark masses. -/
theorem C72_dipoles (hp : penv E scale par = .ok P) (hP : Admissible P) (hm : P.p.m_b ^ 2 ≠ P.p.m_s ^ 2) (hL : JmsListing E.jms)
    (hJ : JmsFull E.jms C J) (hD : jmsToEos E C scale par = .ok D) (X : Boson) (A : Chir) :
    jmsDipole J X A 1 2 =
      eosDipole P.p.GF P.p.alpha_e P.p.alpha_s P.p.m_b P.p.m_s P.V (fun k => Dict.getD D k 0) X A := by
  rw [eos_getD hp hP hm hL hJ hD]
  obtain ⟨F, hF, hW⟩ := etable_chrom hP J hm
  simp only [scaleBy, jmsFierzChromTable, fierzEosChromTable, List.map_cons, List.map_nil, List.forall_mem_cons, Ex.val_mul, Ex.val_add,
    Ex.val_sub, Ex.val_div, Ex.val_src, Ex.val_cj] at hF hW
  obtain ⟨F7, F8, G7, G8, -⟩ := hF
  obtain ⟨W7, V7, W8, V8, -⟩ := hW
  have h1 : (ev P : ℂ) ≠ 0 := by exact_mod_cast ev_ne hP
  have h2 : (gv P : ℂ) ≠ 0 := by exact_mod_cast gv_ne hP
  have hden : ((P.p.m_b : ℂ) ^ 2 - (P.p.m_s : ℂ) ^ 2) ≠ 0 := by exact_mod_cast sub_ne_zero.2 hm
  have hpi : (Real.pi : ℂ) ≠ 0 := by exact_mod_cast Real.pi_ne_zero
  have hGF : (P.p.GF : ℂ) ≠ 0 := by exact_mod_cast hP.GF
  have hs2 : ((Real.sqrt 2 : ℝ) : ℂ) ≠ 0 := by exact_mod_cast (Real.sqrt_pos.2 (by norm_num)).ne'
  have h3 := hP.V 2 2
  have h4 : starRingEnd ℂ (P.V 2 1) ≠ 0 := (map_ne_zero _).2 (hP.V 2 1)
  have e1 : Real.sqrt (4 * Real.pi * P.p.alpha_e) = ev P := rfl
  have e2 : Real.sqrt (4 * Real.pi * P.p.alpha_s) = gv P := rfl
  cases X <;> cases A <;> simp only [jmsDipole, eosDipole, e1, e2]
  · rw [W7, V7, F7, G7]; unfold prefEosv ckmTop; push_cast; field_simp; ring
  · rw [W7, V7, F7, G7]; unfold prefEosv ckmTop; push_cast; field_simp; ring
  · rw [W8, V8, F8, G8]; unfold prefEosv ckmTop; push_cast; field_simp; ring
  · rw [W8, V8, F8, G8]; unfold prefEosv ckmTop; push_cast; field_simp; ring

/-- **C72**: if the JMS coefficients describe a four-quark Lagrangian of the EOS form, with the current-current operators of up and
charm quarks weighted by `wu` and `wc`, then the penguin coefficients are recovered, and the current-current coefficients up to the
mean of the weights. -/
theorem C72_recovery (hp : penv E scale par = .ok P) (hP : Admissible P) (hm : P.p.m_b ^ 2 ≠ P.p.m_s ^ 2) (hL : JmsListing E.jms)
    (hJ : JmsFull E.jms C J) (hD : jmsToEos E C scale par = .ok D) (wu wc : ℂ) (c : String → ℂ)
    (h : ∀ x ∈ [((.u, 0) : Kind × Fin 3), (.u, 1), (.d, 0), (.d, 1), (.d, 2)], ∀ p q r s : Leg,
      p.flav = (.d, 1) → q.flav = (.d, 2) → r.flav = x → s.flav = x →
        (jmsLag J).anti p q r s = (qLag (eosQuark P.p.GF P.V wu wc) c).anti p q r s) :
    (∀ k ∈ ["b->s::c1", "b->s::c2"], Dict.getD D k 0 = (wu + wc) / 2 * c k) ∧
      ∀ k ∈ ["b->s::c3", "b->s::c4", "b->s::c5", "b->s::c6"], Dict.getD D k 0 = c k := by
  obtain ⟨h1, h2, h3, h4, h5, h6⟩ := eos_recovery hP hm J hJ.exch wu wc c h
  rw [← eos_getD hp hP hm hL hJ hD] at h1 h2 h3 h4 h5 h6
  simp only [List.forall_mem_cons, List.not_mem_nil, false_implies, implies_true, and_true]
  exact ⟨⟨h1, h2⟩, h3, h4, h5, h6⟩

end

theorem exP_masses : exP.p.m_b ^ 2 ≠ exP.p.m_s ^ 2 := by simp only [exP]; norm_num

/-! Non-trivial instance of the first theorem: the coefficient of C69 (`exC`); the component is `4 + 8 i`. -/

example : ∃ D, jmsToEos exEnv exC 160 none = .ok D ∧
    (nLag (eosLepSectors exP.p.GF exP.p.alpha_e exP.V) fun k => Dict.getD D k 0).anti
      ⟨.d, 1, 2, 0⟩ ⟨.d, 2, 0, 0⟩ ⟨.e, 0, 3, 0⟩ ⟨.e, 0, 1, 0⟩ = 4 + 8 * Complex.I := by
  have h := jmsToEos_tensor exEnv_ok exP_admissible exP_masses allJms_listing exJ_tensor
  refine ⟨_, h, ?_⟩
  have hc : NCovered (eosLepSectors exP.p.GF exP.p.alpha_e exP.V) ⟨.d, 1, 2, 0⟩ ⟨.d, 2, 0, 0⟩ ⟨.e, 0, 3, 0⟩ ⟨.e, 0, 1, 0⟩ := by
    have hk : (((.d, 1), (.d, 2), (.e, 0), (.e, 0)) : F4) ∈ eosLepKeys := by decide +kernel
    rw [← eosLepKeys_eq exP.p.GF exP.p.alpha_e exP.V] at hk
    obtain ⟨x, hx, e⟩ := List.mem_map.1 hk
    simp only [NSector.key, Prod.mk.injEq] at e
    obtain ⟨e1, e2, e3, e4⟩ := e
    exact ⟨x, hx, Or.inl ⟨Or.inl ⟨e1.symm, e3.symm⟩, Or.inl ⟨e2.symm, e4.symm⟩⟩⟩
  rw [← C72_lagrangian exEnv_ok exP_admissible exP_masses allJms_listing exJ_tensor h hc, exLag]

/-! Non-trivial instance of the recovery: the operator `c2`, for up and charm quarks. -/

def curWhich (x : String) : Fin 3 :=
  if "V1udLL_1123" = x ∨ "V1udLL_1132" = x ∨ "V1udLL_2223" = x ∨ "V1udLL_2232" = x then 1
  else if "V8udLL_1123" = x ∨ "V8udLL_1132" = x ∨ "V8udLL_2223" = x ∨ "V8udLL_2232" = x then 2 else 0

noncomputable def curC : Dict String ℂ :=
  [("V1udLL_1123", 1), ("V1udLL_1132", 1), ("V1udLL_2223", 1), ("V1udLL_2232", 1),
   ("V8udLL_1123", 6), ("V8udLL_1132", 6), ("V8udLL_2223", 6), ("V8udLL_2232", 6)]

noncomputable def curJ (s : JSrc) : ℂ := Dict.getD curC (label s.1 s.2) 0

theorem curC_eq (x : String) : Dict.getD curC x 0 = ![0, 1, 6] (curWhich x) := by
  unfold curC curWhich Dict.getD
  simp only [Dict.find]
  by_cases h1 : "V1udLL_1123" = x
  · simp [h1]
  by_cases h2 : "V1udLL_1132" = x
  · simp [h2]
  by_cases h3 : "V1udLL_2223" = x
  · simp [h3]
  by_cases h4 : "V1udLL_2232" = x
  · simp [h4]
  simp only [h1, h2, h3, h4, if_false, false_or]
  split_ifs <;> simp_all

theorem curJ_tensor : JmsFull exEnv.jms curC curJ where
  listed _ _ _ := rfl
  herm k hk p r s t := by
    have h : ∀ k ∈ jmsHermitian, ∀ p r s t : Fin 3, curWhich (label k [r, p, t, s]) = curWhich (label k [p, r, s, t]) := by decide +kernel
    rw [curJ, curJ, curC_eq, curC_eq, h k hk]
    generalize curWhich (label k [p, r, s, t]) = i
    fin_cases i <;> simp [map_ofNat]
  exch k hk p r s t := by
    have h : ∀ k ∈ jmsExchange, ∀ p r s t : Fin 3, curWhich (label k [s, t, p, r]) = curWhich (label k [p, r, s, t]) := by
      decide +kernel
    rw [curJ, curJ, curC_eq, curC_eq, h k hk]

theorem cur_zero (k : String) (hk : k ∈ (jmsOps.map JOp.name).filter fun n => n ≠ "V1udLL" ∧ n ≠ "V8udLL") (p r s t : Fin 3) :
    curJ (k, [p, r, s, t]) = 0 := by
  have h : ∀ k ∈ (jmsOps.map JOp.name).filter fun n => n ≠ "V1udLL" ∧ n ≠ "V8udLL", ∀ p r s t : Fin 3,
      curWhich (label k [p, r, s, t]) = 0 := by decide +kernel
  rw [curJ, curC_eq, h k hk]; rfl

theorem cur_val (g : Fin 3) (hg : g ∈ [(0 : Fin 3), 1]) : curJ ("V1udLL", [g, g, 1, 2]) = 1 ∧ curJ ("V8udLL", [g, g, 1, 2]) = 6 := by
  have h : ∀ g ∈ [(0 : Fin 3), 1], curWhich (label "V1udLL" [g, g, 1, 2]) = 1 ∧ curWhich (label "V8udLL" [g, g, 1, 2]) = 2 := by
    decide +kernel
  obtain ⟨h1, h2⟩ := h g hg
  rw [curJ, curJ, curC_eq, curC_eq, h1, h2]
  exact ⟨rfl, rfl⟩

/-- Coefficients in the EOS basis. -/
noncomputable def curc (N : ℂ) (k : String) : ℂ := if k = "b->s::c2" then 3 / N else 0

theorem cur_pen (N : ℂ) (p q r s : Leg) : qVal (curc N) (eosPenguin N) p q r s = 0 := by
  simp [qVal, eosPenguin, curc]

theorem cur_lag (GF : ℝ) (V : M3) (hN : eosN GF V ≠ 0) :
    ∀ x ∈ [((.u, 0) : Kind × Fin 3), (.u, 1), (.d, 0), (.d, 1), (.d, 2)], ∀ p q r s : Leg,
      p.flav = (.d, 1) → q.flav = (.d, 2) → r.flav = x → s.flav = x →
        (jmsLag curJ).anti p q r s = (qLag (eosQuark GF V 1 1) (curc (eosN GF V))).anti p q r s := by
  have hu : ∀ g ∈ [(0 : Fin 3), 1], ∀ p q r s : Leg, p.flav = (.d, 1) → q.flav = (.d, 2) → r.flav = (.u, g) → s.flav = (.u, g) →
      (jmsLag curJ).anti p q r s = 0 - qVal (curc (eosN GF V)) (eosCurrent (eosN GF V * 1)) p s r q := by
    intro g hg p q r s hp hq hr hs
    obtain ⟨v1, v8⟩ := cur_val g hg
    simp only [Leg.flav, Prod.mk.injEq] at hp hq hr hs
    obtain ⟨r4, s4, r3, s3, v, vLR, vRL, sLR, sRL, sS, tT⟩ := dirRules p.spin q.spin r.spin s.spin
    have c3 := col_one3 p.col q.col r.col s.col
    have c4 := col_cross3 p.col q.col r.col s.col
    have c5 := col_one4 p.col q.col r.col s.col
    have c6 := col_cross4 p.col q.col r.col s.col
    simp only [Four.anti, jmsLag, jmsOps, List.map_cons, List.map_nil, List.sum_cons, List.sum_nil, JOp.term, term_adj, hp.1, hq.1, hr.1, hs.1,
      reduceCtorEq, and_self, and_true, and_false, if_true, if_false, Bool.false_eq_true, add_zero, zero_add]
    simp (disch := decide +kernel) only [cur_zero, once_no]
    rw [hp.2, hq.2, hr.2, hs.2, v1, v8, qVal_cur]
    simp only [map_zero, mul_zero, zero_mul, add_zero, zero_add, sub_zero, leftForm, curc, r4, col_oct, c5, c6]
    rw [if_neg (by decide), if_pos trivial]
    field_simp
    ring
  have hd : ∀ p q r s : Leg, p.kind = .d → q.kind = .d → r.kind = .d → s.kind = .d → (jmsLag curJ).anti p q r s = 0 := by
    intro p q r s hp hq hr hs
    simp only [Four.anti, jmsLag, jmsOps, List.map_cons, List.map_nil, List.sum_cons, List.sum_nil, JOp.term, term_adj, hp, hq, hr, hs,
      reduceCtorEq, and_self, and_true, and_false, if_true, if_false, Bool.false_eq_true, add_zero]
    simp (disch := decide +kernel) only [cur_zero, map_zero, mul_zero, zero_mul, add_zero, sub_zero]
  simp only [List.forall_mem_cons, List.not_mem_nil, false_implies, implies_true, and_true]
  refine ⟨fun p q r s hp hq hr hs => ?_, fun p q r s hp hq hr hs => ?_, ?_⟩
  · rw [eosQ_u _ _ _ _ _ hp hq hr hs, cur_pen, hu 0 (by decide) p q r s hp hq hr hs]
  · rw [eosQ_c _ _ _ _ _ hp hq hr hs, cur_pen, hu 1 (by decide) p q r s hp hq hr hs]
  refine ⟨fun p q r s hp hq hr hs => ?_, fun p q r s hp hq hr hs => ?_, fun p q r s hp hq hr hs => ?_⟩
  · rw [eosQ_d _ _ _ _ _ hp hq hr hs, cur_pen]
    exact hd p q r s (congrArg Prod.fst hp) (congrArg Prod.fst hq) (congrArg Prod.fst hr) (congrArg Prod.fst hs)
  · rw [eosQ_s _ _ _ _ _ hp hq hr hs, cur_pen, cur_pen, sub_zero]
    exact hd p q r s (congrArg Prod.fst hp) (congrArg Prod.fst hq) (congrArg Prod.fst hr) (congrArg Prod.fst hs)
  · rw [eosQ_b _ _ _ _ _ hp hq hr hs, cur_pen, cur_pen, sub_zero]
    exact hd p q r s (congrArg Prod.fst hp) (congrArg Prod.fst hq) (congrArg Prod.fst hr) (congrArg Prod.fst hs)

example : ∃ D, jmsToEos exEnv curC 160 none = .ok D ∧ Dict.getD D "b->s::c2" 0 = 3 / eosN exP.p.GF exP.V ∧
    Dict.getD D "b->s::c2" 0 ≠ 0 := by
  have hN : eosN exP.p.GF exP.V ≠ 0 := by
    have h1 : (exP.p.GF : ℂ) ≠ 0 := by exact_mod_cast exP_admissible.GF
    have h2 : ((Real.sqrt 2 : ℝ) : ℂ) ≠ 0 := by exact_mod_cast (Real.sqrt_pos.2 (by norm_num)).ne'
    have h3 := exP_admissible.V 2 2
    have h4 : starRingEnd ℂ (exP.V 2 1) ≠ 0 := (map_ne_zero _).2 (exP_admissible.V 2 1)
    unfold eosN ckmTop
    push_cast
    exact mul_ne_zero (div_ne_zero (mul_ne_zero (by norm_num) h1) h2) (mul_ne_zero h3 h4)
  have h := jmsToEos_tensor exEnv_ok exP_admissible exP_masses allJms_listing curJ_tensor
  refine ⟨_, h, ?_⟩
  have := (C72_recovery exEnv_ok exP_admissible exP_masses allJms_listing curJ_tensor h 1 1 _ (cur_lag _ _ hN)).1 "b->s::c2" (by simp)
  rw [this, curc, if_pos rfl]
  refine ⟨by ring, ?_⟩
  norm_num
  exact hN

end Verif
