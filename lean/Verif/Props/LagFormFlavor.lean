import Verif.Lemmas.LagFormFlavor
import Verif.Props.Lagrangian

/-! C71: `JMS_to_FormFlavor` preserves the Lagrangian, except for the colour-octet scalar operators. -/

set_option autoImplicit false

namespace Verif

open Spec

section

variable {E : WEnv} {P : PEnv} {scale : ℝ} {par : Option (Dict String ℝ)} {C D : Dict String ℂ} {J : JSrc → ℂ}

/-- **C71, partial**: without the colour-octet scalar operators of the JMS basis (`S8ddRR`, `S8uuRR`), the coefficients returned by
`JMS_to_FormFlavor` describe the same four-fermion Lagrangian as the JMS coefficients, whatever the normalisation `t` of the tensor
operators. -/
theorem C71_lagrangian_partial (hp : penv E scale par = .ok P) (hP : Admissible P) (hL : JmsListing E.jms) (hJ : JmsFull E.jms C J)
    (hD : jmsToFormFlavor E C scale par = .ok D) (hd : ∀ i, J ("S8ddRR", i) = 0) (hu : ∀ i, J ("S8uuRR", i) = 0) (t : ℂ)
    {p q r s : Leg} (h : NCovered (ffSectors t) p q r s) :
    (jmsLag J).anti p q r s = (nLag (ffSectors t) fun k => Dict.getD D k 0).anti p q r s := by
  rw [jmsToFormFlavor_tensor hp hP hL hJ] at hD
  injection hD with hD
  have hc : (fun k => Dict.getD D k 0) = bat J (Dict.ofPairs (blkFormFlavor P).flatten) := by funext k; rw [bat, hD]
  rw [hc]
  refine nCovered_ext (jmsLag_adj hJ) (fun {p q r s} h => ?_) h
  rw [ffSectorKeys_eq] at h
  rw [nLag_anti _ (by rw [ffSectorKeys_eq]; exact ffSectorKeys_conj _ h), ff_direct hP J t hd hu h]

/-- **C71, partial**: the dipole operators of `b -> s`, `b -> d` and of the down quark. -/
theorem C71_dipoles_partial (hp : penv E scale par = .ok P) (hP : Admissible P) (hL : JmsListing E.jms) (hJ : JmsFull E.jms C J)
    (hD : jmsToFormFlavor E C scale par = .ok D) (x : Fin 3 × Fin 3) (hx : x ∈ [((1, 2) : Fin 3 × Fin 3), (0, 2), (0, 0)])
    (X : Boson) (A : Chir) :
    jmsDipole J X A x.1 x.2 = ffDipole P.p.alpha_e P.p.alpha_s (fun k => Dict.getD D k 0) X A x := by
  rw [jmsToFormFlavor_tensor hp hP hL hJ] at hD
  injection hD with hD
  have hc : ∀ k, Dict.getD D k 0 = bat J (Dict.ofPairs (blkFormFlavor P).flatten) k := fun k => by rw [bat, hD]
  have hW := fftable_dipole hP J x hx
  simp only [formFlavorDownTable, List.forall_mem_cons, Ex.val_div, Ex.val_src, Ex.val_cj] at hW
  obtain ⟨W7, W8, V7, V8, -⟩ := hW
  have h1 : (ev P : ℂ) ≠ 0 := by exact_mod_cast ev_ne hP
  have h2 : (gv P : ℂ) ≠ 0 := by exact_mod_cast gv_ne hP
  have e1 : ((Real.sqrt (4 * Real.pi * P.p.alpha_e) : ℝ) : ℂ) = (ev P : ℂ) := rfl
  have e2 : ((Real.sqrt (4 * Real.pi * P.p.alpha_s) : ℝ) : ℂ) = (gv P : ℂ) := rfl
  cases X <;> cases A <;> simp only [jmsDipole, ffDipole, hc, e1, e2]
  · rw [V7]; field_simp
  · rw [W7]; field_simp
  · rw [V8]; field_simp
  · rw [W8]; field_simp

end

/-! ### The colour-octet scalar operators -/

/-- Whether a name is that of the coefficient. -/
def octWhich (x : String) : Fin 2 := if "S8ddRR_2323" = x then 1 else 0

noncomputable def octC : Dict String ℂ := [("S8ddRR_2323", 2)]

noncomputable def octJ (s : JSrc) : ℂ := Dict.getD octC (label s.1 s.2) 0

theorem octC_eq (x : String) : Dict.getD octC x 0 = ![0, 2] (octWhich x) := by
  unfold octC octWhich Dict.getD Dict.find
  by_cases h1 : "S8ddRR_2323" = x
  · simp [h1]
  · simp [h1, Dict.find]

theorem octJ_tensor : JmsFull exEnv.jms octC octJ where
  listed _ _ _ := rfl
  herm k hk p r s t := by
    have h : ∀ k ∈ jmsHermitian, ∀ p r s t : Fin 3, octWhich (label k [p, r, s, t]) = 0 := by decide +kernel
    rw [octJ, octJ, octC_eq, octC_eq, h k hk, h k hk]
    simp
  exch k hk p r s t := by
    have h : ∀ k ∈ jmsExchange, ∀ p r s t : Fin 3, octWhich (label k [s, t, p, r]) = octWhich (label k [p, r, s, t]) := by
      decide +kernel
    rw [octJ, octJ, octC_eq, octC_eq, h k hk]

/-- Difference of the Lagrangians, two red and two green quarks. -/
theorem oct_diff {D : Dict String ℂ} (hD : jmsToFormFlavor exEnv octC 160 none = .ok D) (t : ℂ) (a b : Fin 4) :
    (jmsLag octJ).anti ⟨.d, 1, a, 0⟩ ⟨.d, 2, a, 0⟩ ⟨.d, 1, b, 1⟩ ⟨.d, 2, b, 1⟩ =
      (nLag (ffSectors t) fun k => Dict.getD D k 0).anti ⟨.d, 1, a, 0⟩ ⟨.d, 2, a, 0⟩ ⟨.d, 1, b, 1⟩ ⟨.d, 2, b, 1⟩ -
      ((Dir.g 0 .R .R).val a a b b - (t - 1) / 8 * (Dir.sg .R .R).val a a b b) -
      ((Dir.g 0 .R .R).val b b a a - (t - 1) / 8 * (Dir.sg .R .R).val b b a a) := by
  rw [jmsToFormFlavor_tensor exEnv_ok exP_admissible allJms_listing octJ_tensor] at hD
  injection hD with hD
  have hc : (fun k => Dict.getD D k 0) = bat octJ (Dict.ofPairs (blkFormFlavor exP).flatten) := by funext k; rw [bat, hD]
  have z : octJ ("S8ddRR", [2, 1, 2, 1]) = 0 := by
    have h : octWhich (label "S8ddRR" [2, 1, 2, 1]) = 0 := by decide +kernel
    rw [octJ, octC_eq, h]; rfl
  have v : octJ ("S8ddRR", [1, 2, 1, 2]) = 2 := by
    have h : octWhich (label "S8ddRR" [1, 2, 1, 2]) = 1 := by decide +kernel
    rw [octJ, octC_eq, h]; rfl
  have hk : fl4 ⟨.d, 1, a, 0⟩ ⟨.d, 2, a, 0⟩ ⟨.d, 1, b, 1⟩ ⟨.d, 2, b, 1⟩ ∈ ffSectorKeys := by
    show ((.d, 1), (.d, 2), (.d, 1), (.d, 2)) ∈ ffSectorKeys
    decide +kernel
  rw [hc, nLag_anti _ (by rw [ffSectorKeys_eq]; exact ffSectorKeys_conj _ hk),
    ff_down exP_admissible octJ t (y := (1, 2)) (by decide) rfl, v, z]
  simp only [Four.anti, ffExtra, Col.val]
  simp
  ring

/-- **C71, refuted**: no normalisation of the tensor operators makes the Lagrangians agree in general; the crossed colour structure
enters with the wrong sign. -/
theorem C71_refuted (t : ℂ) : ¬ ∀ (E : WEnv) (P : PEnv) (scale : ℝ) (par : Option (Dict String ℝ)) (C D : Dict String ℂ)
    (J : JSrc → ℂ), penv E scale par = .ok P → Admissible P → JmsListing E.jms → JmsFull E.jms C J →
      jmsToFormFlavor E C scale par = .ok D → ∀ p q r s : Leg, NCovered (ffSectors t) p q r s →
        (jmsLag J).anti p q r s = (nLag (ffSectors t) fun k => Dict.getD D k 0).anti p q r s := by
  intro H
  have h := jmsToFormFlavor_tensor exEnv_ok exP_admissible allJms_listing octJ_tensor
  have hc : ∀ a b : Fin 4, NCovered (ffSectors t) ⟨.d, 1, a, 0⟩ ⟨.d, 2, a, 0⟩ ⟨.d, 1, b, 1⟩ ⟨.d, 2, b, 1⟩ := fun a b =>
    ⟨⟨(.d, 1), (.d, 2), (.d, 1), (.d, 2), ffI t (qname (.d, 2) ++ qname (.d, 1))⟩,
      List.mem_append_left _ (List.mem_append_left _ (List.mem_map.2 ⟨(1, 2), by decide, rfl⟩)),
      Or.inl ⟨Or.inl ⟨rfl, rfl⟩, Or.inl ⟨rfl, rfl⟩⟩⟩
  have key := fun a b => (oct_diff h t a b).symm.trans
    (H exEnv exP 160 none octC _ octJ exEnv_ok exP_admissible allJms_listing octJ_tensor h _ _ _ _ (hc a b))
  have k1 := key 3 3
  have k2 := key 2 3
  have e : (Dir.g 0 .R .R).ent 3 3 3 3 = 1 ∧ (Dir.g 0 .R .R).ent 2 2 3 3 = 1 ∧ (Dir.g 0 .R .R).ent 3 3 2 2 = 1 ∧
      (Dir.sg .R .R).ent 3 3 3 3 = 4 ∧ (Dir.sg .R .R).ent 2 2 3 3 = -4 ∧ (Dir.sg .R .R).ent 3 3 2 2 = -4 := by decide +kernel
  obtain ⟨e1, e2, e3, e4, e5, e6⟩ := e
  simp only [Dir.val, e1, e2, e3, e4, e5, e6, map_one, map_neg] at k1 k2
  have : (1 : ℂ) = 0 := by linear_combination (-k1 - k2) / 4
  exact one_ne_zero this

/-! Non-trivial instance of the partial theorem: a complex coefficient of muons and its conjugate. -/

def ffWhich (x : String) : Fin 3 := if "VedLL_2223" = x then 1 else if "VedLL_2232" = x then 2 else 0

noncomputable def ffC : Dict String ℂ := [("VedLL_2223", 2 + 4 * Complex.I), ("VedLL_2232", 2 - 4 * Complex.I)]

noncomputable def ffJ (s : JSrc) : ℂ := Dict.getD ffC (label s.1 s.2) 0

theorem ffC_eq (x : String) : Dict.getD ffC x 0 = ![0, 2 + 4 * Complex.I, 2 - 4 * Complex.I] (ffWhich x) := by
  unfold ffC ffWhich Dict.getD Dict.find
  by_cases h1 : "VedLL_2223" = x
  · simp [h1]
  · by_cases h2 : "VedLL_2232" = x
    · simp [h1, h2, Dict.find]
    · simp [h1, h2, Dict.find]

theorem ffJ_tensor : JmsFull exEnv.jms ffC ffJ where
  listed _ _ _ := rfl
  herm k hk p r s t := by
    have h : ∀ k ∈ jmsHermitian, ∀ p r s t : Fin 3, ffWhich (label k [r, p, t, s]) = ![0, 2, 1] (ffWhich (label k [p, r, s, t])) := by
      decide +kernel
    rw [ffJ, ffJ, ffC_eq, ffC_eq, h k hk]
    generalize ffWhich (label k [p, r, s, t]) = i
    fin_cases i <;> simp [sub_eq_add_neg, map_ofNat]
  exch k hk p r s t := by
    have h : ∀ k ∈ jmsExchange, ∀ p r s t : Fin 3, ffWhich (label k [s, t, p, r]) = ffWhich (label k [p, r, s, t]) := by
      decide +kernel
    rw [ffJ, ffJ, ffC_eq, ffC_eq, h k hk]

theorem ffJ_oct (k : String) (hk : k ∈ ["S8ddRR", "S8uuRR"]) (i : List (Fin 3)) : ffJ (k, i) = 0 := by
  have h : ffWhich (label k i) = 0 := by
    unfold ffWhich label
    rw [if_neg, if_neg]
    all_goals
      intro h
      have := congrArg String.toList h
      simp only [List.mem_cons, List.not_mem_nil, or_false] at hk
      rcases hk with rfl | rfl <;> cases i <;> simp at this
  rw [ffJ, ffC_eq, h]; rfl

theorem ffLag_ex : (jmsLag ffJ).anti ⟨.d, 1, 2, 0⟩ ⟨.d, 2, 0, 0⟩ ⟨.e, 1, 3, 0⟩ ⟨.e, 1, 1, 0⟩ = 4 + 8 * Complex.I := by
  have z : ∀ k i, ffWhich (label k i) = 0 → ffJ (k, i) = 0 := fun k i h => by rw [ffJ, ffC_eq, h]; rfl
  have v : ffJ ("VedLL", [1, 1, 1, 2]) = 2 + 4 * Complex.I := by
    have h : ffWhich (label "VedLL" [1, 1, 1, 2]) = 1 := by decide +kernel
    rw [ffJ, ffC_eq, h]; rfl
  have g : (Dir.g 1 .L .L).val 3 1 2 0 = 2 := by
    rw [Dir.val, show (Dir.g 1 .L .L).ent 3 1 2 0 = 2 by decide +kernel, tc2]
  simp only [Four.anti, jmsLag, jmsOps, List.map_cons, List.map_nil, List.sum_cons, List.sum_nil, JOp.term, term_adj,
    reduceCtorEq, and_self, and_true, and_false, if_true, if_false, Bool.false_eq_true, add_zero, zero_add,
    val0_adj, val1_adj, valS_adj, Chir.flip]
  rw [z "VdeLR" _ (by decide +kernel), z "VedRR" _ (by decide +kernel), z "VedLR" _ (by decide +kernel),
    z "SedRR" _ (by decide +kernel), z "SedRR" _ (by decide +kernel), z "SedRL" _ (by decide +kernel),
    z "SedRL" _ (by decide +kernel), z "TedRR" _ (by decide +kernel), z "TedRR" _ (by decide +kernel), v, g,
    show once "VedLL" (1, 1) (1, 2) = 1 from once_no (by decide +kernel) _ _]
  simp [Col.val]
  ring

example (t : ℂ) : ∃ D, jmsToFormFlavor exEnv ffC 160 none = .ok D ∧
    (nLag (ffSectors t) fun k => Dict.getD D k 0).anti ⟨.d, 1, 2, 0⟩ ⟨.d, 2, 0, 0⟩ ⟨.e, 1, 3, 0⟩ ⟨.e, 1, 1, 0⟩ =
      4 + 8 * Complex.I := by
  have h := jmsToFormFlavor_tensor exEnv_ok exP_admissible allJms_listing ffJ_tensor
  refine ⟨_, h, ?_⟩
  have hc : NCovered (ffSectors t) ⟨.d, 1, 2, 0⟩ ⟨.d, 2, 0, 0⟩ ⟨.e, 1, 3, 0⟩ ⟨.e, 1, 1, 0⟩ :=
    ⟨⟨(.d, 1), (.d, 2), (.e, 1), (.e, 1), ffLep (qname (.d, 2) ++ qname (.d, 1))⟩,
      List.mem_append_right _ (List.mem_map.2 ⟨(1, 2), by decide, rfl⟩), Or.inl ⟨Or.inl ⟨rfl, rfl⟩, Or.inl ⟨rfl, rfl⟩⟩⟩
  rw [← C71_lagrangian_partial exEnv_ok exP_admissible allJms_listing ffJ_tensor h (ffJ_oct _ (by decide)) (ffJ_oct _ (by decide)) t hc,
    ffLag_ex]

end Verif
