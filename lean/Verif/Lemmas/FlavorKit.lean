import Verif.Lemmas.FlavorKitData
import Verif.Spec.FlavorKit
import Verif.Lemmas.WetLemmas

/-! One pass of the FlavorKit loops, and the loops as a renaming. -/

set_option autoImplicit false

namespace Verif

open Spec

/-! ### Looking up names -/

theorem nodup_left {α : Type} {a b : List α} (h : (a ++ b).Nodup) : a.Nodup := (List.nodup_append.1 h).1

theorem nodup_not_left {α : Type} {a b : List α} (h : (a ++ b).Nodup) {x : α} (hx : x ∈ b) : x ∉ a :=
  fun ha => (List.nodup_append.1 h).2.2 x ha x hx rfl

theorem revert_find {d : Dict String String} (h : (d.map Prod.snd).Nodup) {k k' : String} (hm : (k, k') ∈ d) :
    Dict.find (revert d) k' = some k := by
  have hw : Dict.WF (d.map fun q : String × String => (q.2, q.1)) := by
    unfold Dict.WF Dict.keys
    rw [List.map_map]; exact h
  unfold revert
  rw [Dict.find_ofPairs hw]
  exact Dict.find_of_mem hw (List.mem_map.2 ⟨_, hm, rfl⟩)

theorem revert_none {d : Dict String String} (h : (d.map Prod.snd).Nodup) {k' : String} (hm : k' ∉ d.map Prod.snd) :
    Dict.find (revert d) k' = none := by
  have hw : Dict.WF (d.map fun q : String × String => (q.2, q.1)) := by
    unfold Dict.WF Dict.keys
    rw [List.map_map]; exact h
  unfold revert
  rw [Dict.find_ofPairs hw, Dict.find_eq_none_iff]
  unfold Dict.keys
  rw [List.map_map]; exact hm

theorem keys_fkAll : Dict.keys fkAll = Dict.keys fkJms ++ (Dict.keys fkJmsConj ++ (Dict.keys fkSpecial ++ Dict.keys fkDipoles)) := by
  simp only [fkAll, Dict.keys_append, List.append_assoc]

theorem snd_fkAll : fkAll.map Prod.snd = fkJms.map Prod.snd ++ (fkJmsConj.map Prod.snd ++ (fkSpecial.map Prod.snd ++ fkDipoles.map Prod.snd)) := by
  simp only [fkAll, List.map_append, List.append_assoc]

theorem fk_nodup : (Dict.keys fkJms ++ (Dict.keys fkJmsConj ++ (Dict.keys fkSpecial ++ Dict.keys fkDipoles))).Nodup := by
  rw [← keys_fkAll]; exact fkAll_WF

theorem fk_snd_nodup :
    (fkJms.map Prod.snd ++ (fkJmsConj.map Prod.snd ++ (fkSpecial.map Prod.snd ++ fkDipoles.map Prod.snd))).Nodup := by
  rw [← snd_fkAll]; exact fkAll_snd_nodup

theorem jms_nodup : (fkJms.map Prod.snd).Nodup := nodup_left fk_snd_nodup
theorem jmsConj_nodup : (fkJmsConj.map Prod.snd).Nodup := nodup_left (List.nodup_append.1 fk_snd_nodup).2.1

theorem mem_fkAll {q : String × String} : q ∈ fkAll ↔ q ∈ fkJms ∨ q ∈ fkJmsConj ∨ q ∈ fkSpecial ∨ q ∈ fkDipoles := by
  simp only [fkAll, List.mem_append, or_assoc]

/-! ### Factors -/

/-- Charged lepton mass of a flavour. -/
def lmass (p : WPar) (i : Fin 3) : ℝ := if i = 0 then p.m_e else if i = 1 then p.m_mu else p.m_tau

/-- `sqrt(4 pi alpha_e)`. -/
noncomputable def echarge (p : WPar) : ℝ := Real.sqrt (4 * Real.pi * p.alpha_e)

theorem fkDipoles_form : ∀ q ∈ fkDipoles, ∃ i j : Fin 3, q = (label "K2R" [i, j], label "egamma" [j, i]) := by
  intro q hq
  have : ∀ q ∈ fkDipoles, ∃ i ∈ List.finRange 3, ∃ j ∈ List.finRange 3, q = (label "K2R" [i, j], label "egamma" [j, i]) := by
    decide +kernel
  obtain ⟨i, -, j, -, h⟩ := this q hq
  exact ⟨i, j, h⟩

theorem fkDipoles_mem : ∀ i j : Fin 3, (label "K2R" [i, j], label "egamma" [j, i]) ∈ fkDipoles := by decide +kernel

/-- The factor with which FlavorKit coefficient `k` enters. -/
noncomputable def fkFactor (p : WPar) (k : String) (v : ℂ) : ℂ :=
  open Classical in
  if k ∈ Dict.keys fkJmsConj then starRingEnd ℂ v
  else if h : ∃ i j : Fin 3, k = label "K2R" [i, j] then ((1 / 2 * echarge p * lmass p h.choose : ℝ) : ℂ) * v
  else v

theorem fkFactor_add (p : WPar) (k : String) (a b : ℂ) : fkFactor p k (a + b) = fkFactor p k a + fkFactor p k b := by
  unfold fkFactor; split_ifs <;> simp [mul_add]

theorem fkFactor_real (p : WPar) (k : String) (r : ℝ) (b : ℂ) : fkFactor p k (r * b) = r * fkFactor p k b := by
  unfold fkFactor; split_ifs <;> simp; ring

/-- The factor on the way back. -/
noncomputable def fkInvFactor (p : WPar) (k : String) (v : ℂ) : ℂ :=
  open Classical in
  if k ∈ Dict.keys fkJmsConj then starRingEnd ℂ v
  else if h : ∃ i j : Fin 3, k = label "K2R" [i, j] then ((2 / echarge p / lmass p h.choose : ℝ) : ℂ) * v
  else v

theorem fkInvFactor_add (p : WPar) (k : String) (a b : ℂ) : fkInvFactor p k (a + b) = fkInvFactor p k a + fkInvFactor p k b := by
  unfold fkInvFactor; split_ifs <;> simp [mul_add]

theorem fkInvFactor_real (p : WPar) (k : String) (r : ℝ) (b : ℂ) : fkInvFactor p k (r * b) = r * fkInvFactor p k b := by
  unfold fkInvFactor; split_ifs <;> simp; ring

theorem FkParams.mass {p : WPar} (h : FkParams p) (i : Fin 3) : lmass p i ≠ 0 := by
  unfold lmass; split_ifs
  · exact h.m_e
  · exact h.m_mu
  · exact h.m_tau

theorem FkParams.e_pos {p : WPar} (h : FkParams p) : 0 < echarge p :=
  Real.sqrt_pos.2 (mul_pos (mul_pos (by norm_num) Real.pi_pos) h.alpha_e)

theorem FkParams.sqrt {p : WPar} (h : FkParams p) : sqrtE (4 * Real.pi * p.alpha_e) = .ok (echarge p) := by
  have : 0 < 4 * Real.pi * p.alpha_e := mul_pos (mul_pos (by norm_num) Real.pi_pos) h.alpha_e
  simp [sqrtE, not_lt.2 this.le, echarge]

theorem fkFactor_inv {p : WPar} (h : FkParams p) (k : String) (v : ℂ) : fkInvFactor p k (fkFactor p k v) = v := by
  unfold fkFactor fkInvFactor
  have he := h.e_pos.ne'
  split_ifs with h1 h2
  · simp
  · have hm := h.mass h2.choose
    have hc : ((echarge p : ℝ) : ℂ) ≠ 0 := by exact_mod_cast he
    have hc' : ((lmass p h2.choose : ℝ) : ℂ) ≠ 0 := by exact_mod_cast hm
    push_cast
    field_simp
  · rfl

theorem fkInvFactor_inv {p : WPar} (h : FkParams p) (k : String) (v : ℂ) : fkFactor p k (fkInvFactor p k v) = v := by
  unfold fkFactor fkInvFactor
  have he := h.e_pos.ne'
  split_ifs with h1 h2
  · simp
  · have hm := h.mass h2.choose
    have hc : ((echarge p : ℝ) : ℂ) ≠ 0 := by exact_mod_cast he
    have hc' : ((lmass p h2.choose : ℝ) : ℂ) ≠ 0 := by exact_mod_cast hm
    push_cast
    field_simp
  · rfl

theorem choose_K2R {i j : Fin 3} (h : ∃ i' j' : Fin 3, label "K2R" [i, j] = label "K2R" [i', j']) : h.choose = i := by
  obtain ⟨j', h'⟩ := h.choose_spec
  have hp : Plain "K2R" := by decide +kernel
  have := (label_inj hp hp h').2
  simp only [List.cons.injEq] at this
  exact this.1.symm

theorem leptonMass_digit (p : WPar) (i : Fin 3) (m : Option ℝ) : leptonMass p (flavourDigit i) m = some (lmass p i) := by
  fin_cases i <;> simp [leptonMass, flavourDigit, lmass]

/-! ### One pass -/

theorem special_not : ∀ q ∈ fkSpecial, ¬ (q.1.toList.take 4 = "K2R_".toList) ∧ ¬ headPart q.2 = "egamma" := by decide +kernel

theorem table_not_K2R : ∀ q ∈ fkJms ++ fkSpecial, ¬ (q.1.toList.take 4 = "K2R_".toList) := by decide +kernel

theorem label2 (k : String) (i j : Fin 3) : (label k [i, j]).toList = k.toList ++ ['_', flavourDigit i, flavourDigit j] := by
  simp [label]

/-- A known name is renamed. -/
theorem fkToJms_known {p : WPar} (hp : FkParams p) {k k' : String} (h : (k, k') ∈ fkAll) (s : Option ℝ × Dict String ℂ) (v : ℂ) :
    ∃ m, fkToJmsStep p s (k, v) = .ok (m, Dict.put s.2 k' (fkFactor p k v)) := by
  have nd := fk_nodup
  have nd2 := (List.nodup_append.1 nd).2.1
  have nd3 := (List.nodup_append.1 nd2).2.1
  have hk : ∀ {d : Dict String String}, (k, k') ∈ d → k ∈ Dict.keys d := fun h => List.mem_map.2 ⟨_, h, rfl⟩
  rcases mem_fkAll.1 h with h1 | h1 | h1 | h1
  · have hf : Dict.find fkJms k = some k' := Dict.find_of_mem (nodup_left nd) h1
    have h2 : k ∉ Dict.keys fkJmsConj := fun hx => nodup_not_left nd (List.mem_append_left _ hx) (hk h1)
    have h3 : ¬ ∃ i j : Fin 3, k = label "K2R" [i, j] := by
      rintro ⟨i, j, e⟩
      refine table_not_K2R (k, k') (List.mem_append_left _ h1) ?_
      simp only [e, label2]; rfl
    refine ⟨s.1, ?_⟩
    simp [fkToJmsStep, hf, fkFactor, h2, h3]
  · have hn : Dict.find fkJms k = none := Dict.find_eq_none_iff.2 (nodup_not_left nd (List.mem_append_left _ (hk h1)))
    have hf : Dict.find fkJmsConj k = some k' := Dict.find_of_mem (nodup_left nd2) h1
    refine ⟨s.1, ?_⟩
    simp [fkToJmsStep, hn, hf, fkFactor, hk h1]
  · have hn : Dict.find fkJms k = none :=
      Dict.find_eq_none_iff.2 (nodup_not_left nd (List.mem_append_right _ (List.mem_append_left _ (hk h1))))
    have hn2 : k ∉ Dict.keys fkJmsConj := nodup_not_left nd2 (List.mem_append_left _ (hk h1))
    have hf2 : Dict.find fkJmsConj k = none := Dict.find_eq_none_iff.2 hn2
    have h3 : ¬ ∃ i j : Fin 3, k = label "K2R" [i, j] := by
      rintro ⟨i, j, e⟩
      refine table_not_K2R (k, k') (List.mem_append_right _ h1) ?_
      simp only [e, label2]; rfl
    have hF : fkFactor p k v = v := by simp [fkFactor, hn2, h3]
    refine ⟨s.1, ?_⟩
    rw [hF]
    unfold fkToJmsStep
    simp only [hn, hf2]
    simp only [fkSpecial, List.mem_cons, List.not_mem_nil, or_false, Prod.mk.injEq] at h1
    rcases h1 with ⟨rfl, rfl⟩ | ⟨rfl, rfl⟩
    · rw [if_pos rfl]
    · rw [if_neg (by decide +kernel), if_pos rfl]
  · have hn : Dict.find fkJms k = none :=
      Dict.find_eq_none_iff.2 (nodup_not_left nd (List.mem_append_right _ (List.mem_append_right _ (hk h1))))
    have hn2 : k ∉ Dict.keys fkJmsConj := nodup_not_left nd2 (List.mem_append_right _ (hk h1))
    have hf2 : Dict.find fkJmsConj k = none := Dict.find_eq_none_iff.2 hn2
    obtain ⟨i, j, e⟩ := fkDipoles_form _ h1
    simp only [Prod.mk.injEq] at e
    obtain ⟨rfl, rfl⟩ := e
    have hs : ∀ x ∈ Dict.keys fkSpecial, label "K2R" [i, j] ≠ x := fun x hx e => nodup_not_left nd3 (hk h1) (e ▸ hx)
    have hF : fkFactor p (label "K2R" [i, j]) v = ((1 / 2 * echarge p * lmass p i : ℝ) : ℂ) * v := by
      have hex : ∃ i' j' : Fin 3, label "K2R" [i, j] = label "K2R" [i', j'] := ⟨i, j, rfl⟩
      unfold fkFactor
      rw [if_neg hn2, dif_pos hex, choose_K2R hex]
    have ht : (label "K2R" [i, j]).toList.take 4 = "K2R_".toList := by rw [label2]; rfl
    have hd : ((label "K2R" [i, j]).toList.drop 4).reverse = [flavourDigit j, flavourDigit i] := by rw [label2]; rfl
    have hl : "egamma_" ++ String.ofList [flavourDigit j, flavourDigit i] = label "egamma" [j, i] := by
      apply String.toList_injective
      rw [label2]; simp
    refine ⟨some (lmass p i), ?_⟩
    unfold fkToJmsStep
    simp only [hn, hf2]
    rw [if_neg (hs _ (by simp [fkSpecial, Dict.keys])), if_neg (hs _ (by simp [fkSpecial, Dict.keys])), if_pos ht, hp.sqrt, hd]
    simp only [except_ok_bind, chAt, List.getElem?_cons_succ, List.getElem?_cons_zero, leptonMass_digit, boundOr, hl, hF]
    rfl

/-- On the way back. -/
theorem jmsToFk_known {p : WPar} (hp : FkParams p) {k k' : String} (h : (k, k') ∈ fkAll)
    (hd : ∀ i : Fin 3, k' ≠ label "egamma" [i, i]) (s : Option ℝ × Dict String ℂ) (v : ℂ) :
    ∃ m, jmsToFkStep p s (k', v) = .ok (m, Dict.put s.2 k (fkInvFactor p k v)) := by
  have nd := fk_nodup
  have nd2 := (List.nodup_append.1 nd).2.1
  have nd3 := (List.nodup_append.1 nd2).2.1
  have sd := fk_snd_nodup
  have sd2 := (List.nodup_append.1 sd).2.1
  have sd3 := (List.nodup_append.1 sd2).2.1
  have hk : ∀ {d : Dict String String}, (k, k') ∈ d → k ∈ Dict.keys d := fun h => List.mem_map.2 ⟨_, h, rfl⟩
  have hv : ∀ {d : Dict String String}, (k, k') ∈ d → k' ∈ d.map Prod.snd := fun h => List.mem_map.2 ⟨_, h, rfl⟩
  rcases mem_fkAll.1 h with h1 | h1 | h1 | h1
  · have hf := revert_find jms_nodup h1
    have h2 : k ∉ Dict.keys fkJmsConj := fun hx => nodup_not_left nd (List.mem_append_left _ hx) (hk h1)
    have h3 : ¬ ∃ i j : Fin 3, k = label "K2R" [i, j] := by
      rintro ⟨i, j, e⟩
      refine table_not_K2R (k, k') (List.mem_append_left _ h1) ?_
      simp only [e, label2]; rfl
    refine ⟨s.1, ?_⟩
    have hF : fkInvFactor p k v = v := by unfold fkInvFactor; rw [if_neg h2, dif_neg h3]
    rw [hF]; unfold jmsToFkStep; simp only [hf]
  · have hn := revert_none jms_nodup (nodup_not_left sd (List.mem_append_left _ (hv h1)))
    have hf := revert_find jmsConj_nodup h1
    refine ⟨s.1, ?_⟩
    have hF : fkInvFactor p k v = starRingEnd ℂ v := by unfold fkInvFactor; rw [if_pos (hk h1)]
    rw [hF]; unfold jmsToFkStep; simp only [hn, hf]
  · have hn := revert_none jms_nodup (nodup_not_left sd (List.mem_append_right _ (List.mem_append_left _ (hv h1))))
    have hn2 : k ∉ Dict.keys fkJmsConj := nodup_not_left nd2 (List.mem_append_left _ (hk h1))
    have hf2 := revert_none jmsConj_nodup (nodup_not_left sd2 (List.mem_append_left _ (hv h1)))
    have h3 : ¬ ∃ i j : Fin 3, k = label "K2R" [i, j] := by
      rintro ⟨i, j, e⟩
      refine table_not_K2R (k, k') (List.mem_append_right _ h1) ?_
      simp only [e, label2]; rfl
    have hF : fkInvFactor p k v = v := by simp [fkInvFactor, hn2, h3]
    refine ⟨s.1, ?_⟩
    rw [hF]
    unfold jmsToFkStep
    simp only [hn, hf2]
    simp only [fkSpecial, List.mem_cons, List.not_mem_nil, or_false, Prod.mk.injEq] at h1
    rcases h1 with ⟨rfl, rfl⟩ | ⟨rfl, rfl⟩
    · rw [if_pos rfl]
    · rw [if_neg (by decide +kernel), if_pos rfl]
  · have hn := revert_none jms_nodup (nodup_not_left sd (List.mem_append_right _ (List.mem_append_right _ (hv h1))))
    have hn2 : k ∉ Dict.keys fkJmsConj := nodup_not_left nd2 (List.mem_append_right _ (hk h1))
    have hf2 := revert_none jmsConj_nodup (nodup_not_left sd2 (List.mem_append_right _ (hv h1)))
    obtain ⟨i, j, e⟩ := fkDipoles_form _ h1
    simp only [Prod.mk.injEq] at e
    obtain ⟨rfl, rfl⟩ := e
    have hs : ∀ x ∈ fkSpecial.map Prod.snd, label "egamma" [j, i] ≠ x := fun x hx e => nodup_not_left sd3 (hv h1) (e ▸ hx)
    have hF : fkInvFactor p (label "K2R" [i, j]) v = ((2 / echarge p / lmass p i : ℝ) : ℂ) * v := by
      have hex : ∃ i' j' : Fin 3, label "K2R" [i, j] = label "K2R" [i', j'] := ⟨i, j, rfl⟩
      unfold fkInvFactor
      rw [if_neg hn2, dif_pos hex, choose_K2R hex]
    have hij : flavourDigit i ≠ flavourDigit j := by
      intro e
      have inj : Function.Injective flavourDigit := by decide
      exact hd i (by rw [inj e])
    have ht : headPart (label "egamma" [j, i]) = "egamma" := headPart_label (by unfold Plain; decide +kernel) _
    have h2 : secondPart (label "egamma" [j, i]) = .ok [flavourDigit j, flavourDigit i] := by
      have : ∀ i j : Fin 3, secondPart (label "egamma" [j, i]) = .ok [flavourDigit j, flavourDigit i] := by decide +kernel
      exact this i j
    have hl : "K2R_" ++ String.ofList [flavourDigit i, flavourDigit j] = label "K2R" [i, j] := by
      apply String.toList_injective
      rw [label2]; simp
    have hm := hp.mass i
    have he := hp.e_pos.ne'
    refine ⟨some (lmass p i), ?_⟩
    unfold jmsToFkStep
    simp only [hn, hf2]
    rw [if_neg (hs _ (by simp [fkSpecial])), if_neg (hs _ (by simp [fkSpecial])), if_pos ht, hp.sqrt, h2]
    simp only [except_ok_bind, chAt, List.reverse_cons, List.reverse_nil, List.nil_append, List.singleton_append,
      List.getElem?_cons_succ, List.getElem?_cons_zero, leptonMass_digit, boundOr, hl, hF, if_neg hij, divE_ok he, divE_ok hm]
    rfl

/-- Every other name is skipped. -/
theorem jmsToFk_other (p : WPar) {k' : String} (hk : k' ∉ fkAll.map Prod.snd) (he : headPart k' ≠ "egamma")
    (s : Option ℝ × Dict String ℂ) (v : ℂ) : jmsToFkStep p s (k', v) = .ok s := by
  rw [snd_fkAll] at hk
  simp only [List.mem_append, not_or] at hk
  obtain ⟨h1, h2, h3, h4⟩ := hk
  have h5 : k' ≠ "VeeLL_1223" := fun e => h3 (by rw [e]; simp [fkSpecial])
  have h6 : k' ≠ "VeeRR_1223" := fun e => h3 (by rw [e]; simp [fkSpecial])
  have g1 := revert_none jms_nodup h1
  have g2 := revert_none jmsConj_nodup h2
  unfold jmsToFkStep
  simp only [g1, g2]
  rw [if_neg h5, if_neg h6, if_neg he]

/-- Diagonal dipoles are skipped. -/
theorem jmsToFk_diag (p : WPar) (i : Fin 3) (s : Option ℝ × Dict String ℂ) (v : ℂ) :
    jmsToFkStep p s (label "egamma" [i, i], v) = .ok s := by
  have sd := fk_snd_nodup
  have sd2 := (List.nodup_append.1 sd).2.1
  have sd3 := (List.nodup_append.1 sd2).2.1
  have hv : label "egamma" [i, i] ∈ fkDipoles.map Prod.snd := List.mem_map.2 ⟨_, fkDipoles_mem i i, rfl⟩
  have hn := revert_none jms_nodup (nodup_not_left sd (List.mem_append_right _ (List.mem_append_right _ hv)))
  have hf2 := revert_none jmsConj_nodup (nodup_not_left sd2 (List.mem_append_right _ hv))
  have hs : ∀ x ∈ fkSpecial.map Prod.snd, label "egamma" [i, i] ≠ x := fun x hx e => nodup_not_left sd3 hv (e ▸ hx)
  have ht : headPart (label "egamma" [i, i]) = "egamma" := headPart_label (by unfold Plain; decide +kernel) _
  have h2 : secondPart (label "egamma" [i, i]) = .ok [flavourDigit i, flavourDigit i] := by
    have : ∀ i : Fin 3, secondPart (label "egamma" [i, i]) = .ok [flavourDigit i, flavourDigit i] := by decide +kernel
    exact this i
  unfold jmsToFkStep
  simp only [hn, hf2]
  rw [if_neg (hs _ (by simp [fkSpecial])), if_neg (hs _ (by simp [fkSpecial])), if_pos ht, h2]
  simp only [except_ok_bind, chAt, List.reverse_cons, List.reverse_nil, List.nil_append, List.singleton_append,
      List.getElem?_cons_succ, List.getElem?_cons_zero, if_true]
  rfl

/-! ### The loop -/

/-- A loop that renames some entries and skips the others. -/
theorem foldlM_rename {step : Option ℝ × Dict String ℂ → String × ℂ → Except PyErr (Option ℝ × Dict String ℂ)}
    {f : String → Option String} {g : String → ℂ → ℂ} (C : Dict String ℂ)
    (h1 : ∀ kv ∈ C, ∀ k', f kv.1 = some k' → ∀ s, ∃ m, step s kv = .ok (m, Dict.put s.2 k' (g kv.1 kv.2)))
    (h2 : ∀ kv ∈ C, f kv.1 = none → ∀ s, ∃ m, step s kv = .ok (m, s.2))
    (s : Option ℝ × Dict String ℂ) (hn : (Dict.keys s.2 ++ C.filterMap fun kv => f kv.1).Nodup) :
    ∃ m, C.foldlM step s = .ok (m, s.2 ++ C.filterMap fun kv => (f kv.1).map fun k' => (k', g kv.1 kv.2)) := by
  induction C generalizing s with
  | nil => exact ⟨s.1, by simp [List.foldlM]; rfl⟩
  | cons kv C ih =>
    have ih' := ih (fun kv' hkv => h1 kv' (List.mem_cons_of_mem _ hkv)) (fun kv' hkv => h2 kv' (List.mem_cons_of_mem _ hkv))
    rw [List.foldlM_cons]
    cases hf : f kv.1 with
    | none =>
      obtain ⟨m, hm⟩ := h2 kv List.mem_cons_self hf s
      rw [hm, except_ok_bind]
      rw [List.filterMap_cons_none (f := fun kv : String × ℂ => f kv.1) hf] at hn
      obtain ⟨m', hm'⟩ := ih' (m, s.2) hn
      refine ⟨m', ?_⟩
      rw [hm', List.filterMap_cons_none (by simp [hf])]
    | some k' =>
      obtain ⟨m, hm⟩ := h1 kv List.mem_cons_self k' hf s
      rw [hm, except_ok_bind]
      rw [List.filterMap_cons_some (f := fun kv : String × ℂ => f kv.1) hf] at hn
      have hk : k' ∉ Dict.keys s.2 := fun hx => (List.nodup_append.1 hn).2.2 k' hx k' List.mem_cons_self rfl
      rw [Dict.put_of_not_mem hk]
      obtain ⟨m', hm'⟩ := ih' (m, s.2 ++ [(k', g kv.1 kv.2)]) (by
        simp only [Dict.keys_append, Dict.keys_cons, Dict.keys_nil, List.append_assoc, List.singleton_append]; exact hn)
      refine ⟨m', ?_⟩
      rw [hm', List.filterMap_cons_some (b := (k', g kv.1 kv.2)) (by simp [hf])]
      simp

/-- The new names are distinct if the renaming is injective. -/
theorem rename_nodup {f : String → Option String} (hf : ∀ k1 k2 k', f k1 = some k' → f k2 = some k' → k1 = k2)
    {C : Dict String ℂ} (hC : Dict.WF C) : (C.filterMap fun kv => f kv.1).Nodup := by
  have : (C.filterMap fun kv => f kv.1) = (Dict.keys C).filterMap f := by
    unfold Dict.keys; rw [List.filterMap_map]; rfl
  rw [this]
  exact List.Nodup.filterMap (fun a a' b ha ha' => hf a a' b ha ha') hC

/-- Values after a renaming. -/
theorem rename_getD {f : String → Option String} {g : String → ℂ → ℂ}
    (hf : ∀ k1 k2 k', f k1 = some k' → f k2 = some k' → k1 = k2) (hg : ∀ k, g k 0 = 0) (C : Dict String ℂ)
    {k k' : String} (hk : f k = some k') :
    Dict.getD (C.filterMap fun kv => (f kv.1).map fun k' => (k', g kv.1 kv.2)) k' 0 = g k (Dict.getD C k 0) := by
  induction C with
  | nil => simp [Dict.getD, Dict.find, hg]
  | cons kv C ih =>
    by_cases e : kv.1 = k
    · rw [List.filterMap_cons_some (b := (k', g kv.1 kv.2)) (by rw [e, hk]; rfl)]
      simp [Dict.getD, Dict.find, e]
    · have hr : Dict.getD (kv :: C) k 0 = Dict.getD C k 0 := by simp [Dict.getD, Dict.find, e]
      rw [hr, ← ih]
      cases h : f kv.1 with
      | none => rw [List.filterMap_cons_none (by simp [h])]
      | some x =>
        rw [List.filterMap_cons_some (b := (x, g kv.1 kv.2)) (by simp [h])]
        have : x ≠ k' := fun ex => e (hf _ _ _ h (ex ▸ hk))
        simp [Dict.getD, Dict.find, this]

/-- Names that are not new names are absent. -/
theorem rename_absent {f : String → Option String} {g : String → ℂ → ℂ} (C : Dict String ℂ) {k' : String} (h : ∀ k, f k ≠ some k') :
    k' ∉ Dict.keys (C.filterMap fun kv => (f kv.1).map fun k' => (k', g kv.1 kv.2)) := by
  intro hx
  obtain ⟨q, hq, rfl⟩ := List.mem_map.1 hx
  obtain ⟨kv, -, hkv⟩ := List.mem_filterMap.1 hq
  obtain ⟨x, hx1, hx2⟩ := Option.map_eq_some_iff.1 hkv
  exact h kv.1 (by rw [hx1, ← hx2])

/-- Renaming there and back. -/
theorem rename_back {f f' : String → Option String} {g g' : String → ℂ → ℂ} (C : Dict String ℂ)
    (h : ∀ kv ∈ C, ∀ k', f kv.1 = some k' → f' k' = some kv.1 ∧ g' k' (g kv.1 kv.2) = kv.2) :
    ((C.filterMap fun kv => (f kv.1).map fun k' => (k', g kv.1 kv.2)).filterMap
      fun kv => (f' kv.1).map fun k' => (k', g' kv.1 kv.2)) = C.filter fun kv => (f kv.1).isSome := by
  induction C with
  | nil => rfl
  | cons kv C ih =>
    have ih' := ih fun kv' h' => h kv' (List.mem_cons_of_mem _ h')
    cases hf : f kv.1 with
    | none => rw [List.filterMap_cons_none (by simp [hf]), List.filter_cons_of_neg (by simp [hf]), ih']
    | some k' =>
      obtain ⟨h1, h2⟩ := h kv List.mem_cons_self k' hf
      rw [List.filterMap_cons_some (b := (k', g kv.1 kv.2)) (by simp [hf]), List.filter_cons_of_pos (by simp [hf]),
        List.filterMap_cons_some (b := kv) (by simp [h1, h2]), ih']

/-! ### The two translators -/

/-- FlavorKit to JMS names. -/
def toJmsName (k : String) : Option String := Dict.find fkAll k

/-- JMS to FlavorKit names. -/
def toFkName (k' : String) : Option String :=
  if ∃ i : Fin 3, k' = label "egamma" [i, i] then none else Dict.find (revert fkAll) k'

theorem mem_fkAll_link {k k' : String} : (k, k') ∈ fkAll ↔ FkLink k k' := by
  rw [mem_fkAll]
  constructor
  · rintro (h | h | h | h)
    · exact .plain _ _ h
    · exact .conj _ _ h
    · simp only [fkSpecial, List.mem_cons, List.not_mem_nil, or_false, Prod.mk.injEq] at h
      rcases h with ⟨rfl, rfl⟩ | ⟨rfl, rfl⟩
      · exact .avll
      · exact .avrr
    · obtain ⟨i, j, e⟩ := fkDipoles_form _ h
      simp only [Prod.mk.injEq] at e
      rw [e.1, e.2]; exact .dipole i j
  · intro h
    cases h with
    | plain _ _ h => exact .inl h
    | conj _ _ h => exact .inr (.inl h)
    | avll => exact .inr (.inr (.inl (by simp [fkSpecial])))
    | avrr => exact .inr (.inr (.inl (by simp [fkSpecial])))
    | dipole i j => exact .inr (.inr (.inr (fkDipoles_mem i j)))

theorem toJmsName_iff {k k' : String} : toJmsName k = some k' ↔ FkLink k k' := by
  rw [← mem_fkAll_link]; exact Dict.find_eq_some_iff fkAll_WF

theorem revert_iff {k k' : String} : Dict.find (revert fkAll) k' = some k ↔ FkLink k k' := by
  rw [← mem_fkAll_link]
  have hw : Dict.WF (fkAll.map fun q : String × String => (q.2, q.1)) := by
    unfold Dict.WF Dict.keys
    rw [List.map_map]; exact fkAll_snd_nodup
  unfold revert
  rw [Dict.find_ofPairs hw, Dict.find_eq_some_iff hw, List.mem_map]
  constructor
  · rintro ⟨⟨a, b⟩, h, e⟩
    simp only [Prod.mk.injEq] at e
    rw [← e.1, ← e.2]; exact h
  · exact fun h => ⟨_, h, rfl⟩

theorem toFkName_iff {k k' : String} : toFkName k' = some k ↔ FkLink k k' ∧ ∀ i : Fin 3, k' ≠ label "egamma" [i, i] := by
  unfold toFkName
  split_ifs with h
  · obtain ⟨i, e⟩ := h
    simp only [false_iff, not_and]
    exact fun _ h => h i e
  · rw [revert_iff]
    exact ⟨fun hl => ⟨hl, fun i e => h ⟨i, e⟩⟩, fun hl => hl.1⟩

theorem link_left {k k1 k2 : String} (h1 : FkLink k k1) (h2 : FkLink k k2) : k1 = k2 := by
  have := (toJmsName_iff.2 h1).symm.trans (toJmsName_iff.2 h2)
  exact Option.some.inj this

theorem link_right {k1 k2 k' : String} (h1 : FkLink k1 k') (h2 : FkLink k2 k') : k1 = k2 := by
  have := (revert_iff.2 h1).symm.trans (revert_iff.2 h2)
  exact Option.some.inj this

/-- A diagonal dipole on one side is a diagonal dipole on the other. -/
theorem link_diag {k k' : String} (h : FkLink k k') : (∀ i : Fin 3, k ≠ label "K2R" [i, i]) ↔ ∀ i : Fin 3, k' ≠ label "egamma" [i, i] := by
  constructor
  · rintro hk i rfl
    exact hk i (link_right h (.dipole i i))
  · rintro hk i rfl
    exact hk i (link_left h (.dipole i i))

theorem shared_iff {k' : String} : JmsShared k' ↔ (toFkName k').isSome := by
  rw [Option.isSome_iff_exists]
  constructor
  · rintro ⟨k, h, -, hd⟩
    exact ⟨k, toFkName_iff.2 ⟨h, (link_diag h).1 hd⟩⟩
  · rintro ⟨k, h⟩
    obtain ⟨h, hd⟩ := toFkName_iff.1 h
    exact ⟨k, h, ⟨_, h⟩, (link_diag h).2 hd⟩

theorem headPart_egamma {k : String} (h : headPart k = "egamma") : k = "egamma" ∨ "egamma_".toList <+: k.toList := by
  have h1 : k.toList.takeWhile (· ≠ '_') = "egamma".toList := by
    rw [← h, headPart, String.toList_ofList]
  have h2 := List.takeWhile_append_dropWhile (p := fun c : Char => decide (c ≠ '_')) (l := k.toList)
  rw [h1] at h2
  cases hd : k.toList.dropWhile (· ≠ '_') with
  | nil =>
    rw [hd, List.append_nil] at h2
    exact .inl (String.toList_injective h2.symm)
  | cons c t =>
    have hc : ¬ (decide (c ≠ '_')) = true := by
      have := List.head_dropWhile_not (fun c : Char => decide (c ≠ '_')) (l := k.toList) (by rw [hd]; simp)
      simp only [hd, List.head_cons] at this
      simp [this]
    have hc' : c = '_' := by simpa using hc
    rw [hd, hc'] at h2
    right
    refine ⟨t, ?_⟩
    rw [← h2]
    rfl

theorem table_not_egamma : ∀ q ∈ fkJms ++ fkJmsConj ++ fkSpecial, ¬ (q.2.toList.take 6 = "egamma".toList) := by decide +kernel

/-- The names of the tables can occur in a JMS coefficient set. -/
theorem link_jmsName {k k' : String} (h : FkLink k k') : JmsName k' := by
  have key : ∀ q ∈ fkJms ++ fkJmsConj ++ fkSpecial, JmsName q.2 := by
    intro q hq hc
    exfalso
    apply table_not_egamma q hq
    rcases hc with e | ⟨t, e⟩
    · rw [e]; rfl
    · rw [← e]; rfl
  cases h with
  | plain _ _ h => exact key (k, k') (List.mem_append_left _ (List.mem_append_left _ h))
  | conj _ _ h => exact key (k, k') (List.mem_append_left _ (List.mem_append_right _ h))
  | avll => exact key ("AVLL_2231", "VeeLL_1223") (List.mem_append_right _ (by simp [fkSpecial]))
  | avrr => exact key ("AVRR_2231", "VeeRR_1223") (List.mem_append_right _ (by simp [fkSpecial]))
  | dipole i j => exact fun _ => ⟨j, i, rfl⟩

/-- The factor on the way back, by JMS name. -/
noncomputable def jmsFactor (p : WPar) (k' : String) (v : ℂ) : ℂ := fkInvFactor p ((toFkName k').getD "") v

/-- The result of `FlavorKit_to_JMS`. -/
noncomputable def fkJmsResult (p : WPar) (C : Dict String ℂ) : Dict String ℂ :=
  C.filterMap fun kv => (toJmsName kv.1).map fun k' => (k', fkFactor p kv.1 kv.2)

/-- The result of `JMS_to_FlavorKit`. -/
noncomputable def jmsFkResult (p : WPar) (C : Dict String ℂ) : Dict String ℂ :=
  C.filterMap fun kv => (toFkName kv.1).map fun k' => (k', jmsFactor p kv.1 kv.2)

theorem toJmsName_inj (k1 k2 k' : String) (h1 : toJmsName k1 = some k') (h2 : toJmsName k2 = some k') : k1 = k2 :=
  link_right (toJmsName_iff.1 h1) (toJmsName_iff.1 h2)

theorem toFkName_inj (k1 k2 k' : String) (h1 : toFkName k1 = some k') (h2 : toFkName k2 = some k') : k1 = k2 :=
  link_left (toFkName_iff.1 h1).1 (toFkName_iff.1 h2).1

theorem fkToJms_eq {E : WEnv} {scale : ℝ} {par : Option Par} {p : WPar} (hp : getParameters E scale par = .ok p) (h : FkParams p)
    {C : Dict String ℂ} (hw : Dict.WF C) (hC : ∀ k ∈ Dict.keys C, ∃ k', FkLink k k') :
    fkToJms E C scale par = .ok (fkJmsResult p C) := by
  have hmem : ∀ kv ∈ C, kv.1 ∈ Dict.keys C := fun kv h => List.mem_map.2 ⟨kv, h, rfl⟩
  obtain ⟨m, hm⟩ := foldlM_rename (step := fkToJmsStep p) (f := toJmsName) (g := fkFactor p) C
    (fun kv hkv k' hk' s => fkToJms_known h (mem_fkAll_link.2 (toJmsName_iff.1 hk')) s kv.2)
    (fun kv hkv hn s => by
      obtain ⟨k', hk'⟩ := hC kv.1 (hmem kv hkv)
      rw [toJmsName_iff.2 hk'] at hn; simp at hn)
    (none, []) (by simpa using rename_nodup toJmsName_inj hw)
  unfold fkToJms
  rw [hp, except_ok_bind, hm, except_ok_bind]
  rfl

theorem jmsToFk_eq {E : WEnv} {scale : ℝ} {par : Option Par} {p : WPar} (hp : getParameters E scale par = .ok p) (h : FkParams p)
    {C : Dict String ℂ} (hw : Dict.WF C) (hC : ∀ k ∈ Dict.keys C, JmsName k) :
    jmsToFk E C scale par = .ok (jmsFkResult p C) := by
  have hmem : ∀ kv ∈ C, kv.1 ∈ Dict.keys C := fun kv h => List.mem_map.2 ⟨kv, h, rfl⟩
  obtain ⟨m, hm⟩ := foldlM_rename (step := jmsToFkStep p) (f := toFkName) (g := jmsFactor p) C
    (fun kv hkv k hk s => by
      have := jmsToFk_known h (mem_fkAll_link.2 (toFkName_iff.1 hk).1) (toFkName_iff.1 hk).2 s kv.2
      unfold jmsFactor
      rw [hk]; exact this)
    (fun kv hkv hn s => by
      refine ⟨s.1, ?_⟩
      by_cases hd : ∃ i : Fin 3, kv.1 = label "egamma" [i, i]
      · obtain ⟨i, e⟩ := hd
        have := jmsToFk_diag p i s kv.2
        rw [← e] at this; exact this
      · have hx : kv.1 ∉ fkAll.map Prod.snd := by
          intro hx
          obtain ⟨q, hq, e⟩ := List.mem_map.1 hx
          have hl : FkLink q.1 kv.1 := by rw [← e]; exact mem_fkAll_link.1 hq
          rw [toFkName_iff.2 ⟨hl, fun i e => hd ⟨i, e⟩⟩] at hn
          simp at hn
        have he : headPart kv.1 ≠ "egamma" := by
          intro he
          obtain ⟨a, b, e⟩ := hC kv.1 (hmem kv hkv) (headPart_egamma he)
          apply hx
          rw [e]
          exact List.mem_map.2 ⟨_, mem_fkAll_link.2 (.dipole b a), rfl⟩
        exact jmsToFk_other p hx he s kv.2)
    (none, []) (by simpa using rename_nodup toFkName_inj hw)
  unfold jmsToFk
  rw [hp, except_ok_bind, hm, except_ok_bind]
  rfl

theorem fkFactor_zero (p : WPar) (k : String) : fkFactor p k 0 = 0 := by
  have := fkFactor_real p k 0 0
  simpa using this

theorem jmsFactor_zero (p : WPar) (k : String) : jmsFactor p k 0 = 0 := by
  have := fkInvFactor_real p ((toFkName k).getD "") 0 0
  simpa [jmsFactor] using this

end Verif
