import Verif.Lemmas.LagFlavio
import Verif.Props.Lagrangian

/-! C70: `JMS_to_flavio` preserves the Lagrangian, except for the tensor operators that the flavio basis lacks. -/

set_option autoImplicit false

namespace Verif

open Spec

section

variable {E : WEnv} {P : PEnv} {scale : ℝ} {par : Option (Dict String ℝ)} {C D : Dict String ℂ} {J : JSrc → ℂ}

/-- **C70**: the coefficients returned by `JMS_to_flavio` describe the same four-fermion Lagrangian as the JMS coefficients they
are computed from, without the tensor operators `TedRR`; for every process of the flavio basis and every spin and colour. -/
theorem C70_lagrangian (hp : penv E scale par = .ok P) (hP : Admissible P) (hL : JmsListing E.jms) (hJ : JmsFull E.jms C J)
    (hD : jmsToFlavio E C scale par = .ok D) {p q r s : Leg}
    (h : NCovered (flavioSectors P.p.GF P.p.alpha_e P.p.m_b P.V) p q r s) :
    (jmsLag (dropOp "TedRR" J)).anti p q r s =
      (nLag (flavioSectors P.p.GF P.p.alpha_e P.p.m_b P.V) fun k => Dict.getD D k 0).anti p q r s := by
  rw [jmsToFlavio_tensor hp hP hL hJ] at hD
  injection hD with hD
  have hc : (fun k => Dict.getD D k 0) = bat J (blkJmsFlavio P).flatten := by funext k; rw [bat, hD]
  rw [hc]
  refine nCovered_ext (jmsLag_adj (dropOp_full hJ)) (fun {p q r s} h => ?_) h
  rw [flavioKeys_eq] at h
  rw [nLag_anti _ (by rw [flavioKeys_eq]; exact flavioKeys_conj _ h), flavio_direct hP J h]

/-- **C70**: the same for the electromagnetic and chromomagnetic dipole operators of `b -> s` and `b -> d`. -/
theorem C70_dipoles (hp : penv E scale par = .ok P) (hP : Admissible P) (hL : JmsListing E.jms) (hJ : JmsFull E.jms C J)
    (hD : jmsToFlavio E C scale par = .ok D) (x : Fin 3 × Fin 3) (hx : x ∈ [((1, 2) : Fin 3 × Fin 3), (0, 2)]) (X : Boson) (A : Chir) :
    jmsDipole J X A x.1 x.2 =
      flavioDipole P.p.GF P.p.alpha_e P.p.alpha_s P.p.m_b P.V (fun k => Dict.getD D k 0) X A x := by
  rw [jmsToFlavio_tensor hp hP hL hJ] at hD
  injection hD with hD
  have hc : ∀ k, Dict.getD D k 0 = bat J (blkJmsFlavio P).flatten k := fun k => by rw [bat, hD]
  obtain ⟨F, hF, hW⟩ := ftable_chrom hP J x hx
  simp only [scaleBy, jmsFierzChromTable, fierzFlavioChromTable, List.map_cons, List.map_nil, List.forall_mem_cons, Ex.val_mul,
    Ex.val_src, Ex.val_cj] at hF hW
  obtain ⟨F7, F8, G7, G8, -⟩ := hF
  obtain ⟨W7, W8, V7, V8, -⟩ := hW
  have h1 := ev_ne hP
  have h2 := gv_ne hP
  have h3 := hP.m_b
  have hpi := Real.pi_ne_zero
  have e7 := normXi hP (x := x) (ev P / (16 * Real.pi ^ 2) * P.p.m_b) (k7v P) (by unfold k7v; field_simp)
  have e8 := normXi hP (x := x) (gv P / (16 * Real.pi ^ 2) * P.p.m_b) (k7gv P) (by unfold k7gv; field_simp)
  simp only [ev, gv] at e7 e8
  cases X <;> cases A <;> simp only [jmsDipole, flavioDipole, hc]
  · rw [V7, G7]; linear_combination (-starRingEnd ℂ (J ("dgamma", [x.2, x.1]))) * e7
  · rw [W7, F7]; linear_combination (-J ("dgamma", [x.1, x.2])) * e7
  · rw [V8, G8]; linear_combination (-starRingEnd ℂ (J ("dG", [x.2, x.1]))) * e8
  · rw [W8, F8]; linear_combination (-J ("dG", [x.1, x.2])) * e8

end

/-! Non-trivial instance: the coefficient of C69 (`exC`), which is not a tensor operator; the component is `4 + 8 i`. -/

theorem exDrop : dropOp "TedRR" exJ = exJ := by
  have h : ∀ i : List (Fin 3), exWhich (label "TedRR" i) = 0 := by
    intro i
    unfold exWhich label
    rw [if_neg, if_neg]
    all_goals
      intro h
      have := congrArg String.toList h
      cases i <;> simp at this
  funext ⟨k, i⟩
  unfold dropOp
  split
  · next h' =>
    simp only at h'
    rw [h', exJ, exC_eq, h i]; rfl
  · rfl

example : ∃ D, jmsToFlavio exEnv exC 160 none = .ok D ∧
    (nLag (flavioSectors exP.p.GF exP.p.alpha_e exP.p.m_b exP.V) fun k => Dict.getD D k 0).anti
      ⟨.d, 1, 2, 0⟩ ⟨.d, 2, 0, 0⟩ ⟨.e, 0, 3, 0⟩ ⟨.e, 0, 1, 0⟩ = 4 + 8 * Complex.I := by
  have h := jmsToFlavio_tensor exEnv_ok exP_admissible allJms_listing exJ_tensor
  refine ⟨_, h, ?_⟩
  have hc : NCovered (flavioSectors exP.p.GF exP.p.alpha_e exP.p.m_b exP.V) ⟨.d, 1, 2, 0⟩ ⟨.d, 2, 0, 0⟩ ⟨.e, 0, 3, 0⟩ ⟨.e, 0, 1, 0⟩ := by
    have hk : (((.d, 1), (.d, 2), (.e, 0), (.e, 0)) : F4) ∈ flavioKeys := by decide +kernel
    rw [← flavioKeys_eq exP.p.GF exP.p.alpha_e exP.p.m_b exP.V] at hk
    obtain ⟨x, hx, e⟩ := List.mem_map.1 hk
    simp only [NSector.key, Prod.mk.injEq] at e
    obtain ⟨e1, e2, e3, e4⟩ := e
    exact ⟨x, hx, Or.inl ⟨Or.inl ⟨e1.symm, e3.symm⟩, Or.inl ⟨e2.symm, e4.symm⟩⟩⟩
  rw [← C70_lagrangian exEnv_ok exP_admissible allJms_listing exJ_tensor h hc, exDrop, exLag]

end Verif
