import Verif.Lemmas.WetEosFF

/-! Every WET translator evaluates one fixed table on its input. -/

set_option autoImplicit false

namespace Verif

variable {S : Type} {P : PEnv} {E : WEnv} {scale : ℝ} {par : Option Par}

/-- Reading the input of a translator from Bern or flavio. -/
noncomputable def sval (C : Dict String ℂ) (k : String) : ℂ := Dict.getD C k 0

theorem sval_linear {C C1 C2 : Dict String ℂ} {r s : ℝ}
    (h : ∀ k, Dict.getD C k 0 = (r : ℂ) * Dict.getD C1 k 0 + (s : ℂ) * Dict.getD C2 k 0) (k : String) :
    sval C k = (r : ℂ) * sval C1 k + (s : ℂ) * sval C2 k := h k

theorem bval_linear {v v1 v2 : S → ℂ} {r s : ℝ} (h : ∀ x, v x = (r : ℂ) * v1 x + (s : ℂ) * v2 x) (B : Block S) (k : String) :
    Dict.getD (bval v B) k 0 = (r : ℂ) * Dict.getD (bval v1 B) k 0 + (s : ℂ) * Dict.getD (bval v2 B) k 0 := by
  have e : v = fun x => (r : ℂ) * v1 x + (s : ℂ) * v2 x := funext h
  simp only [getD_bval]
  rw [e, Ex.val_add' (v := fun x => (r : ℂ) * v1 x) (w := fun x => (s : ℂ) * v2 x), Ex.val_real, Ex.val_real]

theorem bval_mapVals_mul (v : S → ℂ) (c : ℂ) (b : Block S) : Dict.mapVals (fun x => c * x) (bval v b) = bval v (scaleBy c b) :=
  (bval_scaleBy v c b).symm

theorem bval_mapVals_div (v : S → ℂ) (c : ℂ) (b : Block S) : Dict.mapVals (fun x => x / c) (bval v b) = bval v (divideBy c b) :=
  (bval_divideBy v c b).symm

variable (hp : penv E scale par = .ok P) (hP : Spec.Admissible P)

include hp hP

theorem jmsToFlavio_closed (hL : Spec.JmsListing E.jms) (C : Dict String ℂ) :
    jmsToFlavio E C scale par = .ok (bval (jval E.jms C) (blkJmsFlavio P).flatten) := by
  obtain ⟨Ca, h1, h2⟩ := jms_readable hL C
  unfold jmsToFlavio
  rw [hp, except_ok_bind, h1, except_ok_bind, jobsJmsFlavio_eq hP h2, updAll_ofPairs, Dict.ofPairs_of_nodup]
  apply WF_bval
  rw [bkeys_blkJmsFlavio hP]; exact keysFlavio_nodup

theorem jmsToBern_closed (hL : Spec.JmsListing E.jms) (C : Dict String ℂ) :
    jmsToBern E C scale par = .ok (bval (jval E.jms C) (scaleBy (prefBernv P) (blkJmsBern P).flatten)) := by
  obtain ⟨Ca, h1, h2⟩ := jms_readable hL C
  unfold jmsToBern
  rw [hp, except_ok_bind, h1, except_ok_bind, jobsJmsBern_eq hP h2, updAll_ofPairs, except_ok_bind, prefBern_ok hP, except_ok_bind,
    Dict.ofPairs_of_nodup, bval_scaleBy]
  · rfl
  · apply WF_bval
    rw [bkeys_blkJmsBern hP]; exact keysJmsBern_nodup

theorem bernToFlavio_closed (hB : ∀ k ∈ Spec.bernNames, k ∈ E.bern) (C : Dict String ℂ) :
    bernToFlavio E C scale par = .ok (bval (sval C) (divideBy (prefBernv P) (blkBernFlavio P).flatten)) := by
  unfold bernToFlavio
  rw [hp, except_ok_bind, jobsBernFlavio_eq hP fun k hk => get_completed (hB k hk), updAll_ofPairs, except_ok_bind, prefBern_ok hP,
    except_ok_bind, Dict.ofPairs_of_nodup, bval_divideBy]
  · rfl
  · apply WF_bval
    rw [bkeys_blkBernFlavio hP]; exact keysFlavio_nodup

theorem flavioToBern_closed (hF : ∀ k ∈ Spec.flavioNames, k ∈ E.flavio) (C : Dict String ℂ) :
    flavioToBern E C scale par = .ok (bval (sval C) (scaleBy (prefBernv P) (blkFlavioBern P).flatten)) := by
  unfold flavioToBern
  rw [hp, except_ok_bind, jobsFlavioBern_eq hP fun k hk => get_completed (hF k hk), updAll_ofPairs, except_ok_bind, prefBern_ok hP,
    except_ok_bind, Dict.ofPairs_of_nodup, bval_scaleBy]
  · rfl
  · apply WF_bval
    rw [bkeys_blkFlavioBern hP]; exact keysFlavioBern_nodup

theorem jmsToEos_closed (hm : P.p.m_b ^ 2 ≠ P.p.m_s ^ 2) (hL : Spec.JmsListing E.jms) (C : Dict String ℂ) :
    jmsToEos E C scale par = .ok (bval (jval E.jms C) (Dict.ofPairs (blkEos P).flatten)) := by
  obtain ⟨Ca, h1, h2⟩ := jms_readable hL C
  unfold jmsToEos
  rw [hp, except_ok_bind, h1, except_ok_bind, jobsEos_eq hP hm h2, updAll_ofPairs, ofPairs_bval]

theorem jmsToFormFlavor_closed (hL : Spec.JmsListing E.jms) (C : Dict String ℂ) :
    jmsToFormFlavor E C scale par = .ok (bval (jval E.jms C) (Dict.ofPairs (blkFormFlavor P).flatten)) := by
  obtain ⟨Ca, h1, h2⟩ := jms_readable hL C
  unfold jmsToFormFlavor
  rw [hp, except_ok_bind, h1, except_ok_bind, jobsFormFlavor_eq hP h2, updAll_ofPairs, ofPairs_bval]

end Verif
