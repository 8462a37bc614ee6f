import Verif.Spec.LagFormFlavor
import Verif.Lemmas.LagFlavio
import Verif.Props.WetFormFlavor

/-! `JMS_to_FormFlavor` and the Lagrangian: tables and operator identities. -/

set_option autoImplicit false
set_option linter.unusedSimpArgs false

namespace Verif

open Spec

/-! ### Lookup -/

theorem find_upd_uniq {ν : Type} {k : String} {e : ν} : ∀ (l : List (String × ν)) (d : Dict String ν), (∀ p ∈ l, p.1 = k → p.2 = e) →
    k ∈ l.map Prod.fst ∨ Dict.find d k = some e → Dict.find (Dict.upd d l) k = some e := by
  intro l
  induction l with
  | nil => intro d _ h; simpa using h
  | cons p l ih =>
    intro d h1 h2
    rw [List.forall_mem_cons] at h1
    rw [Dict.upd_cons]
    refine ih _ h1.2 ?_
    by_cases hp : p.1 = k
    · right; rw [Dict.find_put, if_pos hp, h1.1 hp]
    · rw [Dict.find_put, if_neg hp]
      rcases h2 with h2 | h2
      · rw [List.map_cons, List.mem_cons] at h2
        exact Or.inl (h2.resolve_left (Ne.symm hp))
      · exact Or.inr h2

/-- A name that is assigned once. -/
theorem bat_once {S : Type} {l : Block S} {k : String} {e : Ex S} (hm : (k, e) ∈ l) (hc : (bkeys l).count k = 1) (J : S → ℂ) :
    bat J (Dict.ofPairs l) k = e.val J := by
  have hu : ∀ p ∈ l, p.1 = k → p.2 = e := by
    unfold bkeys at hc
    clear J
    induction l with
    | nil => cases hm
    | cons q l ih =>
      rw [List.map_cons, List.count_cons] at hc
      intro p hp hk
      have zero : ∀ {x : String × Ex S}, x ∈ l → x.1 = k → 0 < (l.map Prod.fst).count k := fun hx hxk =>
        List.count_pos_iff.2 (List.mem_map.2 ⟨_, hx, hxk⟩)
      rcases List.mem_cons.1 hm with hm | hm
      · subst hm
        rcases List.mem_cons.1 hp with rfl | hp
        · rfl
        · have := zero hp hk
          simp only [beq_self_eq_true, if_true] at hc
          omega
      · have := zero hm rfl
        by_cases hq : q.1 = k
        · simp only [hq, beq_self_eq_true, if_true] at hc
          omega
        · rcases List.mem_cons.1 hp with rfl | hp
          · exact absurd hk hq
          · refine ih hm ?_ p hp hk
            rw [if_neg (by simpa using hq)] at hc
            exact hc
  have := find_upd_uniq l [] hu (Or.inl (List.mem_map.2 ⟨_, hm, rfl⟩))
  rw [bat, Dict.getD]
  have e' : bval J (Dict.ofPairs l) = Dict.mapVals (fun e : Ex S => e.val J) (Dict.ofPairs l) := rfl
  rw [e', Dict.find_mapVals]
  unfold Dict.ofPairs
  rw [this]; rfl

theorem bat_once2 {S : Type} {bs : List (Block S)} {b : Block S} {b' : Block String} (hb : comp b b' ∈ bs) (hn : (bkeys b).Nodup)
    (hc : ∀ k ∈ bkeys b', (bkeys bs.flatten).count k = 1) (J : S → ℂ) : ∃ F : String → ℂ,
    (∀ p ∈ b, F p.1 = p.2.val J) ∧ ∀ p ∈ b', bat J (Dict.ofPairs bs.flatten) p.1 = p.2.val F := by
  refine ⟨bat J b, fun p hp => bat_mem hn (k := p.1) (e := p.2) hp J, fun p hp => ?_⟩
  have hk : p.1 ∈ bkeys b' := List.mem_map.2 ⟨p, hp, rfl⟩
  have hk' : p.1 ∈ bkeys (comp b b') := by rw [bkeys_comp]; exact hk
  have hn' : (bkeys b').Nodup := by
    rw [List.nodup_iff_count_le_one]
    intro a
    by_cases ha : a ∈ bkeys b'
    · have := hc a ha
      have h2 : (bkeys (comp b b')).count a ≤ (bkeys bs.flatten).count a := by
        unfold bkeys
        exact ((List.sublist_flatten_of_mem hb).map _).count_le _
      rw [bkeys_comp] at h2
      omega
    · rw [List.count_eq_zero_of_not_mem ha]; omega
  obtain ⟨e, he⟩ := exists_mem_of_bkeys hk'
  rw [bat_once (List.mem_flatten.2 ⟨_, hb, he⟩) (hc _ hk), ← bat_mem (by rw [bkeys_comp]; exact hn') he J, bat_comp]
  exact bat_mem hn' (k := p.1) (e := p.2) hp _

/-- `JMS_to_FormFlavor` in terms of full tensors. -/
theorem jmsToFormFlavor_tensor {E : WEnv} {P : PEnv} {scale : ℝ} {par : Option (Dict String ℝ)} (hp : penv E scale par = .ok P)
    (hP : Admissible P) (hL : JmsListing E.jms) {C : Dict String ℂ} {J : JSrc → ℂ} (hJ : JmsFull E.jms C J) :
    jmsToFormFlavor E C scale par = .ok (bval J (Dict.ofPairs (blkFormFlavor P).flatten)) := by
  obtain ⟨Ca, h1, h2⟩ := jms_readable hL C
  unfold jmsToFormFlavor
  rw [hp, except_ok_bind, h1, except_ok_bind, jobsFormFlavor_eq hP (v := J) fun s hs => by rw [h2 s hs, jmsTensor_eq hL hJ hs],
    updAll_ofPairs, ofPairs_bval]

/-- Names in the order of assignment. -/
def ffKeys : List String :=
  (["bs", "bd", "sd", "cu"].flatMap fun y => ["CVLL_", "CSLL_", "CTLL_", "CVLR_", "CVRR_", "CSRR_", "CTRR_", "CSLR_"].map (· ++ (y ++ y))) ++
  (["bs", "bd"].flatMap fun y => (["CVLL_", "CVRR_", "CVLR_", "CVRL_", "CSLL_", "CSRR_", "CSLR_", "CSRL_", "CTLL_", "CTRR_"].map
    (· ++ y ++ "mm")) ++ ["CVLL_sdnn", "CVRL_sdnn"]) ++ ffDipoles

theorem ffKeys_eq {P : PEnv} (hP : Admissible P) : bkeys (blkFormFlavor P).flatten = ffKeys := by
  obtain ⟨h1, h2, h3, h4, h5, h6, h7⟩ := formFlavorChrom_eq hP
  have hd := ffDipoles_eq P
  have hI : (["sb", "db", "ds", "uc"].map fun qq => bernFormFlavorI qq) =
      [.ok (bernFormFlavorITable "sb" "bs"), .ok (bernFormFlavorITable "db" "bd"), .ok (bernFormFlavorITable "ds" "sd"),
       .ok (bernFormFlavorITable "uc" "cu")] := by
    simp only [bernFormFlavorI, List.map_cons, List.map_nil]
    rw [if_pos (by decide), if_pos (by decide), if_pos (by decide), if_pos (by decide),
      show pyRev "sb" = "bs" by decide +kernel, show pyRev "db" = "bd" by decide +kernel, show pyRev "ds" = "sd" by decide +kernel,
      show pyRev "uc" = "cu" by decide +kernel]
  simp only [List.map_cons, List.map_nil, List.cons.injEq, and_true] at hI
  obtain ⟨i1, i2, i3, i4⟩ := hI
  have ba : ∀ a b : Block JSrc, bkeys (a ++ b) = bkeys a ++ bkeys b := fun _ _ => List.map_append
  have bd : ∀ a : Block JSrc, a.map Prod.fst = bkeys a := fun _ => rfl
  unfold blkFormFlavor
  simp only [List.flatten_append, List.map_cons, List.map_nil, List.flatten_cons, List.flatten_nil, h1, h2, h3, h4, h5, h6, h7,
    jmsFormFlavorLep_bs, jmsFormFlavorLep_bd, okOr_ok, ba, bkeys_comp, i1, i2, i3, i4, List.append_nil]
  simp only [bd, ba, List.append_assoc] at hd ⊢
  rw [hd]
  simp only [bkeys, bernFormFlavorITable, jmsFormFlavorLepTable, List.map_cons, List.map_nil]
  decide +kernel

section

variable {P : PEnv} (hP : Admissible P) (J : JSrc → ℂ)

include hP

theorem fftable_I : ∀ x ∈ ddPairs, ∃ W : String → ℂ,
    (∀ p ∈ jmsBernIDown (qname (.d, x.1) ++ qname (.d, x.2)) [x.1, x.2] [x.2, x.1], W p.1 = p.2.val J) ∧
    ∀ p ∈ bernFormFlavorITable (qname (.d, x.1) ++ qname (.d, x.2)) (qname (.d, x.2) ++ qname (.d, x.1)),
      bat J (Dict.ofPairs (blkFormFlavor P).flatten) p.1 = p.2.val W := by
  intro x hx
  have h : ∀ x ∈ ddPairs, qname (.d, x.1) ++ qname (.d, x.2) ∈ ["sb", "db", "ds"] ∧
      Dict.get dflav (chr (qname (.d, x.1) ++ qname (.d, x.2)) 0) = .ok x.1 ∧
      Dict.get dflav (chr (qname (.d, x.1) ++ qname (.d, x.2)) 1) = .ok x.2 ∧
      pyRev (qname (.d, x.1) ++ qname (.d, x.2)) = qname (.d, x.2) ++ qname (.d, x.1) ∧
      ∀ k ∈ ["CVLL_", "CSLL_", "CTLL_", "CVLR_", "CVRR_", "CSRR_", "CTRR_", "CSLR_"].map
        (· ++ ((qname (.d, x.2) ++ qname (.d, x.1)) ++ (qname (.d, x.2) ++ qname (.d, x.1)))), ffKeys.count k = 1 := by decide +kernel
  obtain ⟨h1, h2, h3, h4, h5⟩ := h x hx
  have h1' : qname (.d, x.1) ++ qname (.d, x.2) ∈ ["sb", "db", "ds", "uc"] :=
    List.mem_append_left ["uc"] h1
  have e : jmsBernI (qname (.d, x.1) ++ qname (.d, x.2)) =
      .ok (jmsBernIDown (qname (.d, x.1) ++ qname (.d, x.2)) [x.1, x.2] [x.2, x.1]) := by
    unfold jmsBernI; rw [if_pos h1, h2, h3]; rfl
  have e' : bernFormFlavorI (qname (.d, x.1) ++ qname (.d, x.2)) =
      .ok (bernFormFlavorITable (qname (.d, x.1) ++ qname (.d, x.2)) (qname (.d, x.2) ++ qname (.d, x.1))) := by
    unfold bernFormFlavorI; rw [if_pos h1', h4]
  refine bat_once2 (bs := blkFormFlavor P) ?_ ?_ (by rw [ffKeys_eq hP]; exact h5) J
  · have : comp (okOr (jmsBernI (qname (.d, x.1) ++ qname (.d, x.2)))) (okOr (bernFormFlavorI (qname (.d, x.1) ++ qname (.d, x.2))))
        ∈ blkFormFlavor P := by
      unfold blkFormFlavor
      simp only [List.mem_append, List.mem_map]
      exact Or.inl (Or.inl ⟨_, h1', rfl⟩)
    rw [e, e'] at this; exact this
  · exact nodup_suffix (L := ["1", "2", "3", "4", "5", "1p", "2p", "3p"]) (by decide +kernel) _

theorem fftable_uc : ∃ W : String → ℂ, (∀ p ∈ jmsBernIUp "uc", W p.1 = p.2.val J) ∧
    ∀ p ∈ bernFormFlavorITable "uc" "cu", bat J (Dict.ofPairs (blkFormFlavor P).flatten) p.1 = p.2.val W := by
  have h5 : ∀ k ∈ ["CVLL_", "CSLL_", "CTLL_", "CVLR_", "CVRR_", "CSRR_", "CTRR_", "CSLR_"].map (· ++ ("cu" ++ "cu")), ffKeys.count k = 1 := by
    decide +kernel
  have e : jmsBernI "uc" = .ok (jmsBernIUp "uc") := by
    unfold jmsBernI; rw [if_neg (by decide), if_pos rfl]
  have e' : bernFormFlavorI "uc" = .ok (bernFormFlavorITable "uc" "cu") := by
    unfold bernFormFlavorI; rw [if_pos (by decide), show pyRev "uc" = "cu" by decide +kernel]
  refine bat_once2 (bs := blkFormFlavor P) ?_ ?_ (by rw [ffKeys_eq hP]; exact h5) J
  · have : comp (okOr (jmsBernI "uc")) (okOr (bernFormFlavorI "uc")) ∈ blkFormFlavor P := by
      unfold blkFormFlavor
      simp only [List.mem_append, List.mem_map]
      exact Or.inl (Or.inl ⟨_, by decide, rfl⟩)
    rw [e, e'] at this; exact this
  · exact nodup_suffix (L := ["1", "2", "3", "4", "5", "1p", "2p", "3p"]) (by decide +kernel) _

/-- The operators with muons. -/
noncomputable def ffLepTable (dd : String) (b s : Fin 3) : Block JSrc := (jmsFormFlavorLepTable dd b s).take 10

theorem fftable_lep : ∀ x ∈ [((1, 2) : Fin 3 × Fin 3), (0, 2)], ∀ p ∈ ffLepTable (qname (.d, x.2) ++ qname (.d, x.1)) x.2 x.1,
    bat J (Dict.ofPairs (blkFormFlavor P).flatten) p.1 = p.2.val J := by
  intro x hx p hp
  have h : ∀ x ∈ [((1, 2) : Fin 3 × Fin 3), (0, 2)], qname (.d, x.2) ++ qname (.d, x.1) ∈ ["bs", "bd"] ∧
      Dict.get dflav (chr (qname (.d, x.2) ++ qname (.d, x.1)) 0) = .ok x.2 ∧
      Dict.get dflav (chr (qname (.d, x.2) ++ qname (.d, x.1)) 1) = .ok x.1 ∧
      ∀ k ∈ ["CVLL_", "CVRR_", "CVLR_", "CVRL_", "CSLL_", "CSRR_", "CSLR_", "CSRL_", "CTLL_", "CTRR_"].map
        (· ++ (qname (.d, x.2) ++ qname (.d, x.1)) ++ "mm"), ffKeys.count k = 1 := by decide +kernel
  obtain ⟨h1, h2, h3, h5⟩ := h x hx
  have e : jmsFormFlavorLep (qname (.d, x.2) ++ qname (.d, x.1)) =
      .ok (jmsFormFlavorLepTable (qname (.d, x.2) ++ qname (.d, x.1)) x.2 x.1) := by
    unfold jmsFormFlavorLep; rw [h2, h3]; rfl
  have hb : okOr (jmsFormFlavorLep (qname (.d, x.2) ++ qname (.d, x.1))) ∈ blkFormFlavor P := by
    unfold blkFormFlavor
    refine List.mem_append_left _ (List.mem_append_right _ ?_)
    generalize qname (.d, x.2) ++ qname (.d, x.1) = y at h1
    simp only [List.mem_cons, List.not_mem_nil, or_false] at h1
    rcases h1 with rfl | rfl <;> simp
  rw [e] at hb
  refine bat_once (k := p.1) (e := p.2) (List.mem_flatten.2 ⟨_, hb, List.mem_of_mem_take hp⟩) ?_ J
  rw [ffKeys_eq hP]
  exact h5 _ (List.mem_map.2 ⟨p, hp, rfl⟩ : p.1 ∈ (ffLepTable (qname (.d, x.2) ++ qname (.d, x.1)) x.2 x.1).map Prod.fst)

theorem fftable_dipole : ∀ x ∈ [((1, 2) : Fin 3 × Fin 3), (0, 2), (0, 0)],
    ∀ p ∈ formFlavorDownTable (qname (.d, x.1) ++ qname (.d, x.2)) x.1 x.2 (ev P) (gv P),
    bat J (Dict.ofPairs (blkFormFlavor P).flatten) p.1 = p.2.val J := by
  intro x hx p hp
  have h : ∀ x ∈ [((1, 2) : Fin 3 × Fin 3), (0, 2), (0, 0)], (x, qname (.d, x.1) ++ qname (.d, x.2)) ∈
      [(((1, 2) : Fin 3 × Fin 3), "sb"), ((0, 2), "db"), ((0, 0), "dd")] ∧
      ∀ k ∈ ["CAR_", "CGR_", "CAL_", "CGL_"].map (· ++ (qname (.d, x.1) ++ qname (.d, x.2))), ffKeys.count k = 1 := by decide +kernel
  obtain ⟨h1, h5⟩ := h x hx
  have hb : formFlavorDownTable (qname (.d, x.1) ++ qname (.d, x.2)) x.1 x.2 (ev P) (gv P) ∈ blkFormFlavor P := by
    obtain ⟨f1, f2, f3, f4, -, -, -⟩ := formFlavorChrom_eq hP
    unfold blkFormFlavor
    refine List.mem_append_right _ ?_
    generalize qname (.d, x.1) ++ qname (.d, x.2) = y at h1
    simp only [List.mem_cons, List.not_mem_nil, or_false, Prod.mk.injEq] at h1
    simp only [List.map_cons, List.map_nil, f1, f2, f3, f4, okOr_ok]
    rcases h1 with ⟨rfl, rfl⟩ | ⟨rfl, rfl⟩ | ⟨rfl, rfl⟩ <;> simp
  refine bat_once (k := p.1) (e := p.2) (List.mem_flatten.2 ⟨_, hb, hp⟩) ?_ J
  rw [ffKeys_eq hP]
  exact h5 _ (List.mem_map.2 ⟨p, hp, rfl⟩ :
    p.1 ∈ (formFlavorDownTable (qname (.d, x.1) ++ qname (.d, x.2)) x.1 x.2 (ev P) (gv P)).map Prod.fst)

end

/-! ### Operators -/

/-- `Delta F = 2` for up quarks. -/
theorem block_Iu (J W : _ → ℂ) (y : String) (f1 f2 f3 f4 : Kind × Fin 3) {p q r s : Leg} (hp : p.kind = .u)
    (hq : q.kind = .u) (hr : r.kind = .u) (hs : s.kind = .u) (g1 : p.gen = 0) (g2 : q.gen = 1) (h1 : r.gen = 0) (h2 : s.gen = 1)
    (hW : ∀ t ∈ jmsBernIUp y, W t.1 = t.2.val J) :
    let X := (Sector.mk f1 f2 f3 f4 (y ++ y) (opsI)).val W
    (jmsLag J).anti p q r s = X p q r s - X r q p s - X p s r q + X r s p q := by
  obtain ⟨r4, s4, r3, s3, v, vLR, vRL, sLR, sRL, sS, tT⟩ := dirRules p.spin q.spin r.spin s.spin
  have c1 := col_one2 p.col q.col r.col s.col
  have c2 := col_cross2 p.col q.col r.col s.col
  have c3 := col_one3 p.col q.col r.col s.col
  have c4 := col_cross3 p.col q.col r.col s.col
  have c5 := col_one4 p.col q.col r.col s.col
  have c6 := col_cross4 p.col q.col r.col s.col
  obtain ⟨pk, pg, ps, pc⟩ := p
  obtain ⟨qk, qg, qs, qc⟩ := q
  obtain ⟨rk, rg, rs, rc⟩ := r
  obtain ⟨sk, sg, ss, sc⟩ := s
  simp only at hp hq hr hs
  subst hp hq hr hs
  simp only at g1 g2 h1 h2
  subst g1 g2 h1 h2
  simp only [Nc, jmsBernIUp, List.cons_append, List.nil_append, List.forall_mem_cons, Ex.val_add, Ex.val_sub, Ex.val_neg, Ex.val_mul, Ex.val_div, Ex.val_src,
    Ex.val_cj] at hW
  obtain ⟨W1, W2, W3, W4, W5, V1, V2, V3, -⟩ := hW
  simp only [Four.anti, jmsLag, jmsOps, List.map_cons, List.map_nil, List.sum_cons, List.sum_nil, JOp.term, term_adj,
    reduceCtorEq, and_self, and_true, and_false, false_and, true_and, if_true, if_false, Bool.false_eq_true, add_zero, zero_add,
    val0_adj, val1_adj, valS_adj, Chir.flip]
  simp only [Sector.val, opsI, opsII, opsOdd, opsEven, opsNu, List.cons_append, List.nil_append, List.map_cons, List.map_nil,
    List.sum_cons, List.sum_nil, add_zero, val3_same, val3_LR, val3_RL, val4_same, val4_LR, val4_RL, val_sg_LR, val_sg_RL, zero_add]
  simp (disch := decide +kernel) only [once_no]
  simp only [once_same]
  simp only [r4, s4, r3, s3]
  simp only [v, vLR, vRL, sLR, sRL, sS, tT]
  simp only [col_oct, c1, c2, c3, c4, c5, c6]
  rw [W1, W2, W3, W4, W5, V1, V2, V3]
  ring

/-- What is missing in `Delta F = 2`, given the coefficients of the operators with crossed colour. -/
noncomputable def ffExtra (t w w' : ℂ) : Four := fun p q r s =>
  -(w * ((Dir.g 0 .L .L).val p.spin q.spin r.spin s.spin - (t - 1) / 8 * (Dir.sg .L .L).val p.spin q.spin r.spin s.spin) +
    w' * ((Dir.g 0 .R .R).val p.spin q.spin r.spin s.spin - (t - 1) / 8 * (Dir.sg .R .R).val p.spin q.spin r.spin s.spin)) *
    Col.one.val p.col q.col r.col s.col

/-- From the Bern operators to those of FormFlavor. -/
theorem ffblock (W c : _ → ℂ) (t : ℂ) (x y : String) (f1 f2 f3 f4 : Kind × Fin 3) (p q r s : Leg)
    (hc : ∀ t ∈ bernFormFlavorITable x y, c t.1 = t.2.val W) :
    let X := (Sector.mk f1 f2 f3 f4 (x ++ x) opsI).val W
    let Y := (NSector.mk f1 f2 f3 f4 (ffI t y)).val c
    let Z := ffExtra t (W ("3" ++ (x ++ x))) (W ("3p" ++ (x ++ x)))
    X p q r s - X r q p s - X p s r q + X r s p q = (Y p q r s - Y r q p s - Y p s r q + Y r s p q) + Z.anti p q r s := by
  obtain ⟨r4, s4, r3, s3, v, vLR, vRL, sLR, sRL, sS, tT⟩ := dirRules p.spin q.spin r.spin s.spin
  have c1 := col_one2 p.col q.col r.col s.col
  have c2 := col_cross2 p.col q.col r.col s.col
  have c3 := col_one3 p.col q.col r.col s.col
  have c4 := col_cross3 p.col q.col r.col s.col
  have c5 := col_one4 p.col q.col r.col s.col
  have c6 := col_cross4 p.col q.col r.col s.col
  simp only [bernFormFlavorITable, List.forall_mem_cons, Ex.val_add, Ex.val_sub, Ex.val_neg, Ex.val_mul, Ex.val_div, Ex.val_src,
    Ex.val_cj] at hc
  obtain ⟨e1, e2, e3, e4, e5, e6, e7, e8, -⟩ := hc
  simp only [Sector.val, opsI, NSector.val, ffI, List.map_cons, List.map_nil, List.sum_cons, List.sum_nil, add_zero, ffExtra, Four.anti]
  simp only [r4, s4, r3, s3]
  simp only [v, vLR, vRL, sLR, sRL, sS, tT]
  simp only [c1, c2, c3, c4, c5, c6]
  rw [e1, e2, e3, e4, e5, e6, e7, e8]
  push_cast
  ring

/-- Down quarks and muons. -/
theorem ffblock_e (J c : _ → ℂ) (y : String) (f1 f2 f3 f4 : Kind × Fin 3) {p q r s : Leg} (hp : p.kind = .d) (hq : q.kind = .d)
    (hr : r.kind = .e) (hs : s.kind = .e) (hr' : r.gen = 1) (hs' : s.gen = 1)
    (hc : ∀ t ∈ ffLepTable y q.gen p.gen, c t.1 = t.2.val J) :
    (jmsLag J).anti p q r s = (NSector.mk f1 f2 f3 f4 (ffLep y)).val c p q r s := by
  have hF : ∀ t ∈ jmsFierzLepTable "" p.gen q.gen r.gen s.gen, bat J (jmsFierzLepTable "" p.gen q.gen r.gen s.gen) t.1
      = t.2.val J := fun t ht => bat_mem (nodup_jmsFierzLep _ _ _ _ _) (k := t.1) (e := t.2) ht _
  generalize bat J (jmsFierzLepTable "" p.gen q.gen r.gen s.gen) = F at hF
  have hW : ∀ t ∈ fierzBernLepTable "", bat F (fierzBernLepTable "") t.1 = t.2.val F := fun t ht =>
    bat_mem (nodup_fierzBernLep _) (k := t.1) (e := t.2) ht _
  generalize bat F (fierzBernLepTable "") = W at hW
  rw [block_e J W F "" f1 f2 f3 f4 hp hq hr hs hF hW]
  rw [hr', hs'] at hF
  simp only [jmsFierzLepTable, fierzBernLepTable, ffLepTable, jmsFormFlavorLepTable, List.take_succ_cons, List.take_zero,
    List.forall_mem_cons, Ex.val_add, Ex.val_sub, Ex.val_neg, Ex.val_mul, Ex.val_div, Ex.val_src, Ex.val_cj] at hF hW hc
  obtain ⟨F9, F10, FS, FP, FT, FT5, G9, G10, GS, GP, Fn, Gn, -⟩ := hF
  obtain ⟨W1, W3, W5, W7, W9, V1, V3, V5, V7, V9, Wn, Vn, -⟩ := hW
  obtain ⟨e1, e2, e3, e4, e5, e6, e7, e8, e9, e10, -⟩ := hc
  simp only [Sector.val, opsOdd, NSector.val, ffLep, List.map_cons, List.map_nil, List.sum_cons, List.sum_nil, add_zero,
    val3_same, val3_LR, val3_RL, val4_same, val4_LR, val4_RL, val_sg_LR, val_sg_RL, zero_add]
  rw [e1, e2, e3, e4, e5, e6, e7, e8, e9, e10]
  rw [W1, W3, W5, W7, W9, V1, V3, V5, V7, V9, F9, F10, FS, FP, FT, FT5, G9, G10, GS, GP]
  push_cast
  ring

/-! ### Sectors -/

def ffSectorKeys : List F4 :=
  (ddPairs.map fun x => ((.d, x.1), (.d, x.2), (.d, x.1), (.d, x.2))) ++ [((.u, 0), (.u, 1), (.u, 0), (.u, 1))] ++
  ([(1, 2), (0, 2)].map fun x => ((.d, x.1), (.d, x.2), (.e, 1), (.e, 1)))

theorem ffSectorKeys_eq (t : ℂ) : (ffSectors t).map NSector.key = ffSectorKeys := by
  unfold ffSectors ffSectorKeys
  simp only [List.map_append, List.map_map, Function.comp_def, NSector.key, List.map_cons, List.map_nil]

theorem ffSectorKeys_nodup : ffSectorKeys.Nodup := by decide +kernel

theorem ffSectorKeys_conj : ∀ k ∈ ffSectorKeys, ∀ k' ∈ conjs k, k' ∉ ffSectorKeys := by decide +kernel

theorem ffExtra_zero (t : ℂ) (p q r s : Leg) : (ffExtra t 0 0).anti p q r s = 0 := by
  simp only [Four.anti, ffExtra]; ring

section

variable {P : PEnv} (hP : Admissible P) (J : JSrc → ℂ) (t : ℂ)

include hP

/-- `Delta F = 2` with down quarks: the Lagrangians differ by the crossed colour structure. -/
theorem ff_down {y : Fin 3 × Fin 3} (hy : y ∈ ddPairs) {p q r s : Leg}
    (h : fl4 p q r s = ((.d, y.1), (.d, y.2), (.d, y.1), (.d, y.2))) : (jmsLag J).anti p q r s =
      (nSum (ffSectors t) (bat J (Dict.ofPairs (blkFormFlavor P).flatten))).anti p q r s +
        (ffExtra t (starRingEnd ℂ (J ("S8ddRR", [y.2, y.1, y.2, y.1])) / 2) (J ("S8ddRR", [y.1, y.2, y.1, y.2]) / 2)).anti p q r s := by
  have hn : ((ffSectors t).map NSector.key).Nodup := by rw [ffSectorKeys_eq]; exact ffSectorKeys_nodup
  have hx : NSector.mk (.d, y.1) (.d, y.2) (.d, y.1) (.d, y.2) (ffI t (qname (.d, y.2) ++ qname (.d, y.1))) ∈ ffSectors t := by
    unfold ffSectors
    exact List.mem_append_left _ (List.mem_append_left _ (List.mem_map.2 ⟨y, hy, rfl⟩))
  rw [nSum_antiI hn hx _ h rfl rfl rfl]
  obtain ⟨⟨hp, hp'⟩, ⟨hq, hq'⟩, ⟨hr, hr'⟩, hs, hs'⟩ := fl4_elim (k1 := .d) (k2 := .d) (k3 := .d) (k4 := .d) h
  obtain ⟨W, hW, hc⟩ := fftable_I hP J y hy
  rw [block_I J W _ (.d, y.1) (.d, y.2) (.d, y.1) (.d, y.2) hp hq hr hs (hr'.trans hp'.symm) (hs'.trans hq'.symm)
    (by rw [hp', hq']; exact hW), ffblock W _ t _ _ _ _ _ _ p q r s hc]
  simp only [jmsBernIDown, List.forall_mem_cons, Ex.val_add, Ex.val_sub, Ex.val_neg, Ex.val_mul, Ex.val_div, Ex.val_src,
    Ex.val_cj, List.cons_append, List.nil_append] at hW
  obtain ⟨-, -, w3, -, -, -, -, w3', -⟩ := hW
  rw [w3, w3']

/-- The same with up quarks. -/
theorem ff_up {p q r s : Leg} (h : fl4 p q r s = ((.u, 0), (.u, 1), (.u, 0), (.u, 1))) : (jmsLag J).anti p q r s =
      (nSum (ffSectors t) (bat J (Dict.ofPairs (blkFormFlavor P).flatten))).anti p q r s +
        (ffExtra t (starRingEnd ℂ (J ("S8uuRR", [1, 0, 1, 0])) / 2) (J ("S8uuRR", [0, 1, 0, 1]) / 2)).anti p q r s := by
  have hn : ((ffSectors t).map NSector.key).Nodup := by rw [ffSectorKeys_eq]; exact ffSectorKeys_nodup
  have hx : NSector.mk (.u, 0) (.u, 1) (.u, 0) (.u, 1) (ffI t "cu") ∈ ffSectors t := by
    unfold ffSectors
    exact List.mem_append_left _ (List.mem_append_right _ (List.mem_singleton.2 rfl))
  rw [nSum_antiI hn hx _ h rfl rfl rfl]
  obtain ⟨⟨hp, hp'⟩, ⟨hq, hq'⟩, ⟨hr, hr'⟩, hs, hs'⟩ := fl4_elim (k1 := .u) (k2 := .u) (k3 := .u) (k4 := .u) h
  obtain ⟨W, hW, hc⟩ := fftable_uc hP J
  rw [block_Iu J W _ (.u, 0) (.u, 1) (.u, 0) (.u, 1) hp hq hr hs hp' hq' hr' hs' hW, ffblock W _ t _ _ _ _ _ _ p q r s hc]
  simp only [jmsBernIUp, List.forall_mem_cons, Ex.val_add, Ex.val_sub, Ex.val_neg, Ex.val_mul, Ex.val_div, Ex.val_src,
    Ex.val_cj, List.cons_append, List.nil_append] at hW
  obtain ⟨-, -, w3, -, -, -, -, w3', -⟩ := hW
  rw [w3, w3']

theorem ff_direct (hd : ∀ i, J ("S8ddRR", i) = 0) (hu : ∀ i, J ("S8uuRR", i) = 0) {p q r s : Leg}
    (h : fl4 p q r s ∈ ffSectorKeys) : (jmsLag J).anti p q r s =
      (nSum (ffSectors t) (bat J (Dict.ofPairs (blkFormFlavor P).flatten))).anti p q r s := by
  have hn : ((ffSectors t).map NSector.key).Nodup := by rw [ffSectorKeys_eq]; exact ffSectorKeys_nodup
  rw [← ffSectorKeys_eq t] at h
  obtain ⟨x, hx, hk⟩ := List.mem_map.1 h
  have hx' := hx
  unfold ffSectors at hx
  simp only [List.mem_append, List.mem_map] at hx
  rcases hx with (hx | hx) | hx
  · obtain ⟨y, hy, rfl⟩ := hx
    rw [ff_down hP J t hy hk.symm, hd, hd, map_zero, zero_div, ffExtra_zero, add_zero]
  · rw [List.mem_singleton] at hx
    subst hx
    rw [ff_up hP J t hk.symm, hu, hu, map_zero, zero_div, ffExtra_zero, add_zero]
  · obtain ⟨y, hy, rfl⟩ := hx
    have hc : ∀ y ∈ [((1, 2) : Fin 3 × Fin 3), (0, 2)], ∀ f ∈ [perm2, perm3, perm4],
        f ((.d, y.1), (.d, y.2), (.e, 1), (.e, 1)) ∉ ffSectorKeys := by decide +kernel
    rw [nSum_anti hn hx' _ hk.symm (by rw [ffSectorKeys_eq]; exact hc y hy)]
    obtain ⟨⟨hp, hp'⟩, ⟨hq, hq'⟩, ⟨hr, hr'⟩, hs, hs'⟩ := fl4_elim (k1 := .d) (k2 := .d) (k3 := .e) (k4 := .e) hk.symm
    exact ffblock_e J _ _ _ _ _ _ hp hq hr hs hr' hs' (by rw [hp', hq']; exact fftable_lep hP J y hy)

end

end Verif
