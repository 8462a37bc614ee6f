import Verif.Lemmas.MatchLagApi
import Verif.Props.MatchCkm

/-! C73: the effective Lagrangian in the matching from SMEFT to WET. -/

set_option autoImplicit false

namespace Verif

open Spec

/-! ### C73 -/

theorem match_full {L : List String} {d : Dict String ℂ} {S : JSrc → ℂ} (hS : SmeftFull d S) (V : M3) (w w0 : EW) :
    WetFull L (Dict.filt (fun k _ => decide (k ∈ L)) (arrays2wcxf (matched V (flatSrc d) w w0))) (matchJ V (flatSrc d) w w0) := by
  have hh := hermSrc_full hS
  refine ⟨fun o ho p r s t hl => ?_, fun o ho h p r s t => ?_, fun o ho h p r s t => ?_⟩
  · obtain ⟨f, hf⟩ := wet_four o ho
    have e1 := ruleT_eq (flatSrc d) w _ hf
    have e2 := ruleT_eq (flatSrc d).zero w0 _ hf
    dsimp only at e1 e2
    rw [getD_matched (four_sub _ hf) hl (X := .ten (rotateRule V o.name (ruleT (flatSrc d) w o.name - ruleT (flatSrc d).zero w0 o.name)))
      (by rw [e1, e2]; rfl) (List.mem_map.2 ⟨(p, r, s, t), mem_ix4s _, rfl⟩)]
    rfl
  · exact (congrFun (match_herm V hh w w0 ho h) (r, p, t, s)).symm
  · exact congrFun (match_exch V hh w w0 ho h) (p, r, s, t)

section

variable {ckm : ℝ → ℝ → ℝ → ℝ → M3} {L : List String} {default : Par} {d D : Dict String ℂ} {scale : ℝ} {par : Option Par} {V : M3}
  {GF mW mZ α : ℝ} {S : JSrc → ℂ}

/-- The returned coefficients obey Hermiticity and exchange of bilinears: there are tensors with these relations that agree with
every returned coefficient. -/
theorem C73_relations (hw : Dict.WF d) (hd : ∀ key ∈ Dict.keys d, IsFlat key) (hS : SmeftFull d S)
    (h : warsawUpToJms ckm L default d scale par = .ok D) : ∃ J, WetFull L D J := by
  obtain ⟨w, w0, V, -, -, -, rfl⟩ := matchAll_inv hw hd h
  exact ⟨_, match_full hS V w w0⟩

theorem coup_src (hS : SmeftFull d S) (hG : Dict.find (withPar default par) "GF" = some GF)
    (hW : Dict.find (withPar default par) "m_W" = some mW) (hZ : Dict.find (withPar default par) "m_Z" = some mZ)
    (hA : Dict.find (withPar default par) "alpha_e" = some α) {w : EW} (h : ewOf (flatSrc d) (withPar default par) = .ok w) :
    coup w = couplings GF mW mZ α S := by
  have hl : IsOp "ll" (.four (b .l) (n .l) (b .l) (n .l)) := by decide +kernel
  have hp3 : IsOp "phil3" (.two (b .l) (n .l)) := by decide +kernel
  exact coup_eq hG hW hZ hA (congrFun (full_tn hS hl) (1, 0, 0, 1)).symm
    (congrFun (full_tn hS hl) (0, 1, 1, 0)).symm (congrFun (full_mt hS hp3) (1, 1)).symm (congrFun (full_mt hS hp3) (0, 0)).symm
    (full_phiWB hS).symm h

/-- The tensors of the matching conditions. -/
theorem match_tree (hw : Dict.WF d) (hd : ∀ key ∈ Dict.keys d, IsFlat key) (hS : SmeftFull d S)
    (h : warsawUpToJms ckm L default d scale par = .ok D) (hV : ckmOf ckm (withPar default par) = .ok V)
    (hG : Dict.find (withPar default par) "GF" = some GF) (hW : Dict.find (withPar default par) "m_W" = some mW)
    (hZ : Dict.find (withPar default par) "m_Z" = some mZ) (hA : Dict.find (withPar default par) "alpha_e" = some α) :
    ∃ J, WetFull L D J ∧ tens J "TedRR" = 0 ∧ ∀ {p q r s : Leg}, p.Phys → q.Phys → r.Phys → s.Phys →
      (wetLag J).anti p q r s = (Four.rotL V fun p q r s => treeLag S (couplings GF mW mZ α S) p q r s -
        treeLag (fun _ => 0) (couplings GF mW mZ α fun _ => 0) p q r s).anti p q r s := by
  obtain ⟨w, w0, V', e1, e2, e3, rfl⟩ := matchAll_inv hw hd h
  obtain rfl : V' = V := Except.ok.inj (e3.symm.trans hV)
  have k1 := coup_src hS hG hW hZ hA e1
  have k0 : coup w0 = couplings GF mW mZ α fun _ => 0 := coup_eq (T := fun _ => 0) hG hW hZ hA rfl rfl rfl rfl rfl e2
  refine ⟨_, match_full hS V' w w0, ?_, fun {p q r s} hp hq hr hs => ?_⟩
  · have hT : ("TedRR", fun _ _ => Arr.ten 0) ∈ fourRules := by simp [fourRules, rulesScalar]
    have e1 : ∀ S w, ruleT S w "TedRR" = 0 := fun S w => (Arr.ten.inj (ruleT_eq S w _ hT)).symm
    change rotateRule V' "TedRR" (ruleT _ _ "TedRR" - ruleT _ _ "TedRR") = 0
    rw [e1, e1, sub_zero, rotateRule_zero]
  rw [match_lag V' (flatSrc d) w w0 ((hermSrc_full hS).tn "lq3" (by simp)) hp hq hr hs, tree_src hS, tree_zero, k1, k0]

/-- **C73** if all operators that are not related by Hermiticity or exchange of bilinears are listed: the returned coefficients give
the tree-level effective Lagrangian of the SMEFT without that of the Standard Model, in the mass basis of the down quarks. What is missing:
operators that are related by a Fierz identity may not be left out of the list. -/
theorem C73_lagrangian_partial (hw : Dict.WF d) (hd : ∀ key ∈ Dict.keys d, IsFlat key) (hS : SmeftFull d S)
    (h : warsawUpToJms ckm L default d scale par = .ok D) (hV : ckmOf ckm (withPar default par) = .ok V)
    (hG : Dict.find (withPar default par) "GF" = some GF) (hW : Dict.find (withPar default par) "m_W" = some mW)
    (hZ : Dict.find (withPar default par) "m_Z" = some mZ) (hA : Dict.find (withPar default par) "alpha_e" = some α)
    (hL : WetListing L) {J : JSrc → ℂ} (hJ : WetFull L D J) {p q r s : Leg} (hp : p.Phys) (hq : q.Phys) (hr : r.Phys) (hs : s.Phys)
    (lp : p.Light) (lq : q.Light) (lr : r.Light) (ls : s.Light) :
    (wetLag J).anti p q r s = (Four.rotL V fun p q r s => treeLag S (couplings GF mW mZ α S) p q r s -
      treeLag (fun _ => 0) (couplings GF mW mZ α fun _ => 0) p q r s).anti p q r s := by
  obtain ⟨J', hJ', -, hlag⟩ := match_tree hw hd hS h hV hG hW hZ hA
  rw [wetLag_light (fun o ho => wet_unique hL hJ hJ' ho) lp lq lr ls, hlag hp hq hr hs]

/-- **C73** for the dipole operators with photons and gluons, up to the rotation: the returned coefficients are those of the broken phase. What is
missing: the rotation of the left-handed down quarks, see C65. -/
theorem C73_dipoles_partial (hw : Dict.WF d) (hd : ∀ key ∈ Dict.keys d, IsFlat key) (hS : SmeftFull d S)
    (h : warsawUpToJms ckm L default d scale par = .ok D)
    (hG : Dict.find (withPar default par) "GF" = some GF) (hW : Dict.find (withPar default par) "m_W" = some mW)
    (hZ : Dict.find (withPar default par) "m_Z" = some mZ) (hA : Dict.find (withPar default par) "alpha_e" = some α)
    {k : String} {X : Boson} {f : Kind} (hk : (k, X, f) ∈ wetDipoles) (p r : Fin 3) (hl : label k [p, r] ∈ L) :
    Dict.getD D (label k [p, r]) 0 = treeDipole S (couplings GF mW mZ α S) X f p r := by
  obtain ⟨w, w0, V', e1, e2, e3, rfl⟩ := matchAll_inv hw hd h
  rw [← coup_src hS hG hW hZ hA e1]
  have hv : ((w.vT / Real.sqrt 2 : ℝ) : ℂ) = w.rt := by unfold EW.rt; congr 1; ring
  have m : ∀ k x y, IsOp k (.two (b x) (n y)) → (flatSrc d).mt k (p, r) = S (k, [p, r]) := fun k x y ho => congrFun (full_mt hS ho) (p, r)
  have mi : (p, r) ∈ ix2s := mem_ix2s _
  simp only [wetDipoles, List.mem_cons, Prod.mk.injEq, List.not_mem_nil, or_false] at hk
  rcases hk with ⟨rfl, rfl, rfl⟩ | ⟨rfl, rfl, rfl⟩ | ⟨rfl, rfl, rfl⟩ | ⟨rfl, rfl, rfl⟩ | ⟨rfl, rfl, rfl⟩
  · rw [getD_matched (f := fun C w => Arr.mat (w.rt • (-(w.sc • C.mt "eW") + w.cc • C.mt "eB"))) (by simp [matchRules, rulesDipole]) hl rfl
      (List.mem_map.2 ⟨_, mi, rfl⟩)]
    simp only [Arr.sub, rotEntry, Arr.ent, Pi.sub_apply, Pi.add_apply, Pi.neg_apply, Pi.smul_apply, smul_eq_mul, m "eW" .l .e (by decide +kernel), m "eB" .l .e (by decide +kernel)]
    simp [Src.zero, treeDipole, dipoleNames, isospin, coup, ← hv, EW.sc, EW.cc]
  · rw [getD_matched (f := fun C w => Arr.mat (w.rt • (w.sc • C.mt "uW" + w.cc • C.mt "uB"))) (by simp [matchRules, rulesDipole]) hl rfl
      (List.mem_map.2 ⟨_, mi, rfl⟩)]
    simp only [Arr.sub, rotEntry, Arr.ent, Pi.sub_apply, Pi.add_apply, Pi.smul_apply, smul_eq_mul, m "uW" .q .u (by decide +kernel), m "uB" .q .u (by decide +kernel)]
    simp [Src.zero, treeDipole, dipoleNames, isospin, coup, ← hv, EW.sc, EW.cc]
  · rw [getD_matched (f := fun C w => Arr.mat (w.rt • (-(w.sc • C.mt "dW") + w.cc • C.mt "dB"))) (by simp [matchRules, rulesDipole]) hl rfl
      (List.mem_map.2 ⟨_, mi, rfl⟩)]
    simp only [Arr.sub, rotEntry, Arr.ent, Pi.sub_apply, Pi.add_apply, Pi.neg_apply, Pi.smul_apply, smul_eq_mul, m "dW" .q .d (by decide +kernel), m "dB" .q .d (by decide +kernel)]
    simp [Src.zero, treeDipole, dipoleNames, isospin, coup, ← hv, EW.sc, EW.cc]
  · rw [getD_matched (f := fun C w => Arr.mat (w.rt • C.mt "uG")) (by simp [matchRules, rulesDipole]) hl rfl
      (List.mem_map.2 ⟨_, mi, rfl⟩)]
    simp only [Arr.sub, rotEntry, Arr.ent, Pi.sub_apply, Pi.smul_apply, smul_eq_mul, m "uG" .q .u (by decide +kernel)]
    simp [Src.zero, treeDipole, dipoleNames, coup, ← hv]
  · rw [getD_matched (f := fun C w => Arr.mat (w.rt • C.mt "dG")) (by simp [matchRules, rulesDipole]) hl rfl
      (List.mem_map.2 ⟨_, mi, rfl⟩)]
    simp only [Arr.sub, rotEntry, Arr.ent, Pi.sub_apply, Pi.smul_apply, smul_eq_mul, m "dG" .q .d (by decide +kernel)]
    simp [Src.zero, treeDipole, dipoleNames, coup, ← hv]

end

/-! ### A single coefficient that does not shift the couplings -/

theorem ewOf_congr {S S' : Src} {p : Par} (hS : NoShift S) (hS' : NoShift S') : ewOf S p = ewOf S' p := by
  have e1 : vT S p = vT S' p := by
    unfold vT; rw [hS.ll.1, hS.ll.2, hS.phil3.1, hS.phil3.2, hS'.ll.1, hS'.ll.2, hS'.phil3.1, hS'.phil3.2]
  have e2 : S.phiWB = S'.phiWB := hS.phiWB.trans hS'.phiWB.symm
  have e3 : eps S p = eps S' p := by unfold eps; rw [e1, e2]
  have e4 : g2b S p = g2b S' p := by unfold g2b; rw [e1]
  have e5 : g1b S p = g1b S' p := by unfold g1b; rw [e3, e4]
  have e6 : sb S p = sb S' p := by unfold sb; rw [e3, e4, e5]
  have e7 : cb S p = cb S' p := by unfold cb; rw [e3, e4, e5]
  have e8 : eb S p = eb S' p := by unfold eb; rw [e1, e2, e4, e6, e7]
  have e9 : gzb S p = gzb S' p := by unfold gzb; rw [e1, e2, e4, e5, e6, e7, e8]
  unfold ewOf
  rw [e1, e4, e6, e7, e9]

/-- The tensors of a single four-fermion operator `k0`. -/
noncomputable def oneS (k0 : String) (T : Ix4 → ℂ) : JSrc → ℂ := fun x =>
  if x.1 = k0 then (match x.2 with
    | [p, r, s, t] => T (p, r, s, t)
    | _ => 0) else 0

theorem one_full {d : Dict String ℂ} {k0 : String} {T : Ix4 → ℂ} {f : Fld} (hf : f ≠ .e) (hk : IsOp k0 (.four (b f) (n f) (b f) (n f)))
    (hT : Rel4 .twoIdentical T) (hd : ∀ k i, Plain k → (∀ p r s t, i = [p, r, s, t] → k = k0 → Indep4 .twoIdentical (p, r, s, t)) →
      Dict.getD d (label k i) 0 = oneS k0 T (k, i)) : SmeftFull d (oneS k0 T) := by
  have hc : cls4 (b f) (n f) (b f) (n f) = some .twoIdentical := by cases f <;> first | rfl | exact absurd rfl hf
  refine ⟨fun k op i ho hi => ?_, fun k ho => ?_, fun k x y c ho hc2 => ?_, fun k x y z w c ho hc4 => ?_⟩
  · refine (hd k i (isOp_plain ho) fun p r s t e hkk => ?_).symm
    subst e hkk
    rw [isOp_unique ho hk] at hi
    exact hi _ hc
  · simp [oneS]
  · have : (fun i : Fin 3 × Fin 3 => oneS k0 T (k, [i.1, i.2])) = fun _ => 0 := by
      funext i; simp [oneS]
    rw [this]
    cases c <;> simp [Rel2]
  · by_cases hkk : k = k0
    · subst hkk
      have e := isOp_unique ho hk
      injection e with e1 e2 e3 e4
      subst e1 e2 e3 e4
      obtain rfl : c = .twoIdentical := Option.some.inj (hc4.symm.trans hc)
      simpa [oneS] using hT
    · have : (fun i : Fin 3 × Fin 3 × Fin 3 × Fin 3 => oneS k0 T (k, [i.1, i.2.1, i.2.2.1, i.2.2.2])) = fun _ => 0 := by
        funext i; simp [oneS, hkk]
      rw [this]
      cases c <;> simp [Rel4]

/-- Couplings without exchange of bosons. -/
def noEx : EW := ⟨0, 0, 0, 0, 0, 0, 0⟩

theorem noEx_kz (n : ℝ) : noEx.kz n = 0 := by simp [noEx, EW.kz]

theorem noEx_kw (n : ℝ) : noEx.kw n = 0 := by simp [noEx, EW.kw]

/-- Without shifts of the couplings only the contact terms remain. -/
theorem rule_contact {S : Src} (w : EW) (h : ∀ k ∈ ["phil1", "phil3", "phie", "phiq1", "phiq3", "phiu", "phid", "phiud"], S.mt k = 0) :
    ∀ x ∈ fourRules, ruleT S w x.1 - ruleT S.zero w x.1 = ruleT S noEx x.1 := by
  simp only [List.forall_mem_cons] at h
  obtain ⟨m1, m2, m3, m4, m5, m6, m7, m8, -⟩ := h
  have z1 : znu S w = znu S.zero w := by simp [znu, m1, m2, Src.zero]
  have z2 : zel S w = zel S.zero w := by simp [zel, m1, m2, Src.zero]
  have z3 : zer S w = zer S.zero w := by simp [zer, m3, Src.zero]
  have z4 : zul S w = zul S.zero w := by simp [zul, m4, m5, Src.zero]
  have z5 : zur S w = zur S.zero w := by simp [zur, m6, Src.zero]
  have z6 : zdl S w = zdl S.zero w := by simp [zdl, m4, m5, Src.zero]
  have z7 : zdr S w = zdr S.zero w := by simp [zdr, m7, Src.zero]
  have w1 : wl S w = wl S.zero w := by simp [wl, m2, Src.zero]
  have w2 : wq S w = wq S.zero w := by simp [wq, m5, Src.zero]
  have w3 : wr S w = wr S.zero w := by simp [wr, m8, Src.zero]
  have key : ∀ x ∈ fourRules, ((x.2 S w).sub (x.2 S.zero w)) = x.2 S noEx := by
    have s0 : ∀ k, S.zero.tn k = 0 := fun _ => rfl
    have f1 : estpr 0 = 0 := rfl
    have f2 : eptsr 0 = 0 := rfl
    have f3 : esrpt 0 = 0 := rfl
    simp only [fourRules, rulesLL, rulesRR, rulesLR, rulesScalar, List.forall_mem_append, List.forall_mem_cons, Arr.sub, Arr.ten.injEq,
      z1, z2, z3, z4, z5, z6, z7, w1, w2, w3, s0, noEx_kz, noEx_kw, zero_smul, sub_zero, f1, f2, f3, smul_zero, add_zero, neg_zero,
      zero_sub, sub_neg_eq_add, sub_self, true_and]
    simp only [List.not_mem_nil, false_imp_iff, implies_true, and_true]
    refine ⟨⟨⟨?_, ?_⟩, ?_⟩, ?_⟩ <;> (try refine ⟨?_, ?_, ?_, ?_, ?_, ?_, ?_, ?_, ?_, ?_, ?_, ?_⟩) <;> (try and_intros) <;> abel
  intro x hx
  have e := key x hx
  rw [ruleT_eq S w x hx, ruleT_eq S.zero w x hx, ruleT_eq S noEx x hx] at e
  exact Arr.ten.inj e

section

variable {d : Dict String ℂ} {k0 : String} {T : Ix4 → ℂ}

theorem one_tn (hS : SmeftFull d (oneS k0 T)) : ∀ o ∈ warsawOps, (flatSrc d).tn o.name = if o.name = k0 then T else 0 := by
  intro o ho
  rw [full_tn hS (warsaw_isOp o ho)]
  funext i
  unfold tens oneS
  by_cases h : o.name = k0
  · simp [h]
  · simp [h]

theorem one_mt (hS : SmeftFull d (oneS k0 T)) :
    ∀ k ∈ ["phil1", "phil3", "phie", "phiq1", "phiq3", "phiu", "phid", "phiud"], (flatSrc d).mt k = 0 := by
  intro k hk
  have h1 : ∀ k ∈ ["phil1", "phil3", "phie", "phiq1", "phiq3", "phiu", "phid", "phiud"], ∃ f ∈ [Fld.l, .e, .q, .u],
      ∃ g ∈ [Fld.l, .e, .q, .u, .d], IsOp k (.two (b f) (n g)) ∨ IsOp k (.two (b g) (n g)) := by decide +kernel
  obtain ⟨f, -, g, -, h | h⟩ := h1 k hk <;> rw [full_mt hS h] <;> funext i <;> simp [oneS]

theorem one_noShift (hS : SmeftFull d (oneS k0 T)) (h : k0 = "ll" → T (1, 0, 0, 1) = 0 ∧ T (0, 1, 1, 0) = 0) :
    NoShift (flatSrc d) := by
  have hl := one_tn hS ⟨"ll", .l, .l, .l, .l, .g 1 .L .L, .one, .one, true⟩ (by simp [warsawOps])
  dsimp only at hl
  refine ⟨?_, ?_, ?_⟩
  · rw [hl]
    by_cases e : k0 = "ll"
    · rw [if_pos e.symm]; exact h e
    · rw [if_neg fun e' => e e'.symm]; exact ⟨rfl, rfl⟩
  · rw [one_mt hS "phil3" (by simp)]; exact ⟨rfl, rfl⟩
  · rw [full_phiWB hS]
    simp [oneS]

theorem one_match_all (V : M3) (hw : Dict.WF d) (hd : ∀ key ∈ Dict.keys d, IsFlat key) (hS : SmeftFull d (oneS k0 T))
    (hns : NoShift (flatSrc d)) : ∃ J, (∀ L, ∃ D, warsawUpToJms (fun _ _ _ _ => V) L defaultPar d 91 none = .ok D ∧ WetFull L D J) ∧
      ∀ o ∈ wetOps, tens J o.name = rotateRule V o.name (ruleT (flatSrc d) noEx o.name) := by
  obtain ⟨w, e1, -⟩ := ew_ok default_physical hns
  have e2 : ewOf (flatSrc d).zero defaultPar = .ok w := (ewOf_congr (noShift_zero _) hns).trans e1
  have hV : ckmOf (fun _ _ _ _ => V) defaultPar = .ok V := rfl
  refine ⟨_, fun L => ⟨_, matchAll_intro L hw hd (par := none) e1 e2 hV, match_full hS V w w⟩, fun o ho => ?_⟩
  obtain ⟨f, hf⟩ := wet_four o ho
  change rotateRule V o.name (ruleT (flatSrc d) w o.name - ruleT (flatSrc d).zero w o.name) = _
  have e := rule_contact w (one_mt hS) _ hf
  dsimp only at e
  rw [e]

theorem one_match (V : M3) (L : List String) (hw : Dict.WF d) (hd : ∀ key ∈ Dict.keys d, IsFlat key) (hS : SmeftFull d (oneS k0 T))
    (hns : NoShift (flatSrc d)) : ∃ D J, warsawUpToJms (fun _ _ _ _ => V) L defaultPar d 91 none = .ok D ∧ WetFull L D J ∧
      ∀ o ∈ wetOps, tens J o.name = rotateRule V o.name (ruleT (flatSrc d) noEx o.name) := by
  obtain ⟨J, h, t⟩ := one_match_all V hw hd hS hns
  obtain ⟨D, h1, h2⟩ := h L
  exact ⟨D, J, h1, h2, t⟩

theorem rotateRule_one (k : String) (X : Ix4 → ℂ) : rotateRule 1 k X = X := Arr.ten.inj (rotEntry_one k (.ten X))

end

/-! ### Refutation: Fierz identities -/

/-- Tensor of the coefficient with flavours 1, 3, 3, 1. -/
noncomputable def llT : Ix4 → ℂ := fun i => if i = (0, 2, 2, 0) ∨ i = (2, 0, 0, 2) then 1 else 0

/-- The input. -/
noncomputable def exLL : Dict String ℂ := [("ll_1331", 1)]

theorem ll_op : IsOp "ll" (.four (b .l) (n .l) (b .l) (n .l)) := by decide +kernel

theorem exLL_wf : Dict.WF exLL := by simp [Dict.WF, Dict.keys, exLL]

theorem exLL_flat : ∀ key ∈ Dict.keys exLL, IsFlat key := by
  intro key hk
  obtain rfl : key = "ll_1331" := by simpa [Dict.keys, exLL] using hk
  exact ⟨"ll", _, [0, 2, 2, 0], ll_op, rfl, by decide +kernel⟩

theorem exLL_entries {k : String} (hk : Plain k) (i : List (Fin 3)) :
    entries exLL k i = if k = "ll" ∧ i = [0, 2, 2, 0] then 1 else 0 := by
  have hl : "ll_1331" = label "ll" [0, 2, 2, 0] := by decide +kernel
  unfold entries Dict.getD exLL
  rw [hl, Dict.find_cons]
  by_cases h : k = "ll" ∧ i = [0, 2, 2, 0]
  · rw [h.1, h.2]; simp
  · rw [if_neg h, if_neg fun e => h ?_]
    · rfl
    · have := label_inj (isOp_plain ll_op) hk (show label "ll" [0, 2, 2, 0] = label k i from e)
      exact ⟨this.1.symm, this.2.symm⟩

theorem exLL_full : SmeftFull exLL (oneS "ll" llT) := by
  refine one_full (by decide) ll_op ?_ fun k i hk hi => ?_
  · have : ∀ p r s t : Fin 3, (((r, p, t, s) : Ix4) = (0, 2, 2, 0) ∨ ((r, p, t, s) : Ix4) = (2, 0, 0, 2) ↔
        ((p, r, s, t) : Ix4) = (0, 2, 2, 0) ∨ ((p, r, s, t) : Ix4) = (2, 0, 0, 2)) ∧ (((s, t, p, r) : Ix4) = (0, 2, 2, 0) ∨
        ((s, t, p, r) : Ix4) = (2, 0, 0, 2) ↔ ((p, r, s, t) : Ix4) = (0, 2, 2, 0) ∨ ((p, r, s, t) : Ix4) = (2, 0, 0, 2)) := by decide
    intro p r s t
    obtain ⟨h1, h2⟩ := this p r s t
    unfold llT
    simp only [h1, h2]
    constructor
    · split_ifs <;> simp
    · trivial
  · change entries exLL k i = _
    rw [exLL_entries hk]
    unfold oneS
    by_cases h : k = "ll"
    · simp only [h, true_and, if_true]
      match i with
      | [p, r, s, t] =>
        have hI := hi p r s t rfl h
        have : ∀ p r s t : Fin 3, Indep4 .twoIdentical (p, r, s, t) → (p, r, s, t) ≠ ((2, 0, 0, 2) : Ix4) := by decide
        simp only [llT, this p r s t hI, or_false, List.cons.injEq, and_true, Prod.mk.injEq]
      | [] => rfl
      | [_] => simp
      | [_, _] => simp
      | [_, _, _] => simp
      | _ :: _ :: _ :: _ :: _ :: _ => simp
    · simp [h]

/-- All operators, except that of the operators related by the Fierz identity to those with flavours 1, 1, 3, 3 only the latter are
listed. -/
def fierzL : List String := wetOps.flatMap fun o => (ix4s.filter fun i => !(decide (o.name ∈ ["VnunuLL", "VeeLL"]) &&
  decide (i = (0, 2, 2, 0) ∨ i = (2, 0, 0, 2)))).map fun i => label o.name [i.1, i.2.1, i.2.2.1, i.2.2.2]

theorem wet_plain : ∀ o ∈ wetOps, Plain o.name := by
  have h : (wetOps.all fun o => decide (Plain o.name)) = true := by decide +kernel
  exact fun o ho => of_decide_eq_true (List.all_eq_true.mp h o ho)

theorem mem_fierzL {o : JOp} (ho : o ∈ wetOps) (p r s t : Fin 3) : label o.name [p, r, s, t] ∈ fierzL ↔
    ¬ (o.name ∈ ["VnunuLL", "VeeLL"] ∧ ((p, r, s, t) = ((0, 2, 2, 0) : Ix4) ∨ (p, r, s, t) = ((2, 0, 0, 2) : Ix4))) := by
  unfold fierzL
  simp only [List.mem_flatMap, List.mem_map, List.mem_filter, Bool.not_eq_true', Bool.and_eq_false_iff, decide_eq_false_iff_not]
  constructor
  · rintro ⟨o', ho', ⟨a, b, c, e⟩, ⟨-, h⟩, hl⟩ ⟨h1, h2⟩
    obtain ⟨e1, e2⟩ := label_inj (wet_plain o' ho') (wet_plain o ho) hl
    simp only [List.cons.injEq, and_true] at e2
    obtain ⟨rfl, rfl, rfl, rfl⟩ := e2
    rcases h with h | h
    · exact h (e1 ▸ h1)
    · exact h h2
  · intro h
    refine ⟨o, ho, (p, r, s, t), ⟨mem_ix4s _, ?_⟩, rfl⟩
    exact not_and_or.1 h

theorem fierzL_listing : WetListingFierz fierzL := by
  intro o ho p r s t _
  by_cases h : label o.name [p, r, s, t] ∈ fierzL
  · exact ⟨_, by simp, h⟩
  · have h' := h
    rw [mem_fierzL ho, not_not] at h'
    obtain ⟨h1, h2⟩ := h'
    have hf : o.fierz = true := by
      unfold JOp.fierz
      have : ∀ k ∈ ["VnunuLL", "VeeLL"], k ∈ ["VnunuLL", "VeeLL", "VeeRR"] := by decide
      exact decide_eq_true (this _ h1)
    refine ⟨[p, t, s, r], by simp [hf], (mem_fierzL ho p t s r).2 fun hx => ?_⟩
    have : ∀ p r s t : Fin 3, ((p, r, s, t) = ((0, 2, 2, 0) : Ix4) ∨ (p, r, s, t) = ((2, 0, 0, 2) : Ix4)) →
      ¬ ((p, t, s, r) = ((0, 2, 2, 0) : Ix4) ∨ (p, t, s, r) = ((2, 0, 0, 2) : Ix4)) := by decide
    exact this p r s t h2 hx.2

/-- The tensors of the matching conditions for the input. -/
theorem exLL_rules : (∀ o ∈ wetOps, o.name ∉ ["VnunuLL", "VeeLL", "VnueLL"] → ruleT (flatSrc exLL) noEx o.name = 0) ∧
    ruleT (flatSrc exLL) noEx "VnunuLL" = llT ∧ ruleT (flatSrc exLL) noEx "VeeLL" = llT := by
  have t := one_tn exLL_full
  simp only [warsawOps, List.forall_mem_cons] at t
  obtain ⟨t1, t2, t3, t4, t5, t6, t7, t8, t9, t10, t11, t12, t13, t14, t15, t16, t17, t18, t19, t20, t21, t22, t23, t24, t25, -⟩ := t
  have hJ := fun x hx => (ruleT_eq (flatSrc exLL) noEx x hx).symm
  simp only [fourRules, rulesLL, rulesRR, rulesLR, rulesScalar, List.forall_mem_append, List.forall_mem_cons, Arr.ten.injEq] at hJ
  obtain ⟨⟨⟨⟨a1, a2, a3, a4, a5, a6, a7, a8, a9, a10, a11, a12, -⟩, ⟨b1, b2, b3, b4, b5, b6, b7, -⟩⟩,
    ⟨c1, c2, c3, c4, c5, c6, c7, c8, c9, c10, c11, c12, c13, c14, c15, c16, c17, c18, c19, -⟩⟩,
    ⟨d1, d2, d3, d4, d5, d6, d7, d8, d9, d10, d11, d12, d13, d14, d15, d16, d17, d18, -, -⟩⟩ := hJ
  refine ⟨?_, ?_, ?_⟩
  · have f1 : estpr 0 = 0 := rfl
    have f2 : eptsr 0 = 0 := rfl
    have f3 : esrpt 0 = 0 := rfl
    simp [wetOps, jmsOps, a1, a2, a3, a4, a5, a6, a7, a8, a9, a10, a11, a12, b1, b2, b3, b4, b5, b6, b7, c1, c2, c3, c4, c5, c6, c7, c8, c9, c10,
      c11, c12, c13, c14, c15, c16, c17, c18, c19, d1, d2, d3, d4, d5, d6, d7, d8, d9, d10, d11, d12, d13, d14, d15, d16, d17, d18,
      t1, t2, t3, t4, t5, t6, t7, t8, t9, t10, t11, t12, t13, t14, t15, t16, t17, t18, t19, t20, t21, t22, t23, t24, t25, noEx_kz, noEx_kw, f1, f2, f3]
  · rw [a1, t1]; simp [noEx_kz]
  · rw [a2, t1]; simp [noEx_kz]

/-- All operators. -/
def allL : List String := wetOps.flatMap fun o => ix4s.map fun i => label o.name [i.1, i.2.1, i.2.2.1, i.2.2.2]

theorem allL_listing : WetListing allL := fun o ho p r s t _ =>
  .inl (List.mem_flatMap.2 ⟨o, ho, List.mem_map.2 ⟨(p, r, s, t), mem_ix4s _, rfl⟩⟩)

/-- The difference of the two results. -/
noncomputable def llK : JSrc → ℂ := fun x => if x.1 ∈ ["VnunuLL", "VeeLL"] then oneS x.1 llT x else 0

theorem llK_lag (p q r s : Leg) : (wetLag llK).anti p q r s =
    am .nu .nu .nu .nu (.g 1 .L .L) .one llT p q r s + am .e .e .e .e (.g 1 .L .L) .one llT p q r s := by
  have h0 : ∀ k, k ∉ ["VnunuLL", "VeeLL"] → tens llK k = 0 := fun k hk => by
    funext i; exact if_neg hk
  have h1 : ∀ k ∈ ["VnunuLL", "VeeLL"], tens llK k = llT := fun k hk => by
    funext i
    have : llK (k, [i.1, i.2.1, i.2.2.1, i.2.2.2]) = oneS k llT (k, [i.1, i.2.1, i.2.2.1, i.2.2.2]) := if_pos hk
    exact this.trans (by simp [oneS])
  rw [wetLag_anti]
  have e : ∀ o ∈ wetOps, (am o.k1 o.k2 o.k3 o.k4 o.dir o.col (tens llK o.name) p q r s +
      if o.herm then 0 else ah o.k1 o.k2 o.k3 o.k4 o.dir o.col (tens llK o.name) p q r s) =
      if o.name ∈ ["VnunuLL", "VeeLL"] then am o.k1 o.k2 o.k3 o.k4 o.dir o.col llT p q r s else 0 := by
    intro o ho
    by_cases h : o.name ∈ ["VnunuLL", "VeeLL"]
    · have hh : o.herm = true := by
        have h2 : (wetOps.all fun o => decide (o.name ∈ ["VnunuLL", "VeeLL"] → o.herm = true)) = true := by decide +kernel
        exact of_decide_eq_true (List.all_eq_true.mp h2 o ho) h
      rw [if_pos h, hh, h1 _ h]; simp
    · rw [if_neg h, h0 _ h, am_zero, ah_zero]; simp
  rw [List.map_congr_left e]
  simp [wetOps, jmsOps]

/-- A left-handed charged lepton. -/
def exLeg (g : Fin 3) (a : Fin 4) : Leg := ⟨.e, g, a, 0⟩

theorem llK_value : (wetLag llK).anti (exLeg 0 2) (exLeg 0 0) (exLeg 2 3) (exLeg 2 1) ≠ 0 := by
  rw [llK_lag]
  have v1 : (Dir.g 1 .L .L).val 3 0 2 1 = -2 := by
    rw [val_g, show fastG 1 .L .L 3 0 2 1 = -2 by decide +kernel]; simp [map_ofNat]
  have v2 : (Dir.g 1 .L .L).val 2 1 3 0 = -2 := by
    rw [val_g, show fastG 1 .L .L 2 1 3 0 = -2 by decide +kernel]; simp [map_ofNat]
  simp [am, Four.anti, mono, exLeg, llT, v1, v2, Col.val]

/-- **C73** fails if of the operators related by a Fierz identity only one is listed: the contribution of `ll_1331` to the scattering of
electrons and taus is lost. -/
theorem C73_refuted : ∃ (L : List String) (d D : Dict String ℂ) (S J : JSrc → ℂ) (p q r s : Leg), WetListingFierz L ∧
    Dict.WF d ∧ (∀ key ∈ Dict.keys d, IsFlat key) ∧ SmeftFull d S ∧
    warsawUpToJms (fun _ _ _ _ => 1) L defaultPar d 91 none = .ok D ∧ WetFierz L D J ∧ p.Phys ∧ q.Phys ∧ r.Phys ∧ s.Phys ∧
    p.Light ∧ q.Light ∧ r.Light ∧ s.Light ∧
    (wetLag J).anti p q r s ≠ (Four.rotL 1 fun p q r s => treeLag S (couplings 1.1663787e-5 80.385 91.1876 (1 / 127.9) S) p q r s -
      treeLag (fun _ => 0) (couplings 1.1663787e-5 80.385 91.1876 (1 / 127.9) fun _ => 0) p q r s).anti p q r s := by
  have hns := one_noShift exLL_full fun _ => by simp [llT]
  obtain ⟨D1, J1, h1, f1, t1⟩ := one_match 1 allL exLL_wf exLL_flat exLL_full hns
  obtain ⟨D2, J2, h2, f2, t2⟩ := one_match 1 fierzL exLL_wf exLL_flat exLL_full hns
  simp only [rotateRule_one] at t1 t2
  obtain ⟨z, zn, ze⟩ := exLL_rules
  let J : JSrc → ℂ := fun x => if x.1 ∈ ["VnunuLL", "VeeLL"] then 0 else J2 x
  have hin : ∀ o ∈ wetOps, o.name ∈ ["VnunuLL", "VeeLL"] → tens J2 o.name = llT := by
    intro o ho h
    rw [t2 o ho]
    simp only [List.mem_cons, List.not_mem_nil, or_false] at h
    rcases h with h | h <;> rw [h] <;> assumption
  have hJ0 : ∀ k i, k ∈ ["VnunuLL", "VeeLL"] → J (k, i) = 0 := fun k i h => if_pos h
  have hJ1 : ∀ k i, k ∉ ["VnunuLL", "VeeLL"] → J (k, i) = J2 (k, i) := fun k i h => if_neg h
  have hfull : WetFierz fierzL D2 J := by
    refine ⟨⟨fun o ho p r s t hl => ?_, fun o ho hh p r s t => ?_, fun o ho hh p r s t => ?_⟩, fun o ho hh p r s t => ?_⟩
    · by_cases h : o.name ∈ ["VnunuLL", "VeeLL"]
      · rw [hJ0 _ _ h, ← f2.listed o ho p r s t hl]
        have e : tens J2 o.name (p, r, s, t) = llT (p, r, s, t) := congrFun (hin o ho h) _
        have hx := (mem_fierzL ho p r s t).1 hl
        have e0 : llT (p, r, s, t) = 0 := if_neg fun hc => hx ⟨h, hc⟩
        exact (e.trans e0).symm
      · rw [hJ1 _ _ h, f2.listed o ho p r s t hl]
    · by_cases h : o.name ∈ ["VnunuLL", "VeeLL"]
      · rw [hJ0 _ _ h, hJ0 _ _ h, map_zero]
      · rw [hJ1 _ _ h, hJ1 _ _ h, f2.herm o ho hh]
    · by_cases h : o.name ∈ ["VnunuLL", "VeeLL"]
      · rw [hJ0 _ _ h, hJ0 _ _ h]
      · rw [hJ1 _ _ h, hJ1 _ _ h, f2.exch o ho hh]
    · by_cases h : o.name ∈ ["VnunuLL", "VeeLL"]
      · rw [hJ0 _ _ h, hJ0 _ _ h]
      · have hn : o.name ∉ ["VnunuLL", "VeeLL", "VnueLL"] := by
          unfold JOp.fierz at hh
          have hh := of_decide_eq_true hh
          simp only [List.mem_cons, List.not_mem_nil, or_false] at hh h ⊢
          rcases hh with e | e | e
          · exact absurd (.inl e) h
          · exact absurd (.inr e) h
          · rw [e]; decide
        have e : tens J2 o.name = 0 := (t2 o ho).trans (z o ho hn)
        rw [hJ1 _ _ h, hJ1 _ _ h]
        exact (congrFun e (p, t, s, r)).trans (congrFun e (p, r, s, t)).symm
  have hdiff : ∀ p q r s, (wetLag J1).anti p q r s - (wetLag J).anti p q r s = (wetLag llK).anti p q r s := by
    intro p q r s
    have e : wetLag llK = wetLag fun x => J1 x - J x := by
      refine wetLag_congr fun o ho => ?_
      funext i
      change llK _ = J1 _ - J _
      have e12 : tens J1 o.name i = tens J2 o.name i := by rw [t1 o ho, t2 o ho]
      by_cases h : o.name ∈ ["VnunuLL", "VeeLL"]
      · have ek : llK (o.name, [i.1, i.2.1, i.2.2.1, i.2.2.2]) = oneS o.name llT (o.name, [i.1, i.2.1, i.2.2.1, i.2.2.2]) := if_pos h
        rw [hJ0 _ _ h, ek, sub_zero]
        have : tens J1 o.name i = llT i := by rw [e12, hin o ho h]
        exact (by simp [oneS] : oneS o.name llT (o.name, [i.1, i.2.1, i.2.2.1, i.2.2.2]) = llT i).trans this.symm
      · have ek : llK (o.name, [i.1, i.2.1, i.2.2.1, i.2.2.2]) = 0 := if_neg h
        rw [hJ1 _ _ h, ek]
        exact (sub_eq_zero.2 e12).symm
    have e' : (wetLag fun x => J1 x - J x) = fun p q r s => wetLag J1 p q r s - wetLag J p q r s := by
      funext p q r s; exact wetLag_sub _ _ _ _ _ _
    rw [e, e', anti_sub]
  have hph : ∀ g a, (exLeg g a).Phys := fun _ _ _ => rfl
  have hl : ∀ g a, (exLeg g a).Light := fun _ _ h => nomatch h
  refine ⟨fierzL, exLL, D2, oneS "ll" llT, J, exLeg 0 2, exLeg 0 0, exLeg 2 3, exLeg 2 1, fierzL_listing, exLL_wf, exLL_flat, exLL_full, h2, hfull,
    hph _ _, hph _ _, hph _ _, hph _ _, hl _ _, hl _ _, hl _ _, hl _ _, fun e => ?_⟩
  have k := C73_lagrangian_partial (V := 1) exLL_wf exLL_flat exLL_full h1 rfl default_physical.GF_eq default_physical.mW_eq
    default_physical.mZ_eq default_physical.alpha_eq allL_listing f1 (hph 0 2) (hph 0 0) (hph 2 3) (hph 2 1)
    (hl 0 2) (hl 0 0) (hl 2 3) (hl 2 1)
  rw [← k] at e
  exact llK_value (by rw [← hdiff, e, sub_self])

/-- C73 for the same input with all operators listed: electrons and taus scatter. -/
example : ∃ D J, warsawUpToJms (fun _ _ _ _ => 1) allL defaultPar exLL 91 none = .ok D ∧ WetFull allL D J ∧
    (wetLag J).anti (exLeg 0 2) (exLeg 0 0) (exLeg 2 3) (exLeg 2 1) ≠ 0 := by
  obtain ⟨D, J, h, f, t⟩ := one_match 1 allL exLL_wf exLL_flat exLL_full (one_noShift exLL_full fun _ => by simp [llT])
  simp only [rotateRule_one] at t
  obtain ⟨z, zn, ze⟩ := exLL_rules
  have hne : ∀ o ∈ wetOps, o.name = "VnueLL" → o.k1 = .nu ∧ o.k2 = .nu ∧ o.k3 = .e ∧ o.k4 = .e := by
    have h2 : (wetOps.all fun o => decide (o.name = "VnueLL" → o.k1 = .nu ∧ o.k2 = .nu ∧ o.k3 = .e ∧ o.k4 = .e)) = true := by
      decide +kernel
    exact fun o ho => of_decide_eq_true (List.all_eq_true.mp h2 o ho)
  refine ⟨D, J, h, f, fun e => llK_value ?_⟩
  rw [← e, wetLag_anti, wetLag_anti]
  refine congrArg List.sum (List.map_congr_left fun o ho => ?_)
  by_cases hn : o.name = "VnueLL"
  · obtain ⟨e1, e2, e3, e4⟩ := hne o ho hn
    have a0 : ∀ f : Ix4 → ℂ, am o.k1 o.k2 o.k3 o.k4 o.dir o.col f (exLeg 0 2) (exLeg 0 0) (exLeg 2 3) (exLeg 2 1) = 0 := fun f => by
      rw [e1, e2, e3, e4]; simp [am, Four.anti, mono, exLeg]
    have b0 : ∀ f : Ix4 → ℂ, ah o.k1 o.k2 o.k3 o.k4 o.dir o.col f (exLeg 0 2) (exLeg 0 0) (exLeg 2 3) (exLeg 2 1) = 0 := fun f => by
      rw [e1, e2, e3, e4]; simp [ah, Four.anti, Four.adj, mono, exLeg]
    rw [a0, a0, b0, b0]
  · have : tens llK o.name = tens J o.name := by
      rw [t o ho]
      by_cases h1 : o.name ∈ ["VnunuLL", "VeeLL"]
      · funext i
        have ek : tens llK o.name i = llT i := (if_pos h1).trans (by simp [oneS])
        rw [ek]
        simp only [List.mem_cons, List.not_mem_nil, or_false] at h1
        rcases h1 with h1 | h1 <;> rw [h1]
        · rw [zn]
        · rw [ze]
      · rw [z o ho (by simp only [List.mem_cons, List.not_mem_nil, or_false] at h1 ⊢; tauto)]
        funext i
        exact if_neg h1
    rw [this]

end Verif
