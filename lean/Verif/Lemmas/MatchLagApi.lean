import Verif.Lemmas.MatchLagRot
import Verif.Lemmas.MatchEW

/-! From the coefficients that `match_all` reads and returns to the tensors of the Lagrangians. -/

set_option autoImplicit false

namespace Verif

open Spec

/-! ### The Warsaw coefficients -/

section

variable {d : Dict String ℂ} {S : JSrc → ℂ}

theorem full_arr (hS : SmeftFull d S) {k : String} {op : Op} (ho : IsOp k op) (hb : op ≠ .boson) :
    fullArr d k op = arrOf op fun i => S (k, i) := by
  refine complete_indep ?_ ⟨_, rfl⟩ fun i hi => ?_
  · cases op with
    | boson => exact absurd rfl hb
    | two x y => exact ⟨_, rfl, fun c hc => hS.rel2 k x y c ho hc⟩
    | four x y z w => exact ⟨_, rfl, fun c hc => hS.rel4 k x y z w c ho hc⟩
  · rw [fn_arrOf (indep_length hi)]
    exact (hS.listed k op i ho hi).symm

theorem full_mt (hS : SmeftFull d S) {k : String} {x y : Slot} (ho : IsOp k (.two x y)) :
    (flatSrc d).mt k = fun i => S (k, [i.1, i.2]) := by
  unfold flatSrc
  dsimp only
  rw [opOf_eq ho]
  dsimp only
  rw [full_arr hS ho (by simp)]
  rfl

theorem full_tn (hS : SmeftFull d S) {k : String} {x y z w : Slot} (ho : IsOp k (.four x y z w)) :
    (flatSrc d).tn k = tens S k := by
  unfold flatSrc
  dsimp only
  rw [opOf_eq ho]
  dsimp only
  rw [full_arr hS ho (by simp)]
  rfl

theorem full_phiWB (hS : SmeftFull d S) : (flatSrc d).phiWB = (S ("phiWB", [])).re := by
  rw [hS.listed "phiWB" .boson [] (by decide +kernel) trivial]
  rfl

/-- The fermion content of the four-fermion operators. -/
def WOp.op (o : WOp) : Op := .four (b o.f1) (n o.f2) (b o.f3) (n o.f4)

theorem warsaw_isOp : ∀ o ∈ warsawOps, IsOp o.name (WOp.op o) := by
  have h : (warsawOps.all fun o => opTable.any fun p => decide (p.1 = WOp.op o ∧ o.name ∈ p.2)) = true := by decide +kernel
  intro o ho
  obtain ⟨p, hp, h2⟩ := List.any_eq_true.mp (List.all_eq_true.mp h o ho)
  obtain ⟨h3, h4⟩ := of_decide_eq_true h2
  exact ⟨p.2, by rw [← h3]; exact hp, h4⟩

/-- The Lagrangian only depends on the tensors of the operators. -/
theorem tree_congr {S S' : JSrc → ℂ} (h4 : ∀ o ∈ warsawOps, tens S o.name = tens S' o.name)
    (h2 : ∀ k ∈ ["phil1", "phil3", "phie", "phiq1", "phiq3", "phiu", "phid", "phiud"], ∀ p r, S (k, [p, r]) = S' (k, [p, r]))
    (c : Couplings) : treeLag S c = treeLag S' c := by
  have e1 : contactLag S = contactLag S' := by
    funext p q r s
    unfold contactLag
    refine congrArg List.sum (List.map_congr_left fun o ho => ?_)
    have : o.lag S = o.lag S' := by funext p q r s; unfold WOp.lag; rw [h4 o ho]
    rw [this]
  simp only [List.forall_mem_cons] at h2
  obtain ⟨a1, a2, a3, a4, a5, a6, a7, a8, -⟩ := h2
  have e2 : zCoup S c = zCoup S' c := by
    funext ⟨A, k⟩ i
    unfold zCoup
    cases A <;> cases k <;> simp only [zNames, shift, Option.elim, a1, a2, a3, a4, a5, a6, a7]
  have e3 : wCoup S c = wCoup S' c := by
    funext ⟨A, k, k'⟩ i
    cases A <;> cases k <;> simp only [wCoup, a2, a5, a8]
  funext p q r s
  unfold treeLag zLag wLag
  rw [e1, e2, e3]

theorem tree_src (hS : SmeftFull d S) (c : Couplings) : treeLag (srcJ (flatSrc d)) c = treeLag S c := by
  refine tree_congr (fun o ho => ?_) ?_ c
  · rw [tens_srcJ]
    exact full_tn hS (warsaw_isOp o ho)
  · have h1 : ∀ k ∈ ["phil1", "phil3", "phie", "phiq1", "phiq3", "phiu", "phid", "phiud"], ∃ x y, IsOp k (.two x y) := by
      have : ∀ k ∈ ["phil1", "phil3", "phie", "phiq1", "phiq3", "phiu", "phid", "phiud"], ∃ f ∈ [Fld.l, .e, .q, .u], ∃ g ∈ [Fld.l, .e, .q, .u, .d],
          IsOp k (.two (b f) (n g)) ∨ IsOp k (.two (b g) (n g)) := by decide +kernel
      intro k hk
      obtain ⟨f, -, g, -, h | h⟩ := this k hk
      · exact ⟨_, _, h⟩
      · exact ⟨_, _, h⟩
    intro k hk p r
    obtain ⟨x, y, ho⟩ := h1 k hk
    exact congrFun (full_mt hS ho) (p, r)

theorem tree_zero (S0 : Src) (c : Couplings) : treeLag (srcJ S0.zero) c = treeLag (fun _ => 0) c := by
  refine tree_congr (fun o _ => rfl) (fun k _ p r => rfl) c

end

/-! ### Couplings -/

theorem divE_inv {x y z : ℝ} (h : divE x y = .ok z) : z = x / y := by
  unfold divE at h
  split_ifs at h
  exact (Except.ok.inj h).symm

theorem sqrtE_inv {x z : ℝ} (h : sqrtE x = .ok z) : z = √x := by
  unfold sqrtE at h
  split_ifs at h
  exact (Except.ok.inj h).symm

theorem bind_inv {α β : Type} {x : Except PyErr α} {f : α → Except PyErr β} {z : β} (h : (x >>= f) = .ok z) :
    ∃ a, x = .ok a ∧ f a = .ok z := by
  cases x with
  | error e => cases h
  | ok a => exact ⟨a, rfl, h⟩

theorem pure_inv {α : Type} {x y : α} (h : (pure x : Except PyErr α) = .ok y) : y = x := (Except.ok.inj h).symm

section

variable {S : Src} {p : Par} {GF mW mZ α : ℝ} {T : JSrc → ℂ}

/-- The couplings that the formulas use. -/
theorem coup_eq (hG : Dict.find p "GF" = some GF) (hW : Dict.find p "m_W" = some mW) (hZ : Dict.find p "m_Z" = some mZ)
    (hA : Dict.find p "alpha_e" = some α) (h1 : T ("ll", [1, 0, 0, 1]) = S.tn "ll" (1, 0, 0, 1))
    (h2 : T ("ll", [0, 1, 1, 0]) = S.tn "ll" (0, 1, 1, 0)) (h3 : T ("phil3", [1, 1]) = S.mt "phil3" (1, 1))
    (h4 : T ("phil3", [0, 0]) = S.mt "phil3" (0, 0)) (h5 : (T ("phiWB", [])).re = S.phiWB) {w : EW} (h : ewOf S p = .ok w) :
    coup w = couplings GF mW mZ α T := by
  have gG := Dict.get_of_find hG
  have gW := Dict.get_of_find hW
  have gZ := Dict.get_of_find hZ
  have gA := Dict.get_of_find hA
  set v := √(1 / √2 / ‖(GF : ℂ) - ((√2 / 4 : ℝ) : ℂ) *
    (-T ("ll", [1, 0, 0, 1]) - T ("ll", [0, 1, 1, 0]) + 2 * T ("phil3", [1, 1]) + 2 * T ("phil3", [0, 0]))‖) with hv
  have iv : ∀ {x}, vT S p = .ok x → x = v := by
    intro x hx
    unfold vT at hx
    rw [gG, ok_bind] at hx
    dsimp only at hx
    obtain ⟨y, k1, k2⟩ := bind_inv hx
    rw [sqrtE_inv k2, divE_inv k1, hv, h1, h2, h3, h4]
  set ε := (T ("phiWB", [])).re * v ^ 2 with hε
  have iε : ∀ {x}, eps S p = .ok x → x = ε := by
    intro x hx
    unfold eps at hx
    obtain ⟨y, k1, k2⟩ := bind_inv hx
    rw [pure_inv k2, iv k1, hε, h5]
  set g2 := 2 * mW / v with hg2
  have i2 : ∀ {x}, g2b S p = .ok x → x = g2 := by
    intro x hx
    unfold g2b at hx
    rw [gW, ok_bind] at hx
    obtain ⟨y, k1, k2⟩ := bind_inv hx
    rw [divE_inv k2, iv k1]
  set e := √(4 * Real.pi * α) with he
  set g1 := e * g2 / √(g2 ^ 2 - e ^ 2) + e ^ 2 * g2 / (g2 ^ 2 - e ^ 2) * ε with hg1
  have i1 : ∀ {x}, g1b S p = .ok x → x = g1 := by
    intro x hx
    unfold g1b at hx
    rw [gA, ok_bind] at hx
    obtain ⟨y1, k1, hx⟩ := bind_inv hx
    obtain ⟨y2, k2, hx⟩ := bind_inv hx
    obtain ⟨y3, k3, hx⟩ := bind_inv hx
    obtain ⟨y4, k4, hx⟩ := bind_inv hx
    obtain ⟨y5, k5, hx⟩ := bind_inv hx
    obtain ⟨y6, k6, hx⟩ := bind_inv hx
    rw [pure_inv hx, divE_inv k4, divE_inv k5, iε k6, sqrtE_inv k3, i2 k2, sqrtE_inv k1]
  set sW := g1 / √(g1 ^ 2 + g2 ^ 2) * (1 + ε / 2 * g2 / g1 * ((g2 ^ 2 - g1 ^ 2) / (g1 ^ 2 + g2 ^ 2))) with hsW
  have iS : ∀ {x}, sb S p = .ok x → x = sW := by
    intro x hx
    unfold sb at hx
    obtain ⟨y1, k1, hx⟩ := bind_inv hx
    obtain ⟨y2, k2, hx⟩ := bind_inv hx
    obtain ⟨y3, k3, hx⟩ := bind_inv hx
    obtain ⟨y4, k4, hx⟩ := bind_inv hx
    obtain ⟨y5, k5, hx⟩ := bind_inv hx
    obtain ⟨y6, k6, hx⟩ := bind_inv hx
    obtain ⟨y7, k7, hx⟩ := bind_inv hx
    rw [pure_inv hx, divE_inv k5, divE_inv k6, divE_inv k7, iε k4, sqrtE_inv k3, i2 k2, i1 k1]
  set cW := g2 / √(g1 ^ 2 + g2 ^ 2) * (1 - ε / 2 * g1 / g2 * ((g2 ^ 2 - g1 ^ 2) / (g1 ^ 2 + g2 ^ 2))) with hcW
  have iC : ∀ {x}, cb S p = .ok x → x = cW := by
    intro x hx
    unfold cb at hx
    obtain ⟨y1, k1, hx⟩ := bind_inv hx
    obtain ⟨y2, k2, hx⟩ := bind_inv hx
    obtain ⟨y3, k3, hx⟩ := bind_inv hx
    obtain ⟨y4, k4, hx⟩ := bind_inv hx
    obtain ⟨y5, k5, hx⟩ := bind_inv hx
    obtain ⟨y6, k6, hx⟩ := bind_inv hx
    obtain ⟨y7, k7, hx⟩ := bind_inv hx
    rw [pure_inv hx, divE_inv k5, divE_inv k6, divE_inv k7, iε k4, sqrtE_inv k3, i2 k2, i1 k1]
  set ebar := g2 * sW - 1 / 2 * cW * g2 * ε with hebar
  have iE : ∀ {x}, eb S p = .ok x → x = ebar := by
    intro x hx
    unfold eb at hx
    obtain ⟨y1, k1, hx⟩ := bind_inv hx
    obtain ⟨y2, k2, hx⟩ := bind_inv hx
    obtain ⟨y3, k3, hx⟩ := bind_inv hx
    obtain ⟨y4, k4, hx⟩ := bind_inv hx
    rw [pure_inv hx, i2 k1, iS k2, iC k3, iv k4, hebar, hε, h5]
    ring
  have iz : ∀ {x}, gzb S p = .ok x → x = ebar / (sW * cW) * (1 + (g1 ^ 2 + g2 ^ 2) / (2 * g1 * g2) * ε) := by
    intro x hx
    unfold gzb at hx
    obtain ⟨y1, k1, hx⟩ := bind_inv hx
    obtain ⟨y2, k2, hx⟩ := bind_inv hx
    obtain ⟨y3, k3, hx⟩ := bind_inv hx
    obtain ⟨y4, k4, hx⟩ := bind_inv hx
    obtain ⟨y5, k5, hx⟩ := bind_inv hx
    obtain ⟨y6, k6, hx⟩ := bind_inv hx
    obtain ⟨y7, k7, hx⟩ := bind_inv hx
    obtain ⟨y8, k8, hx⟩ := bind_inv hx
    rw [pure_inv hx, divE_inv k7, divE_inv k8, iE k1, iS k2, iC k3, i1 k4, i2 k5, iv k6, hε, h5]
    ring
  unfold ewOf at h
  obtain ⟨y1, k1, h⟩ := bind_inv h
  obtain ⟨y2, k2, h⟩ := bind_inv h
  obtain ⟨y3, k3, h⟩ := bind_inv h
  obtain ⟨y4, k4, h⟩ := bind_inv h
  obtain ⟨y5, k5, h⟩ := bind_inv h
  rw [gW, ok_bind, gZ, ok_bind] at h
  obtain ⟨y6, k6, h⟩ := bind_inv h
  obtain ⟨y7, k7, h⟩ := bind_inv h
  rw [pure_inv h, iv k1, i2 k2, iS k3, iC k4, iz k5]
  rfl

end

/-! ### The tensors before and after the rotation -/

/-- The tensor of a matching condition. -/
noncomputable def ruleT (S : Src) (w : EW) (k : String) : Ix4 → ℂ :=
  match Dict.find fourRules k with
  | some f => match f S w with
    | .ten T => T
    | _ => 0
  | none => 0

/-- The same by name and indices. -/
noncomputable def ruleJ (S : Src) (w : EW) : JSrc → ℂ := fun x =>
  match x.2 with
  | [p, r, s, t] => ruleT S w x.1 (p, r, s, t)
  | _ => 0

/-- What `match_all` computes for an operator. -/
noncomputable def matchJ (V : M3) (S : Src) (w w0 : EW) : JSrc → ℂ := fun x =>
  match x.2 with
  | [p, r, s, t] => rotateRule V x.1 (ruleT S w x.1 - ruleT S.zero w0 x.1) (p, r, s, t)
  | _ => 0

theorem four_names : fourRules.map Prod.fst = (wetNames.drop 9).take 57 := rfl

theorem four_wf : Dict.WF fourRules := by
  unfold Dict.WF Dict.keys
  rw [four_names]
  decide +kernel

theorem four_sub : ∀ x ∈ fourRules, x ∈ matchRules := by
  intro x hx
  unfold fourRules at hx
  unfold matchRules
  simp only [List.mem_append] at hx ⊢
  rcases hx with ((h | h) | h) | h
  · exact .inl (.inl (.inl (.inl (.inr h))))
  · exact .inl (.inl (.inl (.inr h)))
  · exact .inl (.inl (.inr h))
  · exact .inl (.inr h)

theorem four_ten (S : Src) (w : EW) : ∀ x ∈ fourRules, ∃ T, x.2 S w = .ten T := by
  simp [fourRules, rulesLL, rulesRR, rulesLR, rulesScalar]

theorem ruleT_eq (S : Src) (w : EW) : ∀ x ∈ fourRules, x.2 S w = .ten (ruleT S w x.1) := by
  intro x hx
  have h : Dict.find fourRules x.1 = some x.2 := Dict.find_of_mem four_wf hx
  obtain ⟨T, hT⟩ := four_ten S w x hx
  unfold ruleT
  rw [h]
  dsimp only
  rw [hT]

theorem wet_four : ∀ o ∈ wetOps, ∃ f, (o.name, f) ∈ fourRules := by
  have h : (wetOps.all fun o => decide (o.name ∈ (wetNames.drop 9).take 57)) = true := by decide +kernel
  intro o ho
  have h1 := of_decide_eq_true (List.all_eq_true.mp h o ho)
  rw [← four_names] at h1
  obtain ⟨⟨k, f⟩, hm, rfl⟩ := List.mem_map.1 h1
  exact ⟨f, hm⟩

theorem tens_matchJ (V : M3) (S : Src) (w w0 : EW) (k : String) :
    tens (matchJ V S w w0) k = rotateRule V k (tens (fun x => ruleJ S w x - ruleJ S.zero w0 x) k) := rfl

/-! ### Linearity -/

theorem mono_sub (k1 k2 k3 k4 : Kind) (D : Dir) (c : Col) (f g : Ix4 → ℂ) (p q r s : Leg) :
    mono k1 k2 k3 k4 D c (f - g) p q r s = mono k1 k2 k3 k4 D c f p q r s - mono k1 k2 k3 k4 D c g p q r s := by
  unfold mono
  split_ifs
  · simp only [Pi.sub_apply]; ring
  · simp

theorem adj_sub (T U : Four) (p q r s : Leg) :
    Four.adj (fun p q r s => T p q r s - U p q r s) p q r s = T.adj p q r s - U.adj p q r s := by
  rw [adj_eq, adj_eq, adj_eq, map_sub]

theorem sum_map_sub' {ι : Type} (l : List ι) (f g : ι → ℂ) : (l.map fun i => f i - g i).sum = (l.map f).sum - (l.map g).sum := by
  induction l with
  | nil => simp
  | cons a l ih => simp only [List.map_cons, List.sum_cons, ih]; ring

theorem wetLag_sub (J K : JSrc → ℂ) (p q r s : Leg) :
    wetLag (fun x => J x - K x) p q r s = wetLag J p q r s - wetLag K p q r s := by
  unfold wetLag
  rw [← sum_map_sub']
  refine congrArg List.sum (List.map_congr_left fun o _ => ?_)
  have h : o.mono (fun x => J x - K x) = fun p q r s => o.mono J p q r s - o.mono K p q r s := by
    funext p q r s
    exact mono_sub _ _ _ _ _ _ _ _ p q r s
  rw [h]
  split_ifs
  · ring
  · rw [adj_sub]; ring

theorem anti_sub (T U : Four) (p q r s : Leg) :
    Four.anti (fun p q r s => T p q r s - U p q r s) p q r s = T.anti p q r s - U.anti p q r s := by
  unfold Four.anti; ring

/-- The Lagrangian of the tensors that `match_all` computes. -/
theorem match_lag (V : M3) (S : Src) (w w0 : EW) (hl : hc (S.tn "lq3") = S.tn "lq3") {p q r s : Leg} (hp : p.Phys)
    (hq : q.Phys) (hr : r.Phys) (hs : s.Phys) : (wetLag (matchJ V S w w0)).anti p q r s =
      (Four.rotL V fun p q r s => treeLag (srcJ S) (coup w) p q r s - treeLag (srcJ S.zero) (coup w0) p q r s).anti p q r s := by
  have h0 : tens (fun x => ruleJ S w x - ruleJ S.zero w0 x) "S8ddRR" = 0 := by
    have h : ("S8ddRR", fun (_ : Src) (_ : EW) => Arr.ten 0) ∈ fourRules := by simp [fourRules, rulesScalar]
    have e := fun S w => Arr.ten.inj (ruleT_eq S w _ h)
    funext i
    change ruleT S w "S8ddRR" i - ruleT S.zero w0 "S8ddRR" i = 0
    rw [← e, ← e]
    simp
  rw [wetLag_rot V h0 fun o _ => tens_matchJ V S w w0 o.name, rotL_anti, rotL_anti]
  refine rotL_congr V (fun p q r s hp hq hr hs => ?_) hp hq hr hs
  have e : wetLag (fun x => ruleJ S w x - ruleJ S.zero w0 x) = fun p q r s => wetLag (ruleJ S w) p q r s - wetLag (ruleJ S.zero w0) p q r s := by
    funext p q r s
    exact wetLag_sub _ _ p q r s
  rw [e, anti_sub, anti_sub, tree_match (J := ruleJ S w) (fun x hx => (ruleT_eq S w x hx).symm) hl hp hq hr hs,
    tree_match (J := ruleJ S.zero w0) (fun x hx => (ruleT_eq S.zero w0 x hx).symm) hc_zero hp hq hr hs]

/-! ### Relations of the result -/

/-- Conjugate transpose. -/
noncomputable def hm (A : Ix2 → ℂ) : Ix2 → ℂ := fun i => starRingEnd ℂ (A (i.2, i.1))

theorem hc_prst (A B : Ix2 → ℂ) : hc (epr_st A B) = epr_st (hm A) (hm B) := by
  funext ⟨a, b, c, d⟩; simp only [hc, epr_st, hm, map_mul]

theorem hc_ptsr (A B : Ix2 → ℂ) : hc (ept_sr A B) = ept_sr (hm B) (hm A) := by
  funext ⟨a, b, c, d⟩; simp only [hc, ept_sr, hm, map_mul]; ring

theorem hc_ptrs (A : Ix2 → ℂ) : hc (ept_rs A (cj A)) = ept_rs A (cj A) := by
  funext ⟨a, b, c, d⟩; simp only [hc, ept_rs, cj, map_mul, Complex.conj_conj]; ring

theorem hc_stpr (f : Ix4 → ℂ) : hc (estpr f) = estpr (hc f) := rfl

theorem hc_eptsr (f : Ix4 → ℂ) : hc (eptsr f) = esrpt (hc f) := rfl

theorem hc_esrpt (f : Ix4 → ℂ) : hc (esrpt f) = eptsr (hc f) := rfl

theorem kz_real (w : EW) (n : ℝ) : starRingEnd ℂ (w.kz n) = w.kz n := by unfold EW.kz; rw [Complex.conj_ofReal]

theorem v2_real (w : EW) : starRingEnd ℂ w.v2 = w.v2 := by unfold EW.v2; rw [Complex.conj_ofReal]

theorem hm_eye (x : ℝ) : hm (eyeT x) = eyeT x := by
  funext ⟨a, b⟩
  simp only [hm, eyeT]
  by_cases h : a = b
  · rw [if_pos h, if_pos h.symm, Complex.conj_ofReal]
  · rw [if_neg h, if_neg fun e => h e.symm, map_zero]

theorem hm_add (A B : Ix2 → ℂ) : hm (A + B) = hm A + hm B := by funext i; simp [hm]
theorem hm_sub (A B : Ix2 → ℂ) : hm (A - B) = hm A - hm B := by funext i; simp [hm]
theorem hm_smul (x : ℂ) (A : Ix2 → ℂ) : hm (x • A) = (starRingEnd ℂ x) • hm A := by funext i; simp [hm]

/-- The relations of the input that the relations of the result follow from. -/
structure HermSrc (S : Src) : Prop where
  mt : ∀ k ∈ ["phil1", "phil3", "phie", "phiq1", "phiq3", "phiu", "phid"], hm (S.mt k) = S.mt k
  tn : ∀ k ∈ ["ll", "qq1", "qq3", "lq1", "lq3", "ee", "uu", "dd", "eu", "ed", "ud1", "ud8", "le", "lu", "ld", "qe", "qu1", "qu8",
    "qd1", "qd8"], hc (S.tn k) = S.tn k
  ex : ∀ k ∈ ["ll", "qq1", "qq3", "ee", "uu", "dd"], estpr (S.tn k) = S.tn k

theorem hermSrc_zero (S : Src) : HermSrc S.zero :=
  ⟨fun k _ => by funext i; simp [hm, Src.zero], fun k _ => by funext i; simp [hc, Src.zero], fun k _ => rfl⟩

theorem stpr_add (f g : Ix4 → ℂ) : estpr (f + g) = estpr f + estpr g := rfl
theorem stpr_sub (f g : Ix4 → ℂ) : estpr (f - g) = estpr f - estpr g := rfl
theorem stpr_smul (x : ℂ) (f : Ix4 → ℂ) : estpr (x • f) = x • estpr f := rfl
theorem stpr_zero : estpr 0 = 0 := rfl

theorem stpr_ptsr (A : Ix2 → ℂ) : estpr (ept_sr A A) = ept_sr A A := by
  funext ⟨a, b, c, d⟩; simp only [estpr, ept_sr]; ring

section

variable {S : Src} (h : HermSrc S) (w : EW)
include h

theorem hm_couplings : hm (znu S w) = znu S w ∧ hm (zel S w) = zel S w ∧ hm (zer S w) = zer S w ∧ hm (zul S w) = zul S w ∧
    hm (zur S w) = zur S w ∧ hm (zdl S w) = zdl S w ∧ hm (zdr S w) = zdr S w := by
  have h2 := h.mt
  simp only [List.forall_mem_cons] at h2
  obtain ⟨a1, a2, a3, a4, a5, a6, a7, -⟩ := h2
  refine ⟨?_, ?_, ?_, ?_, ?_, ?_, ?_⟩ <;>
    simp only [znu, zel, zer, zul, zur, zdl, zdr, hm_add, hm_sub, hm_smul, hm_eye, v2_real, a1, a2, a3, a4, a5, a6, a7]

theorem rule_herm : ∀ o ∈ wetOps, o.herm = true → hc (ruleT S w o.name) = ruleT S w o.name := by
  obtain ⟨z1, z2, z3, z4, z5, z6, z7⟩ := hm_couplings h w
  have t := h.tn
  simp only [List.forall_mem_cons] at t
  obtain ⟨t1, t2, t3, t4, t5, t6, t7, t8, t9, t10, t11, t12, t13, t14, t15, t16, t17, t18, t19, t20, -⟩ := t
  have hJ := fun x hx => (ruleT_eq S w x hx).symm
  simp only [fourRules, rulesLL, rulesRR, rulesLR, rulesScalar, List.forall_mem_append, List.forall_mem_cons, Arr.ten.injEq] at hJ
  obtain ⟨⟨⟨⟨a1, a2, a3, a4, a5, a6, a7, a8, a9, a10, a11, a12, -⟩, ⟨b1, b2, b3, b4, b5, b6, b7, -⟩⟩,
    ⟨c1, c2, c3, c4, c5, c6, c7, c8, c9, c10, c11, c12, c13, c14, c15, c16, c17, c18, c19, -⟩⟩,
    ⟨d1, d2, d3, d4, d5, d6, d7, d8, d9, d10, d11, d12, d13, d14, d15, d16, d17, d18, -, -⟩⟩ := hJ
  simp only [wetOps, jmsOps, List.cons_append, List.nil_append, List.forall_mem_cons, Bool.false_eq_true, false_imp_iff, true_imp_iff,
    true_and, a1, a2, a3, a4, a5, a6, a7, a8, a9, a10, a11, a12, b1, b2, b3, b4, b5, b6, b7, c1, c2, c3, c4, c5, c6, c7, c8, c9, c10,
    c11, c12, c13, c14, c15, c16, c17, c18, c19, d1, d2, d3, d4, d5, d6, d7, d8, d9, d10, d11, d12, d13, d14, d15, d16, d17, d18,
    hc_add, hc_sub, hc_neg, hc_zero, hc_smul, hc_prst, hc_ptsr, hc_ptrs, hc_stpr, hc_eptsr, hc_esrpt, kz_real, kw_real, map_ofNat,
    z1, z2, z3, z4, z5, z6, z7, t1, t2, t3, t4, t5, t6, t7, t8, t9, t10, t11, t12, t13, t14, t15, t16, t17, t18, t19, t20, map_div₀,
    map_one]
  simp [add_comm]
  exact add_left_comm _ _ _

theorem rule_exch : ∀ o ∈ wetOps, o.same = true → estpr (ruleT S w o.name) = ruleT S w o.name := by
  have t := h.ex
  simp only [List.forall_mem_cons] at t
  obtain ⟨t1, t2, t3, t4, t5, t6, -⟩ := t
  have hJ := fun x hx => (ruleT_eq S w x hx).symm
  simp only [fourRules, rulesLL, rulesRR, rulesLR, rulesScalar, List.forall_mem_append, List.forall_mem_cons, Arr.ten.injEq] at hJ
  obtain ⟨⟨⟨⟨a1, a2, a3, a4, a5, a6, a7, a8, a9, a10, a11, a12, -⟩, ⟨b1, b2, b3, b4, b5, b6, b7, -⟩⟩,
    ⟨c1, c2, c3, c4, c5, c6, c7, c8, c9, c10, c11, c12, c13, c14, c15, c16, c17, c18, c19, -⟩⟩,
    ⟨d1, d2, d3, d4, d5, d6, d7, d8, d9, d10, d11, d12, d13, d14, d15, d16, d17, d18, -, -⟩⟩ := hJ
  simp only [wetOps, jmsOps, List.cons_append, List.nil_append, List.forall_mem_cons, JOp.same, reduceCtorEq, decide_false, decide_true,
    Bool.false_and, Bool.and_false, Bool.true_and, Bool.false_eq_true, false_imp_iff, true_imp_iff,
    true_and, a1, a2, a3, a4, a5, a6, a7, a8, a9, a10, a11, a12, b1, b2, b3, b4, b5, b6, b7, c1, c2, c3, c4, c5, c6, c7, c8, c9, c10,
    c11, c12, c13, c14, c15, c16, c17, c18, c19, d1, d2, d3, d4, d5, d6, d7, d8, d9, d10, d11, d12, d13, d14, d15, d16, d17, d18,
    stpr_add, stpr_sub, stpr_smul, stpr_zero, estpr_zz, stpr_ptsr, t1, t2, t3, t4, t5, t6]
  simp

end

/-- Complex conjugate of the entries. -/
noncomputable def cjM (A : M3) : M3 := fun i j => starRingEnd ℂ (A i j)

theorem hc_rot (A B C D : M3) (f : Ix4 → ℂ) : hc (rot4 A B C D f) = rot4 (cjM B) (cjM A) (cjM D) (cjM C) (hc f) := by
  funext ⟨a, b, c, d⟩
  simp only [hc, rot4, cjM, map_sum, map_mul]
  rw [sum_swap4]
  refine Finset.sum_congr rfl fun a _ => Finset.sum_congr rfl fun b _ => Finset.sum_congr rfl fun c _ =>
    Finset.sum_congr rfl fun d _ => ?_
  ring

theorem stpr_rot (A B C D : M3) (f : Ix4 → ℂ) : estpr (rot4 A B C D f) = rot4 C D A B (estpr f) := by
  funext ⟨a, b, c, d⟩
  simp only [estpr, rot4]
  rw [sum_swap13, sum_swap24]
  refine Finset.sum_congr rfl fun a _ => Finset.sum_congr rfl fun b _ => Finset.sum_congr rfl fun c _ =>
    Finset.sum_congr rfl fun d _ => ?_
  ring

/-- The mark of the conjugate field. -/
def Mark.cj : Mark → Mark
  | .one => .one
  | .v => .vc
  | .vc => .v

theorem cjM_mark (V : M3) (m : Mark) : cjM (m.mat V) = m.cj.mat V := by
  cases m with
  | one => funext i j; simp only [cjM, Mark.mat, Mark.cj, one_mat]; split_ifs <;> simp
  | v => rfl
  | vc => funext i j; exact Complex.conj_conj _

theorem marks_herm : ∀ o ∈ wetOps, o.herm = true → (codeMarks o.name).1 = (codeMarks o.name).2.1.cj ∧
    (codeMarks o.name).2.1 = (codeMarks o.name).1.cj ∧ (codeMarks o.name).2.2.1 = (codeMarks o.name).2.2.2.cj ∧
    (codeMarks o.name).2.2.2 = (codeMarks o.name).2.2.1.cj := by
  have h : (wetOps.all fun o => decide (o.herm = true → (codeMarks o.name).1 = (codeMarks o.name).2.1.cj ∧
      (codeMarks o.name).2.1 = (codeMarks o.name).1.cj ∧ (codeMarks o.name).2.2.1 = (codeMarks o.name).2.2.2.cj ∧
      (codeMarks o.name).2.2.2 = (codeMarks o.name).2.2.1.cj)) = true := by decide +kernel
  exact fun o ho => of_decide_eq_true (List.all_eq_true.mp h o ho)

theorem marks_same : ∀ o ∈ wetOps, o.same = true → (codeMarks o.name).1 = (codeMarks o.name).2.2.1 ∧
    (codeMarks o.name).2.1 = (codeMarks o.name).2.2.2 := by
  have h : (wetOps.all fun o => decide (o.same = true → (codeMarks o.name).1 = (codeMarks o.name).2.2.1 ∧
      (codeMarks o.name).2.1 = (codeMarks o.name).2.2.2)) = true := by decide +kernel
  exact fun o ho => of_decide_eq_true (List.all_eq_true.mp h o ho)

theorem match_herm (V : M3) {S : Src} (h : HermSrc S) (w w0 : EW) {o : JOp} (ho : o ∈ wetOps) (hh : o.herm = true) :
    hc (tens (matchJ V S w w0) o.name) = tens (matchJ V S w w0) o.name := by
  change hc (rotateRule V o.name (ruleT S w o.name - ruleT S.zero w0 o.name)) = rotateRule V o.name (ruleT S w o.name - ruleT S.zero w0 o.name)
  obtain ⟨m1, m2, m3, m4⟩ := marks_herm o ho hh
  rw [rotateRule_eq, hc_rot, cjM_mark, cjM_mark, cjM_mark, cjM_mark, ← m1, ← m2, ← m3, ← m4, hc_sub, rule_herm h w o ho hh,
    rule_herm (hermSrc_zero S) w0 o ho hh]

theorem match_exch (V : M3) {S : Src} (h : HermSrc S) (w w0 : EW) {o : JOp} (ho : o ∈ wetOps) (hh : o.same = true) :
    estpr (tens (matchJ V S w w0) o.name) = tens (matchJ V S w w0) o.name := by
  change estpr (rotateRule V o.name (ruleT S w o.name - ruleT S.zero w0 o.name)) = rotateRule V o.name (ruleT S w o.name - ruleT S.zero w0 o.name)
  obtain ⟨m1, m2⟩ := marks_same o ho hh
  rw [rotateRule_eq, stpr_rot, ← m1, ← m2, stpr_sub, rule_exch h w o ho hh, rule_exch (hermSrc_zero S) w0 o ho hh]

theorem hermSrc_full {d : Dict String ℂ} {S : JSrc → ℂ} (hS : SmeftFull d S) : HermSrc (flatSrc d) := by
  have c2 : ∀ k ∈ ["phil1", "phil3", "phie", "phiq1", "phiq3", "phiu", "phid"], ∃ f ∈ [Fld.l, .e, .q, .u, .d], IsOp k (.two (b f) (n f)) := by
    decide +kernel
  have c4 : ∀ k ∈ ["ll", "qq1", "qq3", "lq1", "lq3", "ee", "uu", "dd", "eu", "ed", "ud1", "ud8", "le", "lu", "ld", "qe", "qu1", "qu8",
      "qd1", "qd8"], ∃ f ∈ [Fld.l, .e, .q, .u, .d], ∃ g ∈ [Fld.l, .e, .q, .u, .d], IsOp k (.four (b f) (n f) (b g) (n g)) := by
    decide +kernel
  have c5 : ∀ k ∈ ["ll", "qq1", "qq3", "ee", "uu", "dd"], ∃ f ∈ [Fld.l, .e, .q, .u, .d], IsOp k (.four (b f) (n f) (b f) (n f)) := by
    decide +kernel
  refine ⟨fun k hk => ?_, fun k hk => ?_, fun k hk => ?_⟩
  · obtain ⟨f, -, ho⟩ := c2 k hk
    rw [full_mt hS ho]
    funext ⟨p, r⟩
    exact (hS.rel2 k _ _ .herm ho (by cases f <;> rfl) r p).symm
  · obtain ⟨f, -, g, -, ho⟩ := c4 k hk
    rw [full_tn hS ho]
    funext ⟨p, r, s, t⟩
    by_cases hfg : f = g
    · subst hfg
      by_cases he : f = .e
      · subst he
        exact ((hS.rel4 k _ _ _ _ .singlet ho (by rfl)) r p t s).1.symm
      · exact ((hS.rel4 k _ _ _ _ .twoIdentical ho (by cases f <;> first | rfl | exact absurd rfl he)) r p t s).1.symm
    · exact ((hS.rel4 k _ _ _ _ .twoDifferent ho (by cases f <;> cases g <;> first | rfl | exact absurd rfl hfg)) r p t s).symm
  · obtain ⟨f, -, ho⟩ := c5 k hk
    rw [full_tn hS ho]
    funext ⟨p, r, s, t⟩
    by_cases he : f = .e
    · subst he
      exact ((hS.rel4 k _ _ _ _ .singlet ho (by rfl)) p r s t).2.1
    · exact ((hS.rel4 k _ _ _ _ .twoIdentical ho (by cases f <;> first | rfl | exact absurd rfl he)) p r s t).2

/-! ### The tensors are determined by the listed coefficients -/

theorem wet_unique {L : List String} (hL : WetListing L) {C : Dict String ℂ} {J J' : JSrc → ℂ} (h : WetFull L C J) (h' : WetFull L C J')
    {o : JOp} (ho : o ∈ wetOps) (p r s t : Fin 3) (hl : o.Light p r s t) : J (o.name, [p, r, s, t]) = J' (o.name, [p, r, s, t]) := by
  have key : ∀ p r s t, label o.name [p, r, s, t] ∈ L → J (o.name, [p, r, s, t]) = J' (o.name, [p, r, s, t]) := fun p r s t hm => by
    rw [h.listed o ho p r s t hm, h'.listed o ho p r s t hm]
  rcases hL o ho p r s t hl with hm | ⟨hh, hm⟩ | ⟨hh, hm⟩ | ⟨hh, hx, hm⟩
  · exact key p r s t hm
  · rw [h.herm o ho hh r p t s, h'.herm o ho hh r p t s, key _ _ _ _ hm]
  · rw [h.exch o ho hh s t p r, h'.exch o ho hh s t p r, key _ _ _ _ hm]
  · rw [h.herm o ho hh r p t s, h'.herm o ho hh r p t s, h.exch o ho hx t s r p, h'.exch o ho hx t s r p, key _ _ _ _ hm]

theorem wetLag_congr {J J' : JSrc → ℂ} (h : ∀ o ∈ wetOps, tens J o.name = tens J' o.name) : wetLag J = wetLag J' := by
  funext p q r s
  unfold wetLag
  refine congrArg List.sum (List.map_congr_left fun o ho => ?_)
  have : o.mono J = o.mono J' := by unfold JOp.mono; rw [h o ho]
  rw [this]

theorem am_light {k1 k2 k3 k4 : Kind} {D : Dir} {c : Col} {f g : Ix4 → ℂ} {p q r s : Leg}
    (h : ∀ i : Ix4, k1.Light i.1 → k2.Light i.2.1 → k3.Light i.2.2.1 → k4.Light i.2.2.2 → f i = g i) (hp : p.Light) (hq : q.Light) (hr : r.Light)
    (hs : s.Light) : am k1 k2 k3 k4 D c f p q r s = am k1 k2 k3 k4 D c g p q r s ∧
      ah k1 k2 k3 k4 D c f p q r s = ah k1 k2 k3 k4 D c g p q r s := by
  have key : ∀ p q r s : Leg, p.Light → q.Light → r.Light → s.Light → mono k1 k2 k3 k4 D c f p q r s = mono k1 k2 k3 k4 D c g p q r s := by
    intro p q r s hp hq hr hs
    unfold mono
    split_ifs with e
    · obtain ⟨rfl, rfl, rfl, rfl⟩ := e
      rw [h (p.gen, q.gen, r.gen, s.gen) hp hq hr hs]
    · rfl
  have key2 : ∀ p q r s : Leg, p.Light → q.Light → r.Light → s.Light →
      (mono k1 k2 k3 k4 D c f).adj p q r s = (mono k1 k2 k3 k4 D c g).adj p q r s := by
    intro p q r s hp hq hr hs
    unfold Four.adj
    refine Finset.sum_congr rfl fun _ _ => Finset.sum_congr rfl fun _ _ => Finset.sum_congr rfl fun _ _ => Finset.sum_congr rfl fun _ _ => ?_
    congr 2
    exact key _ _ _ _ hq hp hs hr
  constructor
  · unfold am Four.anti
    rw [key p q r s hp hq hr hs, key r q p s hr hq hp hs, key p s r q hp hs hr hq, key r s p q hr hs hp hq]
  · unfold ah Four.anti
    rw [key2 p q r s hp hq hr hs, key2 r q p s hr hq hp hs, key2 p s r q hp hs hr hq, key2 r s p q hr hs hp hq]

theorem wetLag_light {J J' : JSrc → ℂ} (h : ∀ o ∈ wetOps, ∀ p r s t, o.Light p r s t → J (o.name, [p, r, s, t]) = J' (o.name, [p, r, s, t]))
    {p q r s : Leg} (hp : p.Light) (hq : q.Light) (hr : r.Light) (hs : s.Light) :
    (wetLag J).anti p q r s = (wetLag J').anti p q r s := by
  rw [wetLag_anti, wetLag_anti]
  refine congrArg List.sum (List.map_congr_left fun o ho => ?_)
  obtain ⟨e1, e2⟩ := am_light (D := o.dir) (c := o.col) (f := tens J o.name) (g := tens J' o.name)
    (fun i h1 h2 h3 h4 => h o ho i.1 i.2.1 i.2.2.1 i.2.2.2 ⟨h1, h2, h3, h4⟩) hp hq hr hs
  rw [e1, e2]

end Verif
