import Verif.Lemmas.Bnv
import Verif.Props.MatchWarsaw

/-! C87: operators that violate baryon number in the matching from SMEFT to WET. -/

set_option autoImplicit false

namespace Verif

open Spec

theorem bnv_isOp : IsOp "duql" (.four (n .d) (n .u) (n .q) (n .l)) ∧ IsOp "qque" (.four (n .q) (n .q) (n .u) (n .e)) ∧
    IsOp "qqql" (.four (n .q) (n .q) (n .q) (n .l)) ∧ IsOp "duue" (.four (n .d) (n .u) (n .u) (n .e)) := by decide +kernel

section

variable {ckm : ℝ → ℝ → ℝ → ℝ → M3} {L : List String} {default : Par} {d D : Dict String ℂ} {scale : ℝ} {par : Option Par} {V : M3}
  {S : JSrc → ℂ}

/-- Tensors of the coefficients that the matching returns. -/
noncomputable def bnvT (S : JSrc → ℂ) : String → Ix4 → ℂ
  | "SuddLL" => fun i => -tens S "qqql" i - fSwap (tens S "qqql") i
  | "SduuLL" => fun i => -tens S "qqql" i - fSwap (tens S "qqql") i
  | "SduuLR" => fun i => -tens S "qque" i - fSwap (tens S "qque") i
  | "SduuRL" => tens S "duql"
  | "SdudRL" => fun i => -tens S "duql" i
  | "SduuRR" => tens S "duue"
  | _ => 0

theorem bnv_value (hw : Dict.WF d) (hd : ∀ key ∈ Dict.keys d, IsFlat key) (hS : SmeftFull d S)
    (h : warsawUpToJms ckm L default d scale par = .ok D) {k : String} (hk : k ∈ bnvOps.map BvOp.name ++ bnvAnti) (i : Ix4)
    (hl : label k [i.1, i.2.1, i.2.2.1, i.2.2.2] ∈ L) : Dict.getD D (label k [i.1, i.2.1, i.2.2.1, i.2.2.2]) 0 = bnvT S k i := by
  obtain ⟨w, w0, V', -, -, -, rfl⟩ := matchAll_inv hw hd h
  obtain ⟨o1, o2, o3, o4⟩ := bnv_isOp
  have t1 := full_tn hS o1
  have t2 := full_tn hS o2
  have t3 := full_tn hS o3
  have t4 := full_tn hS o4
  have go : ∀ {f : Src → EW → Arr}, (k, f) ∈ rulesBL → ∀ T T0, f (flatSrc d) w = .ten T → f (flatSrc d).zero w0 = .ten T0 →
      rotateRule V' k (T - T0) = T - T0 →
      Dict.getD (Dict.filt (fun k _ => decide (k ∈ L)) (arrays2wcxf (matched V' (flatSrc d) w w0))) (label k [i.1, i.2.1, i.2.2.1, i.2.2.2]) 0 =
        T i - T0 i := by
    intro f hf T T0 h1 h2 h3
    rw [getD_matched (f := f) (by unfold matchRules; exact List.mem_append_right _ hf) hl (X := .ten (T - T0))
      (by rw [h1, h2]; change Arr.ten (rotateRule V' k (T - T0)) = _; rw [h3]) (List.mem_map.2 ⟨i, mem_ix4s _, rfl⟩)]
    rfl
  have hz : ∀ k, (flatSrc d).zero.tn k = 0 := fun k => rfl
  simp only [bnvOps, bnvAnti, List.map_cons, List.map_nil, List.cons_append, List.nil_append, List.mem_cons, List.not_mem_nil, or_false] at hk
  rcases hk with rfl | rfl | rfl | rfl | rfl | rfl | rfl | rfl | rfl | rfl | rfl | rfl | rfl | rfl | rfl | rfl
  · rw [go (f := fun C _ => .ten (-C.tn "qqql" - erpst (C.tn "qqql"))) (by simp [rulesBL]) _ _ rfl rfl rfl, t3, hz]
    simp [bnvT, erpst, fSwap]
  · rw [go (f := fun C _ => .ten (-C.tn "qqql" - erpst (C.tn "qqql"))) (by simp [rulesBL]) _ _ rfl rfl rfl, t3, hz]
    simp [bnvT, erpst, fSwap]
  · rw [go (f := fun _ _ => .ten 0) (by simp [rulesBL]) _ _ rfl rfl rfl]
    simp [bnvT]
  · rw [go (f := fun C _ => .ten (-C.tn "qque" - erpst (C.tn "qque"))) (by simp [rulesBL]) _ _ rfl rfl rfl, t2, hz]
    simp [bnvT, erpst, fSwap]
  · rw [go (f := fun _ _ => .ten 0) (by simp [rulesBL]) _ _ rfl rfl rfl]
    simp [bnvT]
  · rw [go (f := fun C _ => .ten (C.tn "duql")) (by simp [rulesBL]) _ _ rfl rfl rfl, t1, hz]
    simp [bnvT]
  · rw [go (f := fun C _ => .ten (-C.tn "duql")) (by simp [rulesBL]) _ _ rfl rfl rfl, t1, hz]
    simp [bnvT]
  · rw [go (f := fun _ _ => .ten 0) (by simp [rulesBL]) _ _ rfl rfl rfl]
    simp [bnvT]
  · rw [go (f := fun C _ => .ten (C.tn "duue")) (by simp [rulesBL]) _ _ rfl rfl rfl, t4, hz]
    simp [bnvT]
  all_goals
    rw [go (f := fun _ _ => .ten 0) (by simp [rulesBL]) _ _ rfl rfl rfl]
    simp [bnvT]

theorem alt_congr {T U : Four} {x : Fin 4 → Leg} (h : ∀ i j k l, T (x i) (x j) (x k) (x l) = U (x i) (x j) (x k) (x l)) : T.alt x = U.alt x := by
  unfold Four.alt
  exact Finset.sum_congr rfl fun σ _ => by rw [h]

/-- The Lagrangian of the returned coefficients. -/
theorem bnv_returned (hw : Dict.WF d) (hd : ∀ key ∈ Dict.keys d, IsFlat key) (hS : SmeftFull d S)
    (h : warsawUpToJms ckm L default d scale par = .ok D) (hL : BnvListing L) {x : Fin 4 → Leg} (hx : ∀ i, (x i).Light) :
    (bnvLag D).alt x = (bnvMono .u .d .d .nu .L .L (bnvT S "SuddLL")).alt x + (bnvMono .d .u .u .e .L .L (bnvT S "SduuLL")).alt x +
      (bnvMono .d .u .u .e .L .R (bnvT S "SduuLR")).alt x + (bnvMono .d .u .u .e .R .L (bnvT S "SduuRL")).alt x +
      (bnvMono .d .u .d .nu .R .L (bnvT S "SdudRL")).alt x + (bnvMono .d .u .u .e .R .R (bnvT S "SduuRR")).alt x := by
  rw [← alt_add, ← alt_add, ← alt_add, ← alt_add, ← alt_add]
  refine alt_congr fun a b c e => ?_
  have key : ∀ o ∈ bnvOps, bnvMono o.k1 o.k2 o.k3 o.k4 o.c1 o.c2 (fun i => Dict.getD D (label o.name [i.1, i.2.1, i.2.2.1, i.2.2.2]) 0)
      (x a) (x b) (x c) (x e) = bnvMono o.k1 o.k2 o.k3 o.k4 o.c1 o.c2 (bnvT S o.name) (x a) (x b) (x c) (x e) := by
    intro o ho
    unfold bnvMono
    split
    next hk =>
      obtain ⟨k1, k2, k3, k4⟩ := hk
      have lt : ∀ {i k}, (x i).kind = k → k.Light (x i).gen := fun {i k} hk => by rw [← hk]; exact hx i
      exact congrArg (· * _) (bnv_value hw hd hS h (List.mem_append_left _ (List.mem_map_of_mem ho)) ((x a).gen, (x b).gen, (x c).gen, (x e).gen)
        (hL o ho _ _ _ _ (lt k1) (lt k2) (lt k3) (lt k4)))
    · rfl
  have e1 : ∀ k1 k2 k3 k4 A B, bnvMono k1 k2 k3 k4 A B 0 (x a) (x b) (x c) (x e) = 0 := fun _ _ _ _ _ _ => by rw [mono_nil]
  unfold bnvLag
  rw [List.map_congr_left key]
  simp only [bnvOps, List.map_cons, List.map_nil, List.sum_cons, List.sum_nil, add_zero]
  have z1 : bnvT S "SuudLR" = 0 := rfl
  have z2 : bnvT S "SuudRL" = 0 := rfl
  have z3 : bnvT S "SdduRL" = 0 := rfl
  rw [z1, z2, z3, e1, e1, e1]
  ring

/-- **C87** for coefficients in the basis Warsaw up and down quarks that are not rotated to their mass basis, if the doublets of `qqql` are
contracted as `ε_jk ε_mn`: the operators that violate baryon number are matched correctly. What is missing: the rotation of the
left-handed down quarks, and the contraction for which the relations between flavours hold that the completion uses. -/
theorem C87_lagrangian_partial (hw : Dict.WF d) (hd : ∀ key ∈ Dict.keys d, IsFlat key) (hS : SmeftFull d S)
    (h : warsawUpToJms ckm L default d scale par = .ok D) (hL : BnvListing L) {x : Fin 4 → Leg} (hx : ∀ i, (x i).Light) :
    (bnvLag D).alt x = (bnvSmeft .pairs S).alt x := by
  rw [bnv_returned hw hd hS h hL hx]
  unfold bnvSmeft
  rw [alt_add, alt_add, alt_add, duql_comp, qque_comp, pairs_comp, duue_comp]
  have m : ∀ k1 k2 k3 k4 A B f, (bnvMono k1 k2 k3 k4 A B fun i => -f i - fSwap f i).alt x =
      -(bnvMono k1 k2 k3 k4 A B (fSwap f)).alt x - (bnvMono k1 k2 k3 k4 A B f).alt x := by
    intro k1 k2 k3 k4 A B f
    have := mono_lin k1 k2 k3 k4 A B (-1) (-1) f (fSwap f) x
    rw [show (fun i => -f i - fSwap f i) = fun i => -1 * f i + -1 * fSwap f i from by funext i; ring, this]
    ring
  have m1 : (bnvMono .d .u .d .nu .R .L fun i => -tens S "duql" i).alt x = -(bnvMono .d .u .d .nu .R .L (tens S "duql")).alt x := by
    rw [← alt_neg]
    congr 1
    funext p q r s
    unfold bnvMono
    split
    · ring
    · ring
  simp only [bnvT]
  rw [m, m, m, m1]
  ring

/-- **C87**: operators with three quarks and an antilepton get no contribution. -/
theorem C87_antilepton (hw : Dict.WF d) (hd : ∀ key ∈ Dict.keys d, IsFlat key) (hS : SmeftFull d S)
    (h : warsawUpToJms ckm L default d scale par = .ok D) {k : String} (hk : k ∈ bnvAnti) (p r s t : Fin 3) (hl : label k [p, r, s, t] ∈ L) :
    Dict.getD D (label k [p, r, s, t]) 0 = 0 := by
  rw [bnv_value hw hd hS h (List.mem_append_right _ hk) (p, r, s, t) hl]
  have : ∀ k ∈ bnvAnti, bnvT S k = 0 := by
    intro k hk
    simp only [bnvAnti, List.mem_cons, List.not_mem_nil, or_false] at hk
    rcases hk with rfl | rfl | rfl | rfl | rfl | rfl | rfl <;> rfl
  rw [this k hk]
  rfl

end

/-! ### Relations between flavours of `qqql` -/

/-- Tensor of a single coefficient. -/
noncomputable def unitT (j : Ix4) : Ix4 → ℂ := fun i => if i = j then 1 else 0

/-- **C87**: with the contraction `ε_jn ε_km` the operators `qqql` satisfy the relation between flavours that the completion of
coefficient sets assumes. -/
theorem C87_relation (p r s t : Fin 3) (x : Fin 4 → Leg) :
    (qqqlLag .nested (unitT (p, r, s, t))).alt x + (qqqlLag .nested (unitT (r, p, s, t))).alt x =
      (qqqlLag .nested (unitT (s, p, r, t))).alt x + (qqqlLag .nested (unitT (s, r, p, t))).alt x := by
  have e : ∀ i : Ix4, 1 * nestedT (unitT (p, r, s, t)) i + 1 * nestedT (unitT (r, p, s, t)) i =
      1 * nestedT (unitT (s, p, r, t)) i + 1 * nestedT (unitT (s, r, p, t)) i := by
    rintro ⟨a, b, c, d⟩
    have z : ∀ p r s a b c : Fin 3, ∀ t d : Bool,
        ((if (b, a, c) = (p, r, s) ∧ d = t then 1 else 0) - (if (b, c, a) = (p, r, s) ∧ d = t then 1 else 0) +
          (if (c, b, a) = (p, r, s) ∧ d = t then 1 else 0) +
        ((if (b, a, c) = (r, p, s) ∧ d = t then 1 else 0) - (if (b, c, a) = (r, p, s) ∧ d = t then 1 else 0) +
          (if (c, b, a) = (r, p, s) ∧ d = t then 1 else 0)) : ℤ) =
        (if (b, a, c) = (s, p, r) ∧ d = t then 1 else 0) - (if (b, c, a) = (s, p, r) ∧ d = t then 1 else 0) +
          (if (c, b, a) = (s, p, r) ∧ d = t then 1 else 0) +
        ((if (b, a, c) = (s, r, p) ∧ d = t then 1 else 0) - (if (b, c, a) = (s, r, p) ∧ d = t then 1 else 0) +
          (if (c, b, a) = (s, r, p) ∧ d = t then 1 else 0)) := by decide +kernel
    have zz := congrArg (Int.cast : ℤ → ℂ) (z p r s a b c true (decide (d = t)))
    push_cast at zz
    simp only [nestedT, unitT, one_mul, Prod.mk.injEq]
    simpa only [Prod.mk.injEq, decide_eq_true_eq, and_assoc] using zz
  rw [nested_comp, nested_comp, nested_comp, nested_comp]
  have l := fun k1 k2 k3 k4 (A : Chir) f g => mono_lin k1 k2 k3 k4 A A 1 1 f g x
  have h1 := l .d .u .u .e .L (nestedT (unitT (p, r, s, t))) (nestedT (unitT (r, p, s, t)))
  have h2 := l .u .d .d .nu .L (nestedT (unitT (p, r, s, t))) (nestedT (unitT (r, p, s, t)))
  have h3 := l .d .u .u .e .L (nestedT (unitT (s, p, r, t))) (nestedT (unitT (s, r, p, t)))
  have h4 := l .u .d .d .nu .L (nestedT (unitT (s, p, r, t))) (nestedT (unitT (s, r, p, t)))
  rw [funext e] at h1 h2
  linear_combination h3 + h4 - h1 - h2

/-! ### Values -/

/-- One coefficient, as Gaussian integer. -/
def unitEnt (k1 k2 k3 k4 : Kind) (A B : Chir) (j : Ix4) (p q r s : Leg) : GaussianInt :=
  if p.kind = k1 ∧ q.kind = k2 ∧ r.kind = k3 ∧ s.kind = k4 ∧ (p.gen, q.gen, r.gen, s.gen) = j then bnvEnt A B p q r s else 0

theorem unit_alt (k1 k2 k3 k4 : Kind) (A B : Chir) (j : Ix4) (x : Fin 4 → Leg) :
    (bnvMono k1 k2 k3 k4 A B (unitT j)).alt x = GaussianInt.toComplex (∑ σ : Equiv.Perm (Fin 4), (Equiv.Perm.sign σ : ℤ) *
      unitEnt k1 k2 k3 k4 A B j (x (σ 0)) (x (σ 1)) (x (σ 2)) (x (σ 3))) := by
  unfold Four.alt
  rw [map_sum]
  refine Finset.sum_congr rfl fun σ _ => ?_
  rw [map_mul, map_intCast]
  congr 1
  unfold bnvMono unitEnt unitT
  by_cases h : (x (σ 0)).kind = k1 ∧ (x (σ 1)).kind = k2 ∧ (x (σ 2)).kind = k3 ∧ (x (σ 3)).kind = k4
  · rw [if_pos h]
    by_cases hj : ((x (σ 0)).gen, (x (σ 1)).gen, (x (σ 2)).gen, (x (σ 3)).gen) = j
    · rw [if_pos hj, if_pos ⟨h.1, h.2.1, h.2.2.1, h.2.2.2, hj⟩, one_mul]
    · rw [if_neg hj, if_neg fun h' => hj h'.2.2.2.2, zero_mul, map_zero]
  · rw [if_neg h, if_neg fun h' => h ⟨h'.1, h'.2.1, h'.2.2.1, h'.2.2.2.1⟩, map_zero]

/-- A down quark, two up quarks and an electron, all left-handed. -/
def duueLegs (a b c : Fin 3) : Fin 4 → Leg := ![⟨.d, a, 0, 0⟩, ⟨.u, b, 1, 1⟩, ⟨.u, c, 0, 2⟩, ⟨.e, 0, 1, 0⟩]

/-- **C87**: the relation between flavours does not hold with the contraction `ε_jk ε_mn`. -/
theorem C87_relation_refuted : ¬ ∀ (p r s t : Fin 3) (x : Fin 4 → Leg),
    (qqqlLag .pairs (unitT (p, r, s, t))).alt x + (qqqlLag .pairs (unitT (r, p, s, t))).alt x =
      (qqqlLag .pairs (unitT (s, p, r, t))).alt x + (qqqlLag .pairs (unitT (s, r, p, t))).alt x := by
  intro h
  have h1 := h 0 0 1 0 (duueLegs 0 0 1)
  have sw : ∀ p r s t, fSwap (unitT (p, r, s, t)) = unitT (r, p, s, t) := by
    intro p r s t
    funext ⟨a, b, c, d⟩
    simp only [fSwap, unitT, Prod.mk.injEq]
    exact if_congr (by tauto) rfl rfl
  simp only [pairs_comp, sw, unit_alt] at h1
  simp only [← map_add, ← map_sub, ← map_neg] at h1
  rw [GaussianInt.toComplex_inj] at h1
  exact absurd h1 (by decide +kernel)

/-! ### Coefficient sets with one operator -/

/-- A set of one coefficient. -/
noncomputable def oneCoef (k : String) (j : Ix4) : Dict String ℂ := [(label k [j.1, j.2.1, j.2.2.1, j.2.2.2], 1)]

section

variable {k0 : String} {x y z w : Slot} {j : Ix4}

theorem oneCoef_wf : Dict.WF (oneCoef k0 j) := by simp [Dict.WF, Dict.keys, oneCoef]

theorem oneCoef_flat (ho : IsOp k0 (.four x y z w)) : ∀ key ∈ Dict.keys (oneCoef k0 j), IsFlat key := by
  intro key hk
  obtain rfl : key = label k0 [j.1, j.2.1, j.2.2.1, j.2.2.2] := by simpa [Dict.keys, oneCoef] using hk
  exact ⟨k0, _, [j.1, j.2.1, j.2.2.1, j.2.2.2], ho, rfl, rfl⟩

theorem oneCoef_full (ho : IsOp k0 (.four x y z w)) (hr : ∀ c, cls4 x y z w = some c → Rel4 c (unitT j)) :
    SmeftFull (oneCoef k0 j) (oneS k0 (unitT j)) := by
  refine ⟨fun k op i ho' hi => ?_, fun k ho => by simp [oneS], fun k x y c ho hc => ?_, fun k x y z w c ho' hc => ?_⟩
  · unfold Dict.getD oneCoef
    rw [Dict.find_cons]
    have hk := isOp_plain ho'
    by_cases h : k = k0 ∧ i = [j.1, j.2.1, j.2.2.1, j.2.2.2]
    · rw [h.1, h.2]; simp [oneS, unitT]
    · have hne : ¬ label k0 [j.1, j.2.1, j.2.2.1, j.2.2.2] = label k i := fun e => h <| by
        have := label_inj (isOp_plain ho) hk e
        exact ⟨this.1.symm, this.2.symm⟩
      rw [if_neg hne]
      unfold oneS
      by_cases hkk : k = k0
      · simp only [hkk, true_and, if_true] at h ⊢
        match i with
        | [p, r, s, t] =>
          have h' : (p, r, s, t) ≠ j := fun e => h (by rw [← e])
          simp [unitT, h', Dict.find]
        | [] => rfl
        | [_] => rfl
        | [_, _] => rfl
        | [_, _, _] => rfl
        | _ :: _ :: _ :: _ :: _ :: _ => rfl
      · simp [hkk, Dict.find]
  · have : (fun i : Fin 3 × Fin 3 => oneS k0 (unitT j) (k, [i.1, i.2])) = fun _ => 0 := by
      funext i; simp [oneS]
    rw [this]
    cases c <;> simp [Rel2]
  · by_cases hkk : k = k0
    · subst hkk
      have e := isOp_unique ho' ho
      injection e with e1 e2 e3 e4
      subst e1 e2 e3 e4
      simpa [oneS] using hr c hc
    · have : (fun i : Fin 3 × Fin 3 × Fin 3 × Fin 3 => oneS k0 (unitT j) (k, [i.1, i.2.1, i.2.2.1, i.2.2.2])) = fun _ => 0 := by
        funext i; simp [oneS, hkk]
      rw [this]
      cases c <;> simp [Rel4]

theorem oneCoef_run (ho : IsOp k0 (.four x y z w)) (hr : ∀ c, cls4 x y z w = some c → Rel4 c (unitT j)) (hk : k0 ≠ "ll") (V : M3) (L : List String) :
    ∃ D, warsawUpToJms (fun _ _ _ _ => V) L defaultPar (oneCoef k0 j) 160 none = .ok D := by
  have hS := oneCoef_full ho hr
  have hns := one_noShift hS fun h => absurd h hk
  obtain ⟨w, e1, -⟩ := ew_ok default_physical hns
  have e2 : ewOf (flatSrc (oneCoef k0 j)).zero defaultPar = .ok w := (ewOf_congr (noShift_zero _) hns).trans e1
  exact ⟨_, matchAll_intro L oneCoef_wf (oneCoef_flat ho) (par := none) e1 e2 rfl⟩

end

theorem rel_qqql (c : SymClass) (hc : cls4 (n .q) (n .q) (n .q) (n .l) = some c) : Rel4 c (unitT (0, 0, 0, 0)) := by
  cases hc
  intro p r s t
  simp only [unitT, Prod.mk.injEq]
  by_cases h : p = 0 ∧ r = 0 ∧ s = 0 ∧ t = 0
  · obtain ⟨rfl, rfl, rfl, rfl⟩ := h; rfl
  · rw [if_neg h, if_neg (by tauto), if_neg (by tauto), if_neg (by tauto)]

theorem tens_one (k0 k : String) (T : Ix4 → ℂ) : tens (oneS k0 T) k = if k = k0 then T else 0 := by
  funext i
  unfold tens oneS
  by_cases h : k = k0 <;> simp [h]

theorem smeft_alt (e : Contr) (S : JSrc → ℂ) (x : Fin 4 → Leg) : (bnvSmeft e S).alt x =
    (bnvMono .d .u .u .e .R .L (tens S "duql")).alt x - (bnvMono .d .u .d .nu .R .L (tens S "duql")).alt x +
    (-(bnvMono .d .u .u .e .L .R (fSwap (tens S "qque"))).alt x - (bnvMono .d .u .u .e .L .R (tens S "qque")).alt x) +
    (qqqlLag e (tens S "qqql")).alt x + (bnvMono .d .u .u .e .R .R (tens S "duue")).alt x := by
  unfold bnvSmeft
  rw [alt_add, alt_add, alt_add, duql_comp, qque_comp, duue_comp]

/-- Every operator in the list. -/
def bnvAll : List String := bnvOps.flatMap fun o => (allIdx 4).map (label o.name)

theorem bnvAll_listing : BnvListing bnvAll := by
  intro o ho p r s t _ _ _ _
  refine List.mem_flatMap.2 ⟨o, ho, List.mem_map_of_mem ?_⟩
  have : ∀ p r s t : Fin 3, [p, r, s, t] ∈ allIdx 4 := by decide +kernel
  exact this p r s t

theorem rotUn_one (q : Leg) (g : Fin 3) : rotUn 1 q g = if g = q.gen then 1 else 0 := by
  unfold rotUn
  split
  · exact Matrix.one_apply
  · rfl

/-- A rotation of all fields commutes with the antisymmetrisation. -/
theorem alt_rotU (V : M3) (T : Four) (x : Fin 4 → Leg) : (T.rotU V).alt x = ∑ g : Fin 4 → Fin 3,
    (∏ i, rotUn V (x i) (g i)) * T.alt fun i => { x i with gen := g i } := by
  unfold Four.alt Four.rotU
  have e : ∀ g : Fin 4 → Fin 3, (∏ i, rotUn V (x i) (g i)) * ∑ σ : Equiv.Perm (Fin 4), ((Equiv.Perm.sign σ : ℤ) : ℂ) *
      T { x (σ 0) with gen := g (σ 0) } { x (σ 1) with gen := g (σ 1) } { x (σ 2) with gen := g (σ 2) } { x (σ 3) with gen := g (σ 3) } =
      ∑ σ : Equiv.Perm (Fin 4), ((Equiv.Perm.sign σ : ℤ) : ℂ) * ((∏ i, rotUn V (x (σ i)) (g (σ i))) *
        T { x (σ 0) with gen := g (σ 0) } { x (σ 1) with gen := g (σ 1) } { x (σ 2) with gen := g (σ 2) } { x (σ 3) with gen := g (σ 3) }) := by
    intro g
    rw [Finset.mul_sum]
    refine Finset.sum_congr rfl fun σ _ => ?_
    rw [Equiv.prod_comp σ fun i => rotUn V (x i) (g i)]
    ring
  rw [Finset.sum_congr rfl fun g _ => e g, Finset.sum_comm]
  refine Finset.sum_congr rfl fun σ _ => ?_
  rw [← Finset.mul_sum]
  congr 1
  rw [← Equiv.sum_comp (Equiv.arrowCongr σ.symm (Equiv.refl (Fin 3)))]
  refine Finset.sum_congr rfl fun g _ => ?_
  simp only [Fin.prod_univ_four, Equiv.arrowCongr_apply, Equiv.symm_symm, Function.comp, Equiv.refl_apply]

theorem alt_rot_one (T : Four) (x : Fin 4 → Leg) : (T.rotU 1).alt x = T.alt x := by
  rw [alt_rotU, Finset.sum_eq_single fun i => (x i).gen]
  · simp [rotUn_one]
  · intro g _ hg
    obtain ⟨i, hi⟩ : ∃ i, g i ≠ (x i).gen := by
      by_contra h
      push Not at h
      exact hg (funext h)
    rw [Finset.prod_eq_zero (Finset.mem_univ i) (by rw [rotUn_one, if_neg hi]), zero_mul]
  · intro h; exact absurd (Finset.mem_univ _) h

/-- **C87** is false with the contraction `ε_jn ε_km`, also without rotation of the down quarks: for `qqql_1111 = 1` the coefficient of
`SduuLL_1111` is -2 and should be 1. -/
theorem C87_refuted : ¬ ∀ (ckm : ℝ → ℝ → ℝ → ℝ → M3) (V : M3) (L : List String) (default : Par) (d : Dict String ℂ) (S : JSrc → ℂ)
    (D : Dict String ℂ) (scale : ℝ) (par : Option Par) (x : Fin 4 → Leg), Dict.WF d → (∀ key ∈ Dict.keys d, IsFlat key) → SmeftFull d S →
    warsawUpToJms ckm L default d scale par = .ok D → ckmOf ckm (withPar default par) = .ok V → V.conjTranspose * V = 1 → BnvListing L →
    (∀ i, (x i).Light) → (bnvLag D).alt x = ((bnvSmeft .nested S).rotU V).alt x := by
  intro h
  have ho := bnv_isOp.2.2.1
  obtain ⟨D, hD⟩ := oneCoef_run ho rel_qqql (by decide) 1 bnvAll
  have hx : ∀ i, (duueLegs 0 0 0 i).Light := by intro i; fin_cases i <;> simp [duueLegs, Leg.Light, Kind.Light]
  have h1 := h _ 1 bnvAll _ _ _ D 160 none (duueLegs 0 0 0) oneCoef_wf (oneCoef_flat ho) (oneCoef_full ho rel_qqql) hD rfl (by simp)
    bnvAll_listing hx
  rw [alt_rot_one, C87_lagrangian_partial oneCoef_wf (oneCoef_flat ho) (oneCoef_full ho rel_qqql) hD bnvAll_listing hx, smeft_alt, smeft_alt] at h1
  have h2 := add_left_cancel (add_right_cancel h1)
  have e1 : fSwap (unitT (0, 0, 0, 0)) = unitT (0, 0, 0, 0) := by
    funext ⟨a, b, c, d⟩
    simp only [fSwap, unitT, Prod.mk.injEq]
    exact if_congr (by tauto) rfl rfl
  have e2 : nestedT (unitT (0, 0, 0, 0)) = unitT (0, 0, 0, 0) := by
    funext ⟨a, b, c, d⟩
    simp only [nestedT, unitT, Prod.mk.injEq]
    by_cases h : a = 0 ∧ b = 0 ∧ c = 0 ∧ d = 0
    · obtain ⟨rfl, rfl, rfl, rfl⟩ := h; simp
    · rw [if_neg h, if_neg (by tauto), if_neg (by tauto), if_neg (by tauto)]; ring
  rw [tens_one, if_pos rfl, pairs_comp, nested_comp, e1, e2, unit_alt, unit_alt] at h2
  simp only [← map_add, ← map_sub, ← map_neg] at h2
  rw [GaussianInt.toComplex_inj] at h2
  exact absurd h2 (by decide +kernel)

/-- A right-handed down and up quark, a left-handed down quark of generation `g` and a neutrino. -/
def duqlLegs (g : Fin 3) : Fin 4 → Leg := ![⟨.d, 0, 2, 0⟩, ⟨.u, 0, 3, 1⟩, ⟨.d, g, 0, 2⟩, ⟨.nu, 0, 1, 0⟩]

theorem rel_duql (c : SymClass) (hc : cls4 (n .d) (n .u) (n .q) (n .l) = some c) : Rel4 c (unitT (0, 0, 0, 0)) := by cases hc

theorem duql_alt (g : Fin 3) : (bnvSmeft .pairs (oneS "duql" (unitT (0, 0, 0, 0)))).alt (duqlLegs g) = if g = 0 then 1 else 0 := by
  rw [smeft_alt]
  simp only [tens_one]
  have z : fSwap 0 = 0 := rfl
  rw [if_pos trivial, if_neg (by decide), if_neg (by decide), if_neg (by decide), pairs_comp, z, mono_nil, mono_nil, mono_nil, mono_nil, alt_zero, unit_alt, unit_alt]
  have e : ∀ g : Fin 3, (∑ σ : Equiv.Perm (Fin 4), (Equiv.Perm.sign σ : ℤ) * unitEnt .d .u .u .e .R .L (0, 0, 0, 0) (duqlLegs g (σ 0))
      (duqlLegs g (σ 1)) (duqlLegs g (σ 2)) (duqlLegs g (σ 3)) : GaussianInt) = 0 ∧ (∑ σ : Equiv.Perm (Fin 4), (Equiv.Perm.sign σ : ℤ) *
      unitEnt .d .u .d .nu .R .L (0, 0, 0, 0) (duqlLegs g (σ 0)) (duqlLegs g (σ 1)) (duqlLegs g (σ 2)) (duqlLegs g (σ 3)) : GaussianInt) =
        if g = 0 then -1 else 0 := by decide +kernel
  rw [(e g).1, (e g).2]
  split <;> simp

/-- **C87** is false because left-handed down quarks are not rotated to their mass basis: with `duql_1111 = 1` the coefficient of
`SdudRL_1121` is zero instead of `- V_us`. -/
theorem C87_rotation_refuted : ¬ ∀ (ckm : ℝ → ℝ → ℝ → ℝ → M3) (V : M3) (L : List String) (default : Par) (d : Dict String ℂ) (S : JSrc → ℂ)
    (D : Dict String ℂ) (scale : ℝ) (par : Option Par) (x : Fin 4 → Leg), Dict.WF d → (∀ key ∈ Dict.keys d, IsFlat key) → SmeftFull d S →
    warsawUpToJms ckm L default d scale par = .ok D → ckmOf ckm (withPar default par) = .ok V → V.conjTranspose * V = 1 → BnvListing L →
    (∀ i, (x i).Light) → (bnvLag D).alt x = ((bnvSmeft .pairs S).rotU V).alt x := by
  intro h
  have ho := bnv_isOp.1
  obtain ⟨D, hD⟩ := oneCoef_run ho rel_duql (by decide) exV bnvAll
  have hx : ∀ i, (duqlLegs 1 i).Light := by intro i; fin_cases i <;> simp [duqlLegs, Leg.Light, Kind.Light]
  have h1 := h _ exV bnvAll _ _ _ D 160 none (duqlLegs 1) oneCoef_wf (oneCoef_flat ho) (oneCoef_full ho rel_duql) hD rfl exV_unitary
    bnvAll_listing hx
  rw [C87_lagrangian_partial oneCoef_wf (oneCoef_flat ho) (oneCoef_full ho rel_duql) hD bnvAll_listing hx, alt_rotU,
    Finset.sum_eq_single ![0, 0, 0, 0]] at h1
  · have e : (fun i => { duqlLegs 1 i with gen := (![0, 0, 0, 0] : Fin 4 → Fin 3) i } : Fin 4 → Leg) = duqlLegs 0 := by
      funext i; fin_cases i <;> rfl
    rw [e, duql_alt, duql_alt] at h1
    simp [Fin.prod_univ_four, rotUn, duqlLegs, exV] at h1
  · intro g _ hg
    by_cases h0 : g 0 = 0 ∧ g 1 = 0 ∧ g 3 = 0
    · have e : (fun i => { duqlLegs 1 i with gen := g i } : Fin 4 → Leg) = duqlLegs (g 2) := by
        funext i; fin_cases i <;> simp [duqlLegs, h0]
      have h2 : g 2 ≠ 0 := fun e => hg (by funext i; fin_cases i <;> simp [h0, e])
      rw [e, duql_alt, if_neg h2, mul_zero]
    · rw [Fin.prod_univ_four]
      have : rotUn exV (duqlLegs 1 0) (g 0) = 0 ∨ rotUn exV (duqlLegs 1 1) (g 1) = 0 ∨ rotUn exV (duqlLegs 1 3) (g 3) = 0 := by
        simp only [rotUn, duqlLegs]
        by_cases a : g 0 = 0
        · by_cases b : g 1 = 0
          · have c : g 3 ≠ 0 := fun c => h0 ⟨a, b, c⟩
            simp [c]
          · simp [b]
        · simp [a]
      rcases this with e | e | e <;> rw [e] <;> ring
  · intro h; exact absurd (Finset.mem_univ _) h

/-- A case of C87: `duql_1111 = 1` gives the decay of a down quark of the first generation with coefficient one. -/
example : ∃ D, warsawUpToJms (fun _ _ _ _ => exV) bnvAll defaultPar (oneCoef "duql" (0, 0, 0, 0)) 160 none = .ok D ∧
    (bnvLag D).alt (duqlLegs 0) = 1 := by
  have ho := bnv_isOp.1
  obtain ⟨D, hD⟩ := oneCoef_run ho rel_duql (by decide) exV bnvAll
  have hx : ∀ i, (duqlLegs 0 i).Light := by intro i; fin_cases i <;> simp [duqlLegs, Leg.Light, Kind.Light]
  refine ⟨D, hD, ?_⟩
  rw [C87_lagrangian_partial oneCoef_wf (oneCoef_flat ho) (oneCoef_full ho rel_duql) hD bnvAll_listing hx, duql_alt, if_pos rfl]

/-- A case of the relation: for equal generations both sides are twice this value, which is not zero. -/
example : (qqqlLag .nested (unitT (0, 0, 0, 0))).alt (duueLegs 0 0 0) = 1 := by
  have e2 : nestedT (unitT (0, 0, 0, 0)) = unitT (0, 0, 0, 0) := by
    funext ⟨a, b, c, d⟩
    simp only [nestedT, unitT, Prod.mk.injEq]
    by_cases h : a = 0 ∧ b = 0 ∧ c = 0 ∧ d = 0
    · obtain ⟨rfl, rfl, rfl, rfl⟩ := h; simp
    · rw [if_neg h, if_neg (by tauto), if_neg (by tauto), if_neg (by tauto)]; ring
  rw [nested_comp, e2, unit_alt, unit_alt, ← map_add, ← map_one GaussianInt.toComplex]
  congr 1

/-- A case of the operators with an antilepton. -/
example : ∃ D, warsawUpToJms (fun _ _ _ _ => exV) ["SduuLL_1111", "SdddLL_1111"] defaultPar (oneCoef "qqql" (0, 0, 0, 0)) 160 none = .ok D ∧
    Dict.getD D "SduuLL_1111" 0 = -2 ∧ Dict.getD D "SdddLL_1111" 0 = 0 := by
  have ho := bnv_isOp.2.2.1
  obtain ⟨D, hD⟩ := oneCoef_run ho rel_qqql (by decide) exV ["SduuLL_1111", "SdddLL_1111"]
  have l1 : "SduuLL_1111" = label "SduuLL" [0, 0, 0, 0] := by decide +kernel
  have l2 : "SdddLL_1111" = label "SdddLL" [0, 0, 0, 0] := by decide +kernel
  refine ⟨D, hD, ?_, ?_⟩
  · rw [l1, bnv_value (k := "SduuLL") oneCoef_wf (oneCoef_flat ho) (oneCoef_full ho rel_qqql) hD (by simp [bnvOps]) (0, 0, 0, 0) (by rw [← l1]; simp)]
    simp [bnvT, tens_one, unitT, fSwap]
    norm_num
  · rw [l2, C87_antilepton oneCoef_wf (oneCoef_flat ho) (oneCoef_full ho rel_qqql) hD (by simp [bnvAnti]) 0 0 0 0 (by rw [← l2]; simp)]

end Verif
