import Verif.Lemmas.LagSectors
import Verif.Lemmas.WetRound

/-! The coefficients given by the tables of `JMS_to_Bern` describe the same Lagrangian. -/

set_option autoImplicit false
set_option linter.unusedSimpArgs false

namespace Verif

open Spec

/-! ### Rules -/

theorem once_no {n : String} (h : n ∉ jmsExchange) (i j : Fin 3 × Fin 3) : once n i j = 1 := by
  unfold once; rw [if_neg fun h' => h h'.1]

theorem once_same (n : String) (i : Fin 3 × Fin 3) : once n i i = 1 := by
  unfold once; rw [if_neg fun h' => h'.2 rfl]

theorem once_half {n : String} (h : n ∈ jmsExchange) {i j : Fin 3 × Fin 3} (hij : i ≠ j) : once n i j = 1 / 2 := by
  unfold once; rw [if_pos ⟨h, hij⟩]

theorem col_oct (a b c d : Fin 3) : Col.oct.val a b c d = Col.cross.val a b c d / 2 - Col.one.val a b c d / 6 := rfl

theorem ite_congr_iff {P Q : Prop} [Decidable P] [Decidable Q] (h : P ↔ Q) : (if P then (1 : ℂ) else 0) = if Q then 1 else 0 := by
  by_cases hP : P
  · rw [if_pos hP, if_pos (h.1 hP)]
  · rw [if_neg hP, if_neg fun hQ => hP (h.2 hQ)]

theorem col_one2 (a b c d : Fin 3) : Col.one.val c b a d = Col.cross.val a b c d := ite_congr_iff (by tauto)

theorem col_cross2 (a b c d : Fin 3) : Col.cross.val c b a d = Col.one.val a b c d := ite_congr_iff (by tauto)

theorem col_one3 (a b c d : Fin 3) : Col.one.val a d c b = Col.cross.val a b c d := ite_congr_iff (by tauto)

theorem col_cross3 (a b c d : Fin 3) : Col.cross.val a d c b = Col.one.val a b c d := ite_congr_iff (by tauto)

theorem col_one4 (a b c d : Fin 3) : Col.one.val c d a b = Col.one.val a b c d := ite_congr_iff (by tauto)

theorem col_cross4 (a b c d : Fin 3) : Col.cross.val c d a b = Col.cross.val a b c d := ite_congr_iff (by tauto)

/-- Permuted Dirac structures. -/
structure DirRules (α β γ δ : Fin 4) : Prop where
  r4 : ∀ n A B, (Dir.g n A B).val γ δ α β = (Dir.g n B A).val α β γ δ
  s4 : ∀ A B, (Dir.sg A B).val γ δ α β = (Dir.sg B A).val α β γ δ
  r3 : ∀ n A B, (Dir.g n A B).val α δ γ β = (Dir.g n B A).val γ β α δ
  s3 : ∀ A B, (Dir.sg A B).val α δ γ β = (Dir.sg B A).val γ β α δ
  v : ∀ A, (Dir.g 1 A A).val γ β α δ = -(Dir.g 1 A A).val α β γ δ
  vLR : (Dir.g 1 .L .R).val γ β α δ = 2 * (Dir.g 0 .L .R).val α β γ δ
  vRL : (Dir.g 1 .R .L).val γ β α δ = 2 * (Dir.g 0 .R .L).val α β γ δ
  sLR : (Dir.g 0 .L .R).val γ β α δ = (Dir.g 1 .L .R).val α β γ δ / 2
  sRL : (Dir.g 0 .R .L).val γ β α δ = (Dir.g 1 .R .L).val α β γ δ / 2
  s : ∀ A, (Dir.g 0 A A).val γ β α δ = (Dir.g 0 A A).val α β γ δ / 2 + (Dir.sg A A).val α β γ δ / 8
  t : ∀ A, (Dir.sg A A).val γ β α δ = 6 * (Dir.g 0 A A).val α β γ δ - (Dir.sg A A).val α β γ δ / 2

theorem dirRules (α β γ δ : Fin 4) : DirRules α β γ δ where
  r4 n A B := val_swap α β γ δ n A B
  s4 A B := val_sg_swap α β γ δ A B
  r3 n A B := val_swap γ β α δ n A B
  s3 A B := val_sg_swap γ β α δ A B
  v A := fierz1_same α β γ δ A
  vLR := fierz1_LR α β γ δ
  vRL := fierz1_RL α β γ δ
  sLR := fierz0_LR α β γ δ
  sRL := fierz0_RL α β γ δ
  s A := fierz0_same α β γ δ A
  t A := fierz_sg_same α β γ δ A

/-- Down quarks and up quarks. -/
theorem block_u (J W F : _ → ℂ) (y : String) (f1 f2 f3 f4 : Kind × Fin 3) {p q r s : Leg} (hp : p.kind = .d)
    (hq : q.kind = .d) (hr : r.kind = .u) (hs : s.kind = .u)
    (hF : ∀ t ∈ fierzDDUU y p.gen q.gen r.gen s.gen, F t.1 = t.2.val J) (hW : ∀ t ∈ fierzBernGen y, W t.1 = t.2.val F) :
    let X := (Sector.mk f1 f2 f3 f4 y (opsOdd .L .R .R .L ++ opsEven)).val W
    (jmsLag J).anti p q r s = X p q r s := by
  obtain ⟨r4, s4, r3, s3, v, vLR, vRL, sLR, sRL, sS, tT⟩ := dirRules p.spin q.spin r.spin s.spin
  have c1 := col_one2 p.col q.col r.col s.col
  have c2 := col_cross2 p.col q.col r.col s.col
  have c3 := col_one3 p.col q.col r.col s.col
  have c4 := col_cross3 p.col q.col r.col s.col
  have c5 := col_one4 p.col q.col r.col s.col
  have c6 := col_cross4 p.col q.col r.col s.col
  obtain ⟨pk, pg, ps, pc⟩ := p
  obtain ⟨qk, qg, qs, qc⟩ := q
  obtain ⟨rk, rg, rs, rc⟩ := r
  obtain ⟨sk, sg, ss, sc⟩ := s
  simp only at hp hq hr hs
  subst hp hq hr hs
  simp only [Nc, fierzDDUU, fierzBernGen, List.forall_mem_cons, Ex.val_add, Ex.val_sub, Ex.val_neg, Ex.val_mul, Ex.val_div, Ex.val_src,
    Ex.val_cj] at hF hW
  obtain ⟨F1, F2, F3, F4, F5, F6, F7, F8, F9, F10, G1, G2, G3, G4, G5, G6, G7, G8, G9, G10, -⟩ := hF
  obtain ⟨W1, W2, W3, W4, W5, W6, W7, W8, W9, W10, V1, V2, V3, V4, V5, V6, V7, V8, V9, V10, -⟩ := hW
  simp only [Four.anti, jmsLag, jmsOps, List.map_cons, List.map_nil, List.sum_cons, List.sum_nil, JOp.term, term_adj,
    reduceCtorEq, and_self, and_true, and_false, false_and, true_and, if_true, if_false, Bool.false_eq_true, add_zero, zero_add,
    val0_adj, val1_adj, valS_adj, Chir.flip]
  simp only [Sector.val, opsI, opsII, opsOdd, opsEven, opsNu, List.cons_append, List.nil_append, List.map_cons, List.map_nil,
    List.sum_cons, List.sum_nil, add_zero, val3_same, val3_LR, val3_RL, val4_same, val4_LR, val4_RL, val_sg_LR, val_sg_RL, zero_add]
  simp (disch := decide +kernel) only [once_no]
  simp only [r4, s4, r3, s3]
  simp only [v, vLR, vRL, sLR, sRL, sS, tT]
  simp only [col_oct, c1, c2, c3, c4, c5, c6]
  rw [W1, W2, W3, W4, W5, W6, W7, W8, W9, W10, V1, V2, V3, V4, V5, V6, V7, V8, V9, V10]
  rw [F1, F2, F3, F4, F5, F6, F7, F8, F9, F10, G1, G2, G3, G4, G5, G6, G7, G8, G9, G10]
  ring

/-- Down quarks and charged leptons. -/
theorem block_e (J W F : _ → ℂ) (y : String) (f1 f2 f3 f4 : Kind × Fin 3) {p q r s : Leg} (hp : p.kind = .d)
    (hq : q.kind = .d) (hr : r.kind = .e) (hs : s.kind = .e)
    (hF : ∀ t ∈ jmsFierzLepTable y p.gen q.gen r.gen s.gen, F t.1 = t.2.val J) (hW : ∀ t ∈ fierzBernLepTable y, W t.1 = t.2.val F) :
    let X := (Sector.mk f1 f2 f3 f4 y (opsOdd .L .R .R .L)).val W
    (jmsLag J).anti p q r s = X p q r s := by
  obtain ⟨r4, s4, r3, s3, v, vLR, vRL, sLR, sRL, sS, tT⟩ := dirRules p.spin q.spin r.spin s.spin
  have c1 := col_one2 p.col q.col r.col s.col
  have c2 := col_cross2 p.col q.col r.col s.col
  have c3 := col_one3 p.col q.col r.col s.col
  have c4 := col_cross3 p.col q.col r.col s.col
  have c5 := col_one4 p.col q.col r.col s.col
  have c6 := col_cross4 p.col q.col r.col s.col
  obtain ⟨pk, pg, ps, pc⟩ := p
  obtain ⟨qk, qg, qs, qc⟩ := q
  obtain ⟨rk, rg, rs, rc⟩ := r
  obtain ⟨sk, sg, ss, sc⟩ := s
  simp only at hp hq hr hs
  subst hp hq hr hs
  simp only [Nc, jmsFierzLepTable, fierzBernLepTable, List.forall_mem_cons, Ex.val_add, Ex.val_sub, Ex.val_neg, Ex.val_mul, Ex.val_div, Ex.val_src,
    Ex.val_cj] at hF hW
  obtain ⟨F9, F10, FS, FP, FT, FT5, G9, G10, GS, GP, Fn, Gn, -⟩ := hF
  obtain ⟨W1, W3, W5, W7, W9, V1, V3, V5, V7, V9, Wn, Vn, -⟩ := hW
  simp only [Four.anti, jmsLag, jmsOps, List.map_cons, List.map_nil, List.sum_cons, List.sum_nil, JOp.term, term_adj,
    reduceCtorEq, and_self, and_true, and_false, false_and, true_and, if_true, if_false, Bool.false_eq_true, add_zero, zero_add,
    val0_adj, val1_adj, valS_adj, Chir.flip]
  simp only [Sector.val, opsI, opsII, opsOdd, opsEven, opsNu, List.cons_append, List.nil_append, List.map_cons, List.map_nil,
    List.sum_cons, List.sum_nil, add_zero, val3_same, val3_LR, val3_RL, val4_same, val4_LR, val4_RL, val_sg_LR, val_sg_RL, zero_add]
  simp (disch := decide +kernel) only [once_no]
  simp only [r4, s4, r3, s3]
  simp only [col_oct, c1, c2, c3, c4, c5, c6]
  rw [W1, W3, W5, W7, W9, V1, V3, V5, V7, V9]
  rw [F9, F10, FS, FP, FT, FT5, G9, G10, GS, GP]
  ring

/-- Down quarks and neutrinos. -/
theorem block_nu (J W F : _ → ℂ) (y : String) (f1 f2 f3 f4 : Kind × Fin 3) {p q r s : Leg} (hp : p.kind = .d)
    (hq : q.kind = .d) (hr : r.kind = .nu) (hs : s.kind = .nu)
    (hF : ∀ t ∈ jmsFierzLepTable y p.gen q.gen r.gen s.gen, F t.1 = t.2.val J) (hW : ∀ t ∈ fierzBernLepTable y, W t.1 = t.2.val F) :
    let X := (Sector.mk f1 f2 f3 f4 y (opsNu)).val W
    (jmsLag J).anti p q r s = X p q r s := by
  obtain ⟨r4, s4, r3, s3, v, vLR, vRL, sLR, sRL, sS, tT⟩ := dirRules p.spin q.spin r.spin s.spin
  have c1 := col_one2 p.col q.col r.col s.col
  have c2 := col_cross2 p.col q.col r.col s.col
  have c3 := col_one3 p.col q.col r.col s.col
  have c4 := col_cross3 p.col q.col r.col s.col
  have c5 := col_one4 p.col q.col r.col s.col
  have c6 := col_cross4 p.col q.col r.col s.col
  obtain ⟨pk, pg, ps, pc⟩ := p
  obtain ⟨qk, qg, qs, qc⟩ := q
  obtain ⟨rk, rg, rs, rc⟩ := r
  obtain ⟨sk, sg, ss, sc⟩ := s
  simp only at hp hq hr hs
  subst hp hq hr hs
  simp only [Nc, jmsFierzLepTable, fierzBernLepTable, List.forall_mem_cons, Ex.val_add, Ex.val_sub, Ex.val_neg, Ex.val_mul, Ex.val_div, Ex.val_src,
    Ex.val_cj] at hF hW
  obtain ⟨F9, F10, FS, FP, FT, FT5, G9, G10, GS, GP, Fn, Gn, -⟩ := hF
  obtain ⟨W1, W3, W5, W7, W9, V1, V3, V5, V7, V9, Wn, Vn, -⟩ := hW
  simp only [Four.anti, jmsLag, jmsOps, List.map_cons, List.map_nil, List.sum_cons, List.sum_nil, JOp.term, term_adj,
    reduceCtorEq, and_self, and_true, and_false, false_and, true_and, if_true, if_false, Bool.false_eq_true, add_zero, zero_add,
    val0_adj, val1_adj, valS_adj, Chir.flip]
  simp only [Sector.val, opsI, opsII, opsOdd, opsEven, opsNu, List.cons_append, List.nil_append, List.map_cons, List.map_nil,
    List.sum_cons, List.sum_nil, add_zero, val3_same, val3_LR, val3_RL, val4_same, val4_LR, val4_RL, val_sg_LR, val_sg_RL, zero_add]
  simp (disch := decide +kernel) only [once_no]
  simp only [r4, s4, r3, s3]
  simp only [col_oct, c1, c2, c3, c4, c5, c6]
  rw [Wn, Vn, Fn, Gn]
  ring

/-- Charged currents. -/
theorem block_II (J W : _ → ℂ) (y : String) (f1 f2 f3 f4 : Kind × Fin 3) {p q r s : Leg} (hp : p.kind = .u)
    (hq : q.kind = .d) (hr : r.kind = .e) (hs : s.kind = .nu)
    (hW : ∀ t ∈ jmsBernIITable y p.gen q.gen r.gen s.gen, W t.1 = t.2.val J) :
    let X := (Sector.mk f1 f2 f3 f4 y (opsII)).val W
    (jmsLag J).anti p q r s = X p q r s := by
  obtain ⟨r4, s4, r3, s3, v, vLR, vRL, sLR, sRL, sS, tT⟩ := dirRules p.spin q.spin r.spin s.spin
  have c1 := col_one2 p.col q.col r.col s.col
  have c2 := col_cross2 p.col q.col r.col s.col
  have c3 := col_one3 p.col q.col r.col s.col
  have c4 := col_cross3 p.col q.col r.col s.col
  have c5 := col_one4 p.col q.col r.col s.col
  have c6 := col_cross4 p.col q.col r.col s.col
  obtain ⟨pk, pg, ps, pc⟩ := p
  obtain ⟨qk, qg, qs, qc⟩ := q
  obtain ⟨rk, rg, rs, rc⟩ := r
  obtain ⟨sk, sg, ss, sc⟩ := s
  simp only at hp hq hr hs
  subst hp hq hr hs
  simp only [Nc, jmsBernIITable, List.forall_mem_cons, Ex.val_add, Ex.val_sub, Ex.val_neg, Ex.val_mul, Ex.val_div, Ex.val_src,
    Ex.val_cj] at hW
  obtain ⟨W1, W5, V1, V5, V7, -⟩ := hW
  simp only [Four.anti, jmsLag, jmsOps, List.map_cons, List.map_nil, List.sum_cons, List.sum_nil, JOp.term, term_adj,
    reduceCtorEq, and_self, and_true, and_false, false_and, true_and, if_true, if_false, Bool.false_eq_true, add_zero, zero_add,
    val0_adj, val1_adj, valS_adj, Chir.flip]
  simp only [Sector.val, opsI, opsII, opsOdd, opsEven, opsNu, List.cons_append, List.nil_append, List.map_cons, List.map_nil,
    List.sum_cons, List.sum_nil, add_zero, val3_same, val3_LR, val3_RL, val4_same, val4_LR, val4_RL, val_sg_LR, val_sg_RL, zero_add]
  simp (disch := decide +kernel) only [once_no]
  simp only [r4, s4, r3, s3]
  simp only [col_oct, c1, c2, c3, c4, c5, c6]
  rw [W1, W5, V1, V5, V7]
  ring

theorem swap_pair {a b c d : Fin 3} (h : (b, a) = (d, c)) : (a, b) = (c, d) := by
  injection h with h1 h2; rw [h1, h2]

/-- Four down quarks, the last two of the same flavour. -/
theorem block_dGen (J W F : _ → ℂ) (y : String) (f1 f2 f3 f4 : Kind × Fin 3) {p q r s : Leg} (hp : p.kind = .d)
    (hq : q.kind = .d) (hr : r.kind = .d) (hs : s.kind = .d)
    (hJ : ∀ k ∈ jmsExchange, ∀ p r s t, J (k, [s, t, p, r]) = J (k, [p, r, s, t]))
    (h1 : (p.gen, q.gen) ≠ (r.gen, s.gen)) (h2 : (r.gen, q.gen) ≠ (p.gen, s.gen)) (h3 : s.gen = r.gen)
    (hF : ∀ t ∈ fierzDDDD y p.gen q.gen r.gen s.gen, F t.1 = t.2.val J) (hW : ∀ t ∈ fierzBernGen y, W t.1 = t.2.val F) :
    let X := (Sector.mk f1 f2 f3 f4 y (opsOdd .L .R .R .L ++ opsEven)).val W
    (jmsLag J).anti p q r s = X p q r s := by
  obtain ⟨r4, s4, r3, s3, v, vLR, vRL, sLR, sRL, sS, tT⟩ := dirRules p.spin q.spin r.spin s.spin
  have c1 := col_one2 p.col q.col r.col s.col
  have c2 := col_cross2 p.col q.col r.col s.col
  have c3 := col_one3 p.col q.col r.col s.col
  have c4 := col_cross3 p.col q.col r.col s.col
  have c5 := col_one4 p.col q.col r.col s.col
  have c6 := col_cross4 p.col q.col r.col s.col
  obtain ⟨pk, pg, ps, pc⟩ := p
  obtain ⟨qk, qg, qs, qc⟩ := q
  obtain ⟨rk, rg, rs, rc⟩ := r
  obtain ⟨sk, sg, ss, sc⟩ := s
  simp only at hp hq hr hs
  subst hp hq hr hs
  simp only at h3 h1 h2
  have o1 : ∀ n ∈ jmsExchange, once n (pg, qg) (rg, sg) = 1 / 2 := fun n hn => once_half hn h1
  have o2 : ∀ n ∈ jmsExchange, once n (rg, sg) (pg, qg) = 1 / 2 := fun n hn => once_half hn h1.symm
  have o3 : ∀ n ∈ jmsExchange, once n (rg, qg) (pg, sg) = 1 / 2 := fun n hn => once_half hn h2
  have o4 : ∀ n ∈ jmsExchange, once n (pg, sg) (rg, qg) = 1 / 2 := fun n hn => once_half hn h2.symm
  have o5 : ∀ n ∈ jmsExchange, once n (qg, pg) (sg, rg) = 1 / 2 := fun n hn => once_half hn (h1 ∘ swap_pair)
  have o6 : ∀ n ∈ jmsExchange, once n (sg, rg) (qg, pg) = 1 / 2 := fun n hn => once_half hn (h1.symm ∘ swap_pair)
  have o7 : ∀ n ∈ jmsExchange, once n (qg, rg) (sg, pg) = 1 / 2 := fun n hn => once_half hn (h2 ∘ swap_pair)
  have o8 : ∀ n ∈ jmsExchange, once n (sg, pg) (qg, rg) = 1 / 2 := fun n hn => once_half hn (h2.symm ∘ swap_pair)
  have e1 := fun k hk => hJ k hk rg sg pg qg
  have e2 := fun k hk => hJ k hk pg sg rg qg
  have e3 := fun k hk => hJ k hk sg rg qg pg
  have e4 := fun k hk => hJ k hk sg pg qg rg
  subst h3
  simp only [Nc, fierzDDDD, fierzBernGen, List.forall_mem_cons, Ex.val_add, Ex.val_sub, Ex.val_neg, Ex.val_mul, Ex.val_div, Ex.val_src,
    Ex.val_cj] at hF hW
  obtain ⟨F1, F2, F3, F4, F5, F6, F7, F8, F9, F10, G1, G2, G3, G4, G5, G6, G7, G8, G9, G10, -⟩ := hF
  obtain ⟨W1, W2, W3, W4, W5, W6, W7, W8, W9, W10, V1, V2, V3, V4, V5, V6, V7, V8, V9, V10, -⟩ := hW
  simp only [Four.anti, jmsLag, jmsOps, List.map_cons, List.map_nil, List.sum_cons, List.sum_nil, JOp.term, term_adj,
    reduceCtorEq, and_self, and_true, and_false, false_and, true_and, if_true, if_false, Bool.false_eq_true, add_zero, zero_add,
    val0_adj, val1_adj, valS_adj, Chir.flip]
  simp only [Sector.val, opsI, opsII, opsOdd, opsEven, opsNu, List.cons_append, List.nil_append, List.map_cons, List.map_nil,
    List.sum_cons, List.sum_nil, add_zero, val3_same, val3_LR, val3_RL, val4_same, val4_LR, val4_RL, val_sg_LR, val_sg_RL, zero_add]
  simp (disch := decide +kernel) only [once_no]
  simp (disch := decide +kernel) only [o1, o2, o3, o4, o5, o6, o7, o8, e1, e2, e3, e4]
  simp only [r4, s4, r3, s3]
  simp only [v, vLR, vRL, sLR, sRL, sS, tT]
  simp only [col_oct, c1, c2, c3, c4, c5, c6]
  rw [W1, W2, W3, W4, W5, W6, W7, W8, W9, W10, V1, V2, V3, V4, V5, V6, V7, V8, V9, V10]
  rw [F1, F2, F3, F4, F5, F6, F7, F8, F9, F10, G1, G2, G3, G4, G5, G6, G7, G8, G9, G10]
  simp (disch := decide +kernel) only [e1, e2, e3, e4]
  ring

/-- Four down quarks, the second and fourth of the same flavour. -/
theorem block_d22 (J W F : _ → ℂ) (y : String) (f1 f2 f3 f4 : Kind × Fin 3) {p q r s : Leg} (hp : p.kind = .d)
    (hq : q.kind = .d) (hr : r.kind = .d) (hs : s.kind = .d)
    (hJ : ∀ k ∈ jmsExchange, ∀ p r s t, J (k, [s, t, p, r]) = J (k, [p, r, s, t]))
    (h1 : (p.gen, q.gen) ≠ (r.gen, s.gen)) (h2 : (r.gen, q.gen) ≠ (p.gen, s.gen)) (h3 : s.gen = q.gen)
    (hF : ∀ t ∈ fierzDDDD y p.gen q.gen r.gen s.gen, F t.1 = t.2.val J) (hW : ∀ t ∈ fierzBern22 y, W t.1 = t.2.val F) :
    let X := (Sector.mk f1 f2 f3 f4 y (opsOdd .L .R .R .L)).val W
    (jmsLag J).anti p q r s = X p q r s - X p s r q := by
  obtain ⟨r4, s4, r3, s3, v, vLR, vRL, sLR, sRL, sS, tT⟩ := dirRules p.spin q.spin r.spin s.spin
  have c1 := col_one2 p.col q.col r.col s.col
  have c2 := col_cross2 p.col q.col r.col s.col
  have c3 := col_one3 p.col q.col r.col s.col
  have c4 := col_cross3 p.col q.col r.col s.col
  have c5 := col_one4 p.col q.col r.col s.col
  have c6 := col_cross4 p.col q.col r.col s.col
  obtain ⟨pk, pg, ps, pc⟩ := p
  obtain ⟨qk, qg, qs, qc⟩ := q
  obtain ⟨rk, rg, rs, rc⟩ := r
  obtain ⟨sk, sg, ss, sc⟩ := s
  simp only at hp hq hr hs
  subst hp hq hr hs
  simp only at h3 h1 h2
  have o1 : ∀ n ∈ jmsExchange, once n (pg, qg) (rg, sg) = 1 / 2 := fun n hn => once_half hn h1
  have o2 : ∀ n ∈ jmsExchange, once n (rg, sg) (pg, qg) = 1 / 2 := fun n hn => once_half hn h1.symm
  have o3 : ∀ n ∈ jmsExchange, once n (rg, qg) (pg, sg) = 1 / 2 := fun n hn => once_half hn h2
  have o4 : ∀ n ∈ jmsExchange, once n (pg, sg) (rg, qg) = 1 / 2 := fun n hn => once_half hn h2.symm
  have o5 : ∀ n ∈ jmsExchange, once n (qg, pg) (sg, rg) = 1 / 2 := fun n hn => once_half hn (h1 ∘ swap_pair)
  have o6 : ∀ n ∈ jmsExchange, once n (sg, rg) (qg, pg) = 1 / 2 := fun n hn => once_half hn (h1.symm ∘ swap_pair)
  have o7 : ∀ n ∈ jmsExchange, once n (qg, rg) (sg, pg) = 1 / 2 := fun n hn => once_half hn (h2 ∘ swap_pair)
  have o8 : ∀ n ∈ jmsExchange, once n (sg, pg) (qg, rg) = 1 / 2 := fun n hn => once_half hn (h2.symm ∘ swap_pair)
  have e1 := fun k hk => hJ k hk rg sg pg qg
  have e3 := fun k hk => hJ k hk sg rg qg pg
  subst h3
  simp only [Nc, fierzDDDD, fierzBern22, List.forall_mem_cons, Ex.val_add, Ex.val_sub, Ex.val_neg, Ex.val_mul, Ex.val_div, Ex.val_src,
    Ex.val_cj] at hF hW
  obtain ⟨F1, F2, F3, F4, F5, F6, F7, F8, F9, F10, G1, G2, G3, G4, G5, G6, G7, G8, G9, G10, -⟩ := hF
  obtain ⟨W1, W3, W5, W7, W9, V1, V3, V5, V7, V9, -⟩ := hW
  simp only [Four.anti, jmsLag, jmsOps, List.map_cons, List.map_nil, List.sum_cons, List.sum_nil, JOp.term, term_adj,
    reduceCtorEq, and_self, and_true, and_false, false_and, true_and, if_true, if_false, Bool.false_eq_true, add_zero, zero_add,
    val0_adj, val1_adj, valS_adj, Chir.flip]
  simp only [Sector.val, opsI, opsII, opsOdd, opsEven, opsNu, List.cons_append, List.nil_append, List.map_cons, List.map_nil,
    List.sum_cons, List.sum_nil, add_zero, val3_same, val3_LR, val3_RL, val4_same, val4_LR, val4_RL, val_sg_LR, val_sg_RL, zero_add]
  simp (disch := decide +kernel) only [once_no]
  simp (disch := decide +kernel) only [o1, o2, o3, o4, o5, o6, o7, o8, e1, e3]
  simp only [r4, s4, r3, s3]
  simp only [v, vLR, vRL, sLR, sRL, sS, tT]
  simp only [col_oct, c1, c2, c3, c4, c5, c6]
  rw [W1, W3, W5, W7, W9, V1, V3, V5, V7, V9]
  rw [F1, F3, F5, F7, F9, G1, G3, G5, G7, G9]
  simp (disch := decide +kernel) only [e1, e3]
  ring

/-- Four down quarks, the first and third of the same flavour. -/
theorem block_d24 (J W F : _ → ℂ) (y : String) (f1 f2 f3 f4 : Kind × Fin 3) {p q r s : Leg} (hp : p.kind = .d)
    (hq : q.kind = .d) (hr : r.kind = .d) (hs : s.kind = .d)
    (hJ : ∀ k ∈ jmsExchange, ∀ p r s t, J (k, [s, t, p, r]) = J (k, [p, r, s, t]))
    (h1 : (p.gen, q.gen) ≠ (r.gen, s.gen)) (h2 : (r.gen, q.gen) ≠ (p.gen, s.gen)) (h3 : r.gen = p.gen)
    (hF : ∀ t ∈ fierzDDDD y p.gen q.gen r.gen s.gen, F t.1 = t.2.val J) (hW : ∀ t ∈ fierzBern24 y, W t.1 = t.2.val F) :
    let X := (Sector.mk f1 f2 f3 f4 y (opsOdd .L .R .L .R)).val W
    (jmsLag J).anti p q r s = X p q r s - X r q p s := by
  obtain ⟨r4, s4, r3, s3, v, vLR, vRL, sLR, sRL, sS, tT⟩ := dirRules p.spin q.spin r.spin s.spin
  have c1 := col_one2 p.col q.col r.col s.col
  have c2 := col_cross2 p.col q.col r.col s.col
  have c3 := col_one3 p.col q.col r.col s.col
  have c4 := col_cross3 p.col q.col r.col s.col
  have c5 := col_one4 p.col q.col r.col s.col
  have c6 := col_cross4 p.col q.col r.col s.col
  obtain ⟨pk, pg, ps, pc⟩ := p
  obtain ⟨qk, qg, qs, qc⟩ := q
  obtain ⟨rk, rg, rs, rc⟩ := r
  obtain ⟨sk, sg, ss, sc⟩ := s
  simp only at hp hq hr hs
  subst hp hq hr hs
  simp only at h3 h1 h2
  have o1 : ∀ n ∈ jmsExchange, once n (pg, qg) (rg, sg) = 1 / 2 := fun n hn => once_half hn h1
  have o2 : ∀ n ∈ jmsExchange, once n (rg, sg) (pg, qg) = 1 / 2 := fun n hn => once_half hn h1.symm
  have o3 : ∀ n ∈ jmsExchange, once n (rg, qg) (pg, sg) = 1 / 2 := fun n hn => once_half hn h2
  have o4 : ∀ n ∈ jmsExchange, once n (pg, sg) (rg, qg) = 1 / 2 := fun n hn => once_half hn h2.symm
  have o5 : ∀ n ∈ jmsExchange, once n (qg, pg) (sg, rg) = 1 / 2 := fun n hn => once_half hn (h1 ∘ swap_pair)
  have o6 : ∀ n ∈ jmsExchange, once n (sg, rg) (qg, pg) = 1 / 2 := fun n hn => once_half hn (h1.symm ∘ swap_pair)
  have o7 : ∀ n ∈ jmsExchange, once n (qg, rg) (sg, pg) = 1 / 2 := fun n hn => once_half hn (h2 ∘ swap_pair)
  have o8 : ∀ n ∈ jmsExchange, once n (sg, pg) (qg, rg) = 1 / 2 := fun n hn => once_half hn (h2.symm ∘ swap_pair)
  have e1 := fun k hk => hJ k hk rg sg pg qg
  have e2 := fun k hk => hJ k hk pg sg rg qg
  have e3 := fun k hk => hJ k hk sg rg qg pg
  have e4 := fun k hk => hJ k hk sg pg qg rg
  subst h3
  simp only [Nc, fierzDDDD, fierzBern24, List.forall_mem_cons, Ex.val_add, Ex.val_sub, Ex.val_neg, Ex.val_mul, Ex.val_div, Ex.val_src,
    Ex.val_cj] at hF hW
  obtain ⟨F1, F2, F3, F4, F5, F6, F7, F8, F9, F10, G1, G2, G3, G4, G5, G6, G7, G8, G9, G10, -⟩ := hF
  obtain ⟨W1, W3, W5, W7, W9, V1, V3, V5, V7, V9, -⟩ := hW
  simp only [Four.anti, jmsLag, jmsOps, List.map_cons, List.map_nil, List.sum_cons, List.sum_nil, JOp.term, term_adj,
    reduceCtorEq, and_self, and_true, and_false, false_and, true_and, if_true, if_false, Bool.false_eq_true, add_zero, zero_add,
    val0_adj, val1_adj, valS_adj, Chir.flip]
  simp only [Sector.val, opsI, opsII, opsOdd, opsEven, opsNu, List.cons_append, List.nil_append, List.map_cons, List.map_nil,
    List.sum_cons, List.sum_nil, add_zero, val3_same, val3_LR, val3_RL, val4_same, val4_LR, val4_RL, val_sg_LR, val_sg_RL, zero_add]
  simp (disch := decide +kernel) only [once_no]
  simp (disch := decide +kernel) only [o1, o2, o3, o4, o5, o6, o7, o8, e1, e2, e3, e4]
  simp only [r4, s4, r3, s3]
  simp only [v, vLR, vRL, sLR, sRL, sS, tT]
  simp only [col_oct, c1, c2, c3, c4, c5, c6]
  rw [W1, W3, W5, W7, W9, V1, V3, V5, V7, V9]
  rw [F1, F3, F5, F7, F9, G1, G3, G5, G7, G9]
  simp (disch := decide +kernel) only [e1, e2, e3, e4]
  ring

/-- `Delta F = 2`. -/
theorem block_I (J W : _ → ℂ) (y : String) (f1 f2 f3 f4 : Kind × Fin 3) {p q r s : Leg} (hp : p.kind = .d)
    (hq : q.kind = .d) (hr : r.kind = .d) (hs : s.kind = .d) (h1 : r.gen = p.gen) (h2 : s.gen = q.gen)
    (hW : ∀ t ∈ jmsBernIDown y [p.gen, q.gen] [q.gen, p.gen], W t.1 = t.2.val J) :
    let X := (Sector.mk f1 f2 f3 f4 (y ++ y) (opsI)).val W
    (jmsLag J).anti p q r s = X p q r s - X r q p s - X p s r q + X r s p q := by
  obtain ⟨r4, s4, r3, s3, v, vLR, vRL, sLR, sRL, sS, tT⟩ := dirRules p.spin q.spin r.spin s.spin
  have c1 := col_one2 p.col q.col r.col s.col
  have c2 := col_cross2 p.col q.col r.col s.col
  have c3 := col_one3 p.col q.col r.col s.col
  have c4 := col_cross3 p.col q.col r.col s.col
  have c5 := col_one4 p.col q.col r.col s.col
  have c6 := col_cross4 p.col q.col r.col s.col
  obtain ⟨pk, pg, ps, pc⟩ := p
  obtain ⟨qk, qg, qs, qc⟩ := q
  obtain ⟨rk, rg, rs, rc⟩ := r
  obtain ⟨sk, sg, ss, sc⟩ := s
  simp only at hp hq hr hs
  subst hp hq hr hs
  simp only at h1 h2
  subst h1 h2
  simp only [Nc, jmsBernIDown, List.cons_append, List.nil_append, List.forall_mem_cons, Ex.val_add, Ex.val_sub, Ex.val_neg, Ex.val_mul, Ex.val_div, Ex.val_src,
    Ex.val_cj] at hW
  obtain ⟨W1, W2, W3, W4, W5, V1, V2, V3, -⟩ := hW
  simp only [Four.anti, jmsLag, jmsOps, List.map_cons, List.map_nil, List.sum_cons, List.sum_nil, JOp.term, term_adj,
    reduceCtorEq, and_self, and_true, and_false, false_and, true_and, if_true, if_false, Bool.false_eq_true, add_zero, zero_add,
    val0_adj, val1_adj, valS_adj, Chir.flip]
  simp only [Sector.val, opsI, opsII, opsOdd, opsEven, opsNu, List.cons_append, List.nil_append, List.map_cons, List.map_nil,
    List.sum_cons, List.sum_nil, add_zero, val3_same, val3_LR, val3_RL, val4_same, val4_LR, val4_RL, val_sg_LR, val_sg_RL, zero_add]
  simp (disch := decide +kernel) only [once_no]
  simp only [once_same]
  simp only [r4, s4, r3, s3]
  simp only [v, vLR, vRL, sLR, sRL, sS, tT]
  simp only [col_oct, c1, c2, c3, c4, c5, c6]
  rw [W1, W2, W3, W4, W5, V1, V2, V3]
  ring

end Verif
