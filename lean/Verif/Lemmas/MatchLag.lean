import Verif.Lemmas.LagBlocks
import Verif.Model.Match
import Verif.Spec.MatchLag

/-! The matching conditions describe the same Lagrangian as contact terms and boson exchange. -/

set_option autoImplicit false
set_option linter.unusedSimpArgs false

namespace Verif

open Spec

/-! ### Antisymmetrised tensors -/

theorem anti_sum {ι : Type} (l : List ι) (T : ι → Four) (p q r s : Leg) :
    Four.anti (fun p q r s => (l.map fun i => T i p q r s).sum) p q r s = (l.map fun i => (T i).anti p q r s).sum := by
  induction l with
  | nil => simp [Four.anti]
  | cons i l ih =>
    simp only [List.map_cons, List.sum_cons]
    rw [← ih]
    simp only [Four.anti]
    ring

theorem anti_add (T U : Four) (p q r s : Leg) :
    Four.anti (fun p q r s => T p q r s + U p q r s) p q r s = T.anti p q r s + U.anti p q r s := by
  simp only [Four.anti]; ring

theorem anti_mul (c : ℂ) (T : Four) (p q r s : Leg) : Four.anti (fun p q r s => c * T p q r s) p q r s = c * T.anti p q r s := by
  simp only [Four.anti]; ring

theorem adj_mulZ (c : ℤ) (T : Four) : Four.adj (fun p q r s => (c : ℂ) * T p q r s) = fun p q r s => (c : ℂ) * T.adj p q r s := by
  funext p q r s
  simp only [adj_eq, map_mul, map_intCast]

/-- `mono`, antisymmetrised. -/
noncomputable def am (k1 k2 k3 k4 : Kind) (D : Dir) (c : Col) (f : Ix4 → ℂ) (p q r s : Leg) : ℂ :=
  (mono k1 k2 k3 k4 D c f).anti p q r s

/-- The conjugate of `mono`, antisymmetrised. -/
noncomputable def ah (k1 k2 k3 k4 : Kind) (D : Dir) (c : Col) (f : Ix4 → ℂ) (p q r s : Leg) : ℂ :=
  (mono k1 k2 k3 k4 D c f).adj.anti p q r s

section

variable (k1 k2 k3 k4 : Kind) (D : Dir) (c : Col) (f g : Ix4 → ℂ) (p q r s : Leg)

theorem mono_add : mono k1 k2 k3 k4 D c (f + g) = fun p q r s => mono k1 k2 k3 k4 D c f p q r s + mono k1 k2 k3 k4 D c g p q r s := by
  funext p q r s
  unfold mono
  split_ifs
  · simp only [Pi.add_apply]; ring
  · simp

theorem mono_smul (x : ℂ) : mono k1 k2 k3 k4 D c (x • f) = fun p q r s => x * mono k1 k2 k3 k4 D c f p q r s := by
  funext p q r s
  unfold mono
  split_ifs
  · simp only [Pi.smul_apply, smul_eq_mul]; ring
  · simp

theorem am_add : am k1 k2 k3 k4 D c (f + g) p q r s = am k1 k2 k3 k4 D c f p q r s + am k1 k2 k3 k4 D c g p q r s := by
  unfold am; rw [mono_add, anti_add]

theorem am_smul (x : ℂ) : am k1 k2 k3 k4 D c (x • f) p q r s = x * am k1 k2 k3 k4 D c f p q r s := by
  unfold am; rw [mono_smul, anti_mul]

theorem am_neg : am k1 k2 k3 k4 D c (-f) p q r s = -am k1 k2 k3 k4 D c f p q r s := by
  rw [← neg_one_smul ℂ f, am_smul]; ring

theorem am_sub : am k1 k2 k3 k4 D c (f - g) p q r s = am k1 k2 k3 k4 D c f p q r s - am k1 k2 k3 k4 D c g p q r s := by
  rw [sub_eq_add_neg, am_add, am_neg]; ring

theorem am_zero : am k1 k2 k3 k4 D c 0 p q r s = 0 := by
  have := am_smul k1 k2 k3 k4 D c 0 p q r s 0
  rwa [zero_smul, zero_mul] at this

theorem ah_neg : ah k1 k2 k3 k4 D c (-f) p q r s = -ah k1 k2 k3 k4 D c f p q r s := by
  have e : (-f) = ((-1 : ℤ) : ℂ) • f := by simp
  unfold ah
  rw [e, mono_smul, adj_mulZ, anti_mul]
  simp

theorem ah_zero : ah k1 k2 k3 k4 D c 0 p q r s = 0 := by
  have e : (0 : Ix4 → ℂ) = ((0 : ℤ) : ℂ) • (0 : Ix4 → ℂ) := by simp
  unfold ah
  rw [e, mono_smul, adj_mulZ, anti_mul]
  simp

/-- Exchange of the bilinears. -/
theorem mono_exch (n : ℕ) (A B : Chir) : mono k1 k2 k3 k4 (.g n A B) c f r s p q = mono k3 k4 k1 k2 (.g n B A) c (estpr f) p q r s := by
  unfold mono
  have h1 : (r.kind = k1 ∧ s.kind = k2 ∧ p.kind = k3 ∧ q.kind = k4) ↔ (p.kind = k3 ∧ q.kind = k4 ∧ r.kind = k1 ∧ s.kind = k2) := by tauto
  have h2 : c.val r.col s.col p.col q.col = c.val p.col q.col r.col s.col := by
    cases c
    · exact col_one4 _ _ _ _
    · exact col_cross4 _ _ _ _
    · rw [col_oct, col_oct, col_one4, col_cross4]
  simp only [h1, h2, val_swap p.spin q.spin r.spin s.spin, estpr]

theorem anti_exch (T U : Four) (h : ∀ p q r s, T r s p q = U p q r s) : T.anti p q r s = U.anti p q r s := by
  simp only [Four.anti, ← h]; ring

theorem am_exch (n : ℕ) (A B : Chir) : am k1 k2 k3 k4 (.g n A B) c f p q r s = am k3 k4 k1 k2 (.g n B A) c (estpr f) p q r s :=
  anti_exch p q r s _ _ fun p q r s => mono_exch k1 k2 k3 k4 c f p q r s n A B

theorem ah_exch (n : ℕ) (A B : Chir) : ah k1 k2 k3 k4 (.g n A B) c f p q r s = ah k3 k4 k1 k2 (.g n B A) c (estpr f) p q r s := by
  refine anti_exch p q r s _ _ fun p q r s => ?_
  rw [adj_eq, adj_eq]
  exact congrArg _ (mono_exch k1 k2 k3 k4 c f q.fl p.fl s.fl r.fl n A B)

/-- Conjugate of the coefficients of a vector operator. -/
noncomputable def hc (f : Ix4 → ℂ) : Ix4 → ℂ := fun i => starRingEnd ℂ (f (i.2.1, i.1, i.2.2.2, i.2.2.1))

theorem ah_vec (A B : Chir) : ah k1 k2 k3 k4 (.g 1 A B) c f p q r s = am k2 k1 k4 k3 (.g 1 A B) c (hc f) p q r s := by
  unfold ah am
  congr 1
  funext p q r s
  rw [adj_eq]
  have h1 : (q.fl.kind = k1 ∧ p.fl.kind = k2 ∧ s.fl.kind = k3 ∧ r.fl.kind = k4) ↔
      (p.kind = k2 ∧ q.kind = k1 ∧ r.kind = k4 ∧ s.kind = k3) := by
    constructor
    · rintro ⟨h1, h2, h3, h4⟩; exact ⟨h2, h1, h4, h3⟩
    · rintro ⟨h1, h2, h3, h4⟩; exact ⟨h2, h1, h4, h3⟩
  unfold mono
  by_cases h : p.kind = k2 ∧ q.kind = k1 ∧ r.kind = k4 ∧ s.kind = k3
  · rw [if_pos h, if_pos (h1.2 h)]
    simp only [map_mul, col_real]
    rw [show q.fl.spin = prm 0 q.spin from rfl, show p.fl.spin = prm 0 p.spin from rfl, show r.fl.spin = prm 0 r.spin from rfl,
      show s.fl.spin = prm 0 s.spin from rfl, val1_adj, show c.val q.fl.col p.fl.col s.fl.col r.fl.col = c.val q.col p.col s.col r.col from rfl,
      col_adj c p.col q.col r.col s.col]
    rfl
  · rw [if_neg h, if_neg fun h' => h (h1.1 h'), map_zero]

/-- Fierz identity of vector currents of the same chirality. -/
theorem am_fierz (A : Chir) : am k1 k2 k3 k4 (.g 1 A A) .one f p q r s = am k1 k4 k3 k2 (.g 1 A A) .cross (eptsr f) p q r s := by
  have h : ∀ p q r s : Leg, mono k1 k2 k3 k4 (.g 1 A A) .one f p s r q = -mono k1 k4 k3 k2 (.g 1 A A) .cross (eptsr f) p q r s := by
    intro p q r s
    unfold mono
    have h1 : (p.kind = k1 ∧ s.kind = k2 ∧ r.kind = k3 ∧ q.kind = k4) ↔ (p.kind = k1 ∧ q.kind = k4 ∧ r.kind = k3 ∧ s.kind = k2) := by tauto
    have h2 : (Dir.g 1 A A).val p.spin s.spin r.spin q.spin = -(Dir.g 1 A A).val p.spin q.spin r.spin s.spin := by
      rw [val_swap r.spin q.spin p.spin s.spin, fierz1_same]
    simp only [h1, h2, col_one3, eptsr]
    split_ifs <;> ring
  unfold am
  simp only [Four.anti]
  rw [h p s r q |> fun e => e, h r s p q |> fun e => e, h p q r s, h r q p s]
  ring

theorem am_cross : am k1 k2 k3 k4 D .cross f p q r s = 1 / 3 * am k1 k2 k3 k4 D .one f p q r s + 2 * am k1 k2 k3 k4 D .oct f p q r s := by
  have h : ∀ p q r s : Leg, mono k1 k2 k3 k4 D .cross f p q r s =
      1 / 3 * mono k1 k2 k3 k4 D .one f p q r s + 2 * mono k1 k2 k3 k4 D .oct f p q r s := by
    intro p q r s
    unfold mono
    split_ifs
    · rw [col_oct]; ring
    · simp
  unfold am
  simp only [Four.anti, h]
  ring

/-- Leptons have no colour. -/
theorem am_leptons (hp : p.Phys) (hq : q.Phys) (hr : r.Phys) (hs : s.Phys) (h1 : k1 = .e ∨ k1 = .nu) (h2 : k2 = .e ∨ k2 = .nu)
    (h3 : k3 = .e ∨ k3 = .nu) (h4 : k4 = .e ∨ k4 = .nu) :
    am k1 k2 k3 k4 D .cross f p q r s = am k1 k2 k3 k4 D .one f p q r s := by
  have h : ∀ p q r s : Leg, p.Phys → q.Phys → r.Phys → s.Phys →
      mono k1 k2 k3 k4 D .cross f p q r s = mono k1 k2 k3 k4 D .one f p q r s := by
    intro p q r s hp hq hr hs
    unfold mono
    split_ifs with hk
    · obtain ⟨rfl, rfl, rfl, rfl⟩ := hk
      rw [hp h1, hq h2, hr h3, hs h4]
      rfl
    · rfl
  unfold am
  simp only [Four.anti]
  rw [h p q r s hp hq hr hs, h r q p s hr hq hp hs, h p s r q hp hs hr hq, h r s p q hr hs hp hq]

end

/-! ### The input of the formulas -/

/-- Matrices and tensors by their indices. -/
def srcJ (S : Src) : JSrc → ℂ := fun x =>
  match x.2 with
  | [p, r] => S.mt x.1 (p, r)
  | [p, r, s, t] => S.tn x.1 (p, r, s, t)
  | _ => 0

/-- Couplings and masses used by the formulas. -/
noncomputable def coup (w : EW) : Couplings := ⟨w.vT, w.g2b, w.gzb, w.sb, w.cb, w.mW, w.mZ⟩

theorem tens_srcJ (S : Src) (k : String) : tens (srcJ S) k = S.tn k := rfl

theorem eyeT_eq (x : ℝ) (i : Ix2) : eyeT x i = (x : ℂ) * (if i.1 = i.2 then 1 else 0) := by
  unfold eyeT; split_ifs <;> simp

section

variable (S : Src) (w : EW)

theorem zCoup_eq : zCoup (srcJ S) (coup w) (.L, .nu) = znu S w ∧ zCoup (srcJ S) (coup w) (.L, .e) = zel S w ∧
    zCoup (srcJ S) (coup w) (.R, .e) = zer S w ∧ zCoup (srcJ S) (coup w) (.L, .u) = zul S w ∧
    zCoup (srcJ S) (coup w) (.R, .u) = zur S w ∧ zCoup (srcJ S) (coup w) (.L, .d) = zdl S w ∧
    zCoup (srcJ S) (coup w) (.R, .d) = zdr S w := by
  refine ⟨?_, ?_, ?_, ?_, ?_, ?_, ?_⟩ <;> funext i <;>
    simp only [zCoup, znu, zel, zer, zul, zur, zdl, zdr, isospin, charge, zNames, shift, Option.elim, srcJ, coup, EW.v2, Pi.add_apply,
      Pi.sub_apply, Pi.smul_apply, smul_eq_mul, eyeT_eq, Prod.mk.eta] <;> push_cast <;> ring

theorem wCoup_eq : wCoup (srcJ S) (coup w) (.L, .nu, .e) = wl S w ∧ wCoup (srcJ S) (coup w) (.L, .u, .d) = wq S w ∧
    wCoup (srcJ S) (coup w) (.R, .u, .d) = wr S w := by
  refine ⟨?_, ?_, ?_⟩ <;> funext i <;>
    simp only [wCoup, wl, wq, wr, srcJ, coup, EW.v2, Pi.add_apply,
      Pi.sub_apply, Pi.smul_apply, smul_eq_mul, eyeT_eq, Prod.mk.eta] <;> push_cast <;> ring

end

theorem zz_eq (A B : Ix2 → ℂ) : (fun i : Ix4 => A (i.1, i.2.1) * B (i.2.2.1, i.2.2.2)) = epr_st A B := rfl

theorem ww_eq (A B : Ix2 → ℂ) : (fun i : Ix4 => A (i.1, i.2.1) * starRingEnd ℂ (B (i.2.2.2, i.2.2.1))) = epr_ts A (cj B) := rfl

theorem estpr_zz (A B : Ix2 → ℂ) : estpr (epr_st A B) = epr_st B A := by
  funext ⟨a, b, c, d⟩; simp only [estpr, epr_st]; ring

theorem eptsr_zz (A B : Ix2 → ℂ) : eptsr (ept_sr A B) = epr_st A B := rfl

theorem eptsr_ww (A B : Ix2 → ℂ) : eptsr (epr_ts A B) = ept_rs A B := rfl

theorem estpr_estpr (f : Ix4 → ℂ) : estpr (estpr f) = f := rfl

theorem eptsr_srpt (f : Ix4 → ℂ) : estpr (eptsr f) = esrpt f := rfl

theorem hc_add (f g : Ix4 → ℂ) : hc (f + g) = hc f + hc g := by funext i; simp [hc]
theorem hc_sub (f g : Ix4 → ℂ) : hc (f - g) = hc f - hc g := by funext i; simp [hc]
theorem hc_neg (f : Ix4 → ℂ) : hc (-f) = -hc f := by funext i; simp [hc]
theorem hc_zero : hc 0 = 0 := by funext i; simp [hc]
theorem hc_smul (x : ℂ) (f : Ix4 → ℂ) : hc (x • f) = (starRingEnd ℂ x) • hc f := by funext i; simp [hc]

theorem hc_ww (A B : Ix2 → ℂ) : hc (epr_ts A (cj B)) = estpr (epr_ts B (cj A)) := by
  funext ⟨a, b, c, d⟩; simp only [hc, epr_ts, cj, estpr, map_mul, Complex.conj_conj]; ring

theorem kw_real (w : EW) (n : ℝ) : starRingEnd ℂ (w.kw n) = w.kw n := by unfold EW.kw; rw [Complex.conj_ofReal]

theorem kz_num (w : EW) (n : ℝ) : w.kz n = w.kz 1 / (n : ℂ) := by
  unfold EW.kz; push_cast; rw [div_div]; congr 1; ring

theorem kw_num (w : EW) (n : ℝ) : w.kw n = w.kw 1 / (n : ℂ) := by
  unfold EW.kw; push_cast; rw [div_div]; congr 1; ring

theorem kz_coup (w : EW) : (((coup w).gZ ^ 2 / (2 * (coup w).mZ ^ 2) : ℝ) : ℂ) = w.kz 1 / 2 := by
  have h := kz_num w 2
  rw [Complex.ofReal_ofNat] at h
  rw [← h]; rfl

theorem kw_coup (w : EW) : (((coup w).g2 ^ 2 / (2 * (coup w).mW ^ 2) : ℝ) : ℂ) = w.kw 1 / 2 := by
  have h := kw_num w 2
  rw [Complex.ofReal_ofNat] at h
  rw [← h]; rfl

/-! ### Both sides as sums of antisymmetrised operators -/

theorem wetLag_anti (J : JSrc → ℂ) (p q r s : Leg) : (wetLag J).anti p q r s =
    (wetOps.map fun o => am o.k1 o.k2 o.k3 o.k4 o.dir o.col (tens J o.name) p q r s +
      if o.herm then 0 else ah o.k1 o.k2 o.k3 o.k4 o.dir o.col (tens J o.name) p q r s).sum := by
  have e : wetLag J = fun p q r s => (wetOps.map fun o =>
      (fun p q r s => o.mono J p q r s + (if o.herm then (fun _ _ _ _ => 0 : Four) else (o.mono J).adj) p q r s : Four) p q r s).sum := by
    funext p q r s
    unfold wetLag
    refine congrArg List.sum ?_
    exact List.map_congr_left fun o _ => by cases o.herm <;> rfl
  rw [e, anti_sum]
  congr 1
  refine List.map_congr_left fun o _ => ?_
  rw [anti_add]
  cases o.herm
  · rfl
  · simp [Four.anti, am, JOp.mono]

theorem lag_anti (S : JSrc → ℂ) (o : WOp) (p q r s : Leg) : (o.lag S).anti p q r s =
    (o.f1.comps.map fun a => (o.f2.comps.map fun b => (o.f3.comps.map fun c => (o.f4.comps.map fun d =>
      (Iso.val o.iso a.1 b.1 c.1 d.1 : ℂ) * am a.2 b.2 c.2 d.2 o.dir o.col (tens S o.name) p q r s).sum).sum).sum).sum := by
  unfold WOp.lag
  simp only [anti_sum, anti_mul]
  rfl

theorem lag_adj_anti (S : JSrc → ℂ) (o : WOp) (p q r s : Leg) : (o.lag S).adj.anti p q r s =
    (o.f1.comps.map fun a => (o.f2.comps.map fun b => (o.f3.comps.map fun c => (o.f4.comps.map fun d =>
      (Iso.val o.iso a.1 b.1 c.1 d.1 : ℂ) * ah a.2 b.2 c.2 d.2 o.dir o.col (tens S o.name) p q r s).sum).sum).sum).sum := by
  unfold WOp.lag
  simp only [sum_adj, adj_mulZ, anti_sum, anti_mul]
  rfl

theorem contactLag_anti (S : JSrc → ℂ) (p q r s : Leg) : (contactLag S).anti p q r s =
    (warsawOps.map fun o => (o.lag S).anti p q r s + if o.herm then 0 else (o.lag S).adj.anti p q r s).sum := by
  have e : contactLag S = fun p q r s => (warsawOps.map fun o =>
      (fun p q r s => o.lag S p q r s + (if o.herm then (fun _ _ _ _ => 0 : Four) else (o.lag S).adj) p q r s : Four) p q r s).sum := by
    funext p q r s
    unfold contactLag
    refine congrArg List.sum ?_
    exact List.map_congr_left fun o _ => by cases o.herm <;> rfl
  rw [e, anti_sum]
  congr 1
  refine List.map_congr_left fun o _ => ?_
  rw [anti_add]
  cases o.herm
  · rfl
  · simp [Four.anti]

theorem treeLag_anti (S : JSrc → ℂ) (c : Couplings) (p q r s : Leg) : (treeLag S c).anti p q r s =
    (contactLag S).anti p q r s + (zLag S c).anti p q r s + (wLag S c).anti p q r s := by
  unfold treeLag
  rw [anti_add (fun p q r s => contactLag S p q r s + zLag S c p q r s), anti_add]

theorem zLag_anti (S : JSrc → ℂ) (c : Couplings) (p q r s : Leg) : (zLag S c).anti p q r s =
    -((c.gZ ^ 2 / (2 * c.mZ ^ 2) : ℝ) : ℂ) * (chirals.map fun x => (chirals.map fun y =>
      am x.2 x.2 y.2 y.2 (.g 1 x.1 y.1) .one (epr_st (zCoup S c x) (zCoup S c y)) p q r s).sum).sum := by
  unfold zLag
  simp only [anti_sum, anti_mul]
  rfl

theorem wLag_anti (S : JSrc → ℂ) (c : Couplings) (p q r s : Leg) : (wLag S c).anti p q r s =
    -((c.g2 ^ 2 / (2 * c.mW ^ 2) : ℝ) : ℂ) * (charged.map fun x => (charged.map fun y =>
      am x.2.1 x.2.2 y.2.2 y.2.1 (.g 1 x.1 y.1) .one (epr_ts (wCoup S c x) (cj (wCoup S c y))) p q r s).sum).sum := by
  unfold wLag
  simp only [anti_sum, anti_mul]
  rfl

/-- The matching conditions of operators with four fermions. -/
noncomputable def fourRules : List (String × (Src → EW → Arr)) := rulesLL ++ rulesRR ++ rulesLR ++ rulesScalar

/-- Before the subtraction of the Standard Model and the rotation. -/
theorem tree_match {S : Src} {w : EW} {J : JSrc → ℂ} (hJ : ∀ x ∈ fourRules, Arr.ten (tens J x.1) = x.2 S w)
    (hl : hc (S.tn "lq3") = S.tn "lq3") {p q r s : Leg} (hp : p.Phys) (hq : q.Phys) (hr : r.Phys) (hs : s.Phys) :
    (wetLag J).anti p q r s = (treeLag (srcJ S) (coup w)).anti p q r s := by
  simp only [fourRules, rulesLL, rulesRR, rulesLR, rulesScalar, List.forall_mem_append, List.forall_mem_cons, Arr.ten.injEq] at hJ
  obtain ⟨⟨⟨⟨a1, a2, a3, a4, a5, a6, a7, a8, a9, a10, a11, a12, -⟩, ⟨b1, b2, b3, b4, b5, b6, b7, -⟩⟩,
    ⟨c1, c2, c3, c4, c5, c6, c7, c8, c9, c10, c11, c12, c13, c14, c15, c16, c17, c18, c19, -⟩⟩,
    ⟨d1, d2, d3, d4, d5, d6, d7, d8, d9, d10, d11, d12, d13, d14, d15, d16, d17, d18, -, -⟩⟩ := hJ
  obtain ⟨z1, z2, z3, z4, z5, z6, z7⟩ := zCoup_eq S w
  obtain ⟨w1, w2, w3⟩ := wCoup_eq S w
  rw [treeLag_anti, contactLag_anti, zLag_anti, wLag_anti, kz_coup, kw_coup, wetLag_anti]
  simp only [wetOps, jmsOps, List.cons_append, List.nil_append, List.map_cons, List.map_nil, List.sum_cons, List.sum_nil,
    if_true, if_false, Bool.false_eq_true, add_zero, zero_add]
  simp only [a1, a2, a3, a4, a5, a6, a7, a8, a9, a10, a11, a12, b1, b2, b3, b4, b5, b6, b7, c1, c2, c3, c4, c5, c6, c7, c8, c9, c10,
    c11, c12, c13, c14, c15, c16, c17, c18, c19, d1, d2, d3, d4, d5, d6, d7, d8, d9, d10, d11, d12, d13, d14, d15, d16, d17, d18]
  simp only [warsawOps, lag_anti, lag_adj_anti, Fld.comps, chirals, charged, List.map_cons, List.map_nil, List.sum_cons, List.sum_nil,
    if_true, if_false, Bool.false_eq_true, add_zero, zero_add, z1, z2, z3, z4, z5, z6, z7, w1, w2, w3, tens_srcJ]
  simp only [Iso.val, Fin.isValue, zero_ne_one, one_ne_zero, and_self, and_true, and_false, false_and, true_and, if_true, if_false,
    Int.cast_one, Int.cast_zero, Int.cast_neg, mul_one, mul_zero, sub_zero, zero_sub, Int.cast_sub, Int.cast_mul, Int.cast_ofNat,
    one_mul, zero_mul, add_zero, zero_add]
  have x0 : ∀ k1 k2 k3 k4 c f, am k1 k2 k3 k4 (.g 1 .R .L) c f p q r s = am k3 k4 k1 k2 (.g 1 .L .R) c (estpr f) p q r s :=
    fun k1 k2 k3 k4 c f => am_exch k1 k2 k3 k4 c f p q r s 1 .R .L
  have x1 : ∀ A c f, am .e .e .nu .nu (.g 1 A A) c f p q r s = am .nu .nu .e .e (.g 1 A A) c (estpr f) p q r s :=
    fun A c f => am_exch _ _ _ _ c f p q r s 1 A A
  have x2 : ∀ A c f, am .u .u .nu .nu (.g 1 A A) c f p q r s = am .nu .nu .u .u (.g 1 A A) c (estpr f) p q r s :=
    fun A c f => am_exch _ _ _ _ c f p q r s 1 A A
  have x3 : ∀ A c f, am .d .d .nu .nu (.g 1 A A) c f p q r s = am .nu .nu .d .d (.g 1 A A) c (estpr f) p q r s :=
    fun A c f => am_exch _ _ _ _ c f p q r s 1 A A
  have x4 : ∀ A c f, am .u .u .e .e (.g 1 A A) c f p q r s = am .e .e .u .u (.g 1 A A) c (estpr f) p q r s :=
    fun A c f => am_exch _ _ _ _ c f p q r s 1 A A
  have x5 : ∀ A c f, am .d .d .e .e (.g 1 A A) c f p q r s = am .e .e .d .d (.g 1 A A) c (estpr f) p q r s :=
    fun A c f => am_exch _ _ _ _ c f p q r s 1 A A
  have x6 : ∀ A c f, am .d .d .u .u (.g 1 A A) c f p q r s = am .u .u .d .d (.g 1 A A) c (estpr f) p q r s :=
    fun A c f => am_exch _ _ _ _ c f p q r s 1 A A
  have x7 : ∀ A c f, am .u .d .e .nu (.g 1 A A) c f p q r s = am .e .nu .u .d (.g 1 A A) c (estpr f) p q r s :=
    fun A c f => am_exch _ _ _ _ c f p q r s 1 A A
  have x8 : ∀ A c f, am .d .u .u .d (.g 1 A A) c f p q r s = am .u .d .d .u (.g 1 A A) c (estpr f) p q r s :=
    fun A c f => am_exch _ _ _ _ c f p q r s 1 A A
  have x9 : ∀ c f, am .d .u .u .d (.g 0 .R .R) c f p q r s = am .u .d .d .u (.g 0 .R .R) c (estpr f) p q r s :=
    fun c f => am_exch _ _ _ _ c f p q r s 0 .R .R
  have x10 : ∀ c f, ah .d .u .u .d (.g 0 .R .R) c f p q r s = ah .u .d .d .u (.g 0 .R .R) c (estpr f) p q r s :=
    fun c f => ah_exch _ _ _ _ c f p q r s 0 .R .R
  have y1 : ∀ A f, am .u .d .d .u (.g 1 A A) .one f p q r s = 1 / 3 * am .u .u .d .d (.g 1 A A) .one (eptsr f) p q r s +
      2 * am .u .u .d .d (.g 1 A A) .oct (eptsr f) p q r s := fun A f => by rw [am_fierz, am_cross]
  have y2 : ∀ A f, am .nu .e .e .nu (.g 1 A A) .one f p q r s = am .nu .nu .e .e (.g 1 A A) .one (eptsr f) p q r s := fun A f => by
    rw [am_fierz, am_leptons _ _ _ _ _ _ _ _ _ _ hp hq hr hs (by simp) (by simp) (by simp) (by simp)]
  have y3 : ∀ A B C, am .e .e .e .e (.g 1 A A) .one (ept_sr B C) p q r s = am .e .e .e .e (.g 1 A A) .one (epr_st B C) p q r s :=
    fun A B C => by
      rw [am_fierz, am_leptons _ _ _ _ _ _ _ _ _ _ hp hq hr hs (by simp) (by simp) (by simp) (by simp)]; rfl
  have y4 : ∀ A B C, am .nu .nu .nu .nu (.g 1 A A) .one (ept_sr B C) p q r s = am .nu .nu .nu .nu (.g 1 A A) .one (epr_st B C) p q r s :=
    fun A B C => by
      rw [am_fierz, am_leptons _ _ _ _ _ _ _ _ _ _ hp hq hr hs (by simp) (by simp) (by simp) (by simp)]; rfl
  have e1 : eptsr (estpr (S.tn "qq3")) = esrpt (S.tn "qq3") := rfl
  simp only [ah_vec, hc_add, hc_sub, hc_neg, hc_zero, hc_smul, hc_ww, hl, kw_real, map_ofNat]
  simp only [x0]
  simp only [x1, x2, x3, x4, x5, x6, x7, x8, x9, x10, y1, y2]
  simp only [am_add, am_sub, am_neg, am_smul, am_zero, ah_neg, ah_zero, y3, y4, estpr_zz, eptsr_ww, e1]
  simp only [kz_num w 2, kz_num w 4, kw_num w 2]
  push_cast
  ring

end Verif
