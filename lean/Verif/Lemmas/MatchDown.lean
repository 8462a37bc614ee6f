import Mathlib.LinearAlgebra.Matrix.NonsingularInverse
import Verif.Lemmas.MatchCkm

/-! Cancellation of the CKM matrix for operators without up quarks. -/

set_option autoImplicit false

namespace Verif

open Spec

/-! ### Covariance -/

/-- The matrix that undoes the rotation of an index. -/
noncomputable def Mark.inv (V : M3) : Mark → M3
  | .one => 1
  | .v => Matrix.conjTranspose V
  | .vc => Matrix.transpose V

theorem mark_inv_mul (V : M3) (hV : Matrix.conjTranspose V * V = 1) (m : Mark) : m.inv V * m.mat V = 1 := by
  have h1 := hV
  cases m with
  | one => exact mul_one 1
  | v => exact h1
  | vc =>
    have h2 : (Matrix.conjTranspose V * V).map (starRingEnd ℂ) = 1 := by
      rw [h1]; ext i j; by_cases h : i = j <;> simp [Matrix.one_apply, h]
    rw [Matrix.map_mul] at h2
    have h3 : (Matrix.conjTranspose V).map (starRingEnd ℂ) = Matrix.transpose V := by
      ext i j; simp
    rw [h3] at h2
    exact h2

/-- `T'` is the tensor `T` with the rotation `m` of its indices undone. -/
def Tr4 (V : M3) (m : Mark × Mark × Mark × Mark) (T T' : Ix4 → ℂ) : Prop :=
  T' = rot4 (m.1.inv V) (m.2.1.inv V) (m.2.2.1.inv V) (m.2.2.2.inv V) T

/-- The same for matrices. -/
def Tr2 (V : M3) (m : Mark × Mark) (X X' : Ix2 → ℂ) : Prop := X' = rot2 (m.1.inv V) (m.2.inv V) X

theorem Tr4.undo {V : M3} (hV : Matrix.conjTranspose V * V = 1) {k : String} {T T' : Ix4 → ℂ}
    (h : Tr4 V (codeMarks k) T T') : rotateRule V k T' = T := by
  rw [rotateRule_eq, h, rot4_comp, mark_inv_mul V hV, mark_inv_mul V hV, mark_inv_mul V hV, mark_inv_mul V hV, rot4_one]

theorem Tr4.add {V : M3} {m : Mark × Mark × Mark × Mark} {T T' R R' : Ix4 → ℂ} (h : Tr4 V m T T') (g : Tr4 V m R R') :
    Tr4 V m (T + R) (T' + R') := by
  unfold Tr4 at *
  rw [h, g]; funext i; simp only [rot4, Pi.add_apply, mul_add, Finset.sum_add_distrib]

theorem Tr4.smul {V : M3} {m : Mark × Mark × Mark × Mark} {T T' : Ix4 → ℂ} (c : ℂ) (h : Tr4 V m T T') :
    Tr4 V m (c • T) (c • T') := by
  unfold Tr4 at *
  rw [h]; funext i
  simp only [rot4, Pi.smul_apply, smul_eq_mul, Finset.mul_sum]
  refine Finset.sum_congr rfl fun p _ => Finset.sum_congr rfl fun r _ => Finset.sum_congr rfl fun s _ =>
    Finset.sum_congr rfl fun t _ => by ring

theorem Tr4.sub {V : M3} {m : Mark × Mark × Mark × Mark} {T T' R R' : Ix4 → ℂ} (h : Tr4 V m T T') (g : Tr4 V m R R') :
    Tr4 V m (T - R) (T' - R') := by
  rw [sub_eq_add_neg, sub_eq_add_neg, ← neg_one_smul ℂ R, ← neg_one_smul ℂ R']
  exact h.add (g.smul _)

theorem Tr4.zero (V : M3) (m : Mark × Mark × Mark × Mark) : Tr4 V m 0 0 := by
  unfold Tr4; funext i; simp [rot4]

theorem Tr4.rfl' (V : M3) (T : Ix4 → ℂ) : Tr4 V (.one, .one, .one, .one) T T := (rot4_one T).symm

theorem Tr2.add {V : M3} {m : Mark × Mark} {T T' R R' : Ix2 → ℂ} (h : Tr2 V m T T') (g : Tr2 V m R R') :
    Tr2 V m (T + R) (T' + R') := by
  unfold Tr2 at *
  rw [h, g]; funext i; simp only [rot2, Pi.add_apply, mul_add, Finset.sum_add_distrib]

theorem Tr2.smul {V : M3} {m : Mark × Mark} {T T' : Ix2 → ℂ} (c : ℂ) (h : Tr2 V m T T') : Tr2 V m (c • T) (c • T') := by
  unfold Tr2 at *
  rw [h]; funext i
  simp only [rot2, Pi.smul_apply, smul_eq_mul, Finset.mul_sum]
  refine Finset.sum_congr rfl fun p _ => Finset.sum_congr rfl fun r _ => by ring

theorem Tr2.sub {V : M3} {m : Mark × Mark} {T T' R R' : Ix2 → ℂ} (h : Tr2 V m T T') (g : Tr2 V m R R') :
    Tr2 V m (T - R) (T' - R') := by
  rw [sub_eq_add_neg, sub_eq_add_neg, ← neg_one_smul ℂ R, ← neg_one_smul ℂ R']
  exact h.add (g.smul _)

theorem Tr2.rfl' (V : M3) (T : Ix2 → ℂ) : Tr2 V (.one, .one) T T := (rot2_one T).symm

theorem Tr2.eye {V : M3} (hV : Matrix.conjTranspose V * V = 1) (c : ℝ) : Tr2 V (.vc, .v) (eyeT c) (eyeT c) := by
  have h1 : V * Matrix.conjTranspose V = 1 := mul_eq_one_comm.1 hV
  unfold Tr2
  funext ⟨i, j⟩
  have h2 := congrFun (congrFun h1 i) j
  simp only [Matrix.mul_apply, Matrix.one_apply] at h2
  simp only [rot2, eyeT, Mark.inv, Matrix.transpose_apply, mul_ite, mul_zero, Finset.sum_ite_eq, Finset.mem_univ, if_true]
  rw [← Finset.sum_mul, h2]
  split_ifs <;> simp

theorem Tr4.prod {V : M3} {m1 m2 m3 m4 : Mark} {X X' Y Y' : Ix2 → ℂ} (h : Tr2 V (m1, m2) X X') (g : Tr2 V (m3, m4) Y Y') :
    Tr4 V (m1, m2, m3, m4) (epr_st X Y) (epr_st X' Y') := by
  unfold Tr4 Tr2 at *
  rw [h, g]
  funext ⟨p, r, s, t⟩
  simp only [epr_st, rot2, rot4]
  rw [Finset.sum_mul]
  refine Finset.sum_congr rfl fun p _ => ?_
  rw [Finset.sum_mul]
  refine Finset.sum_congr rfl fun r _ => ?_
  rw [Finset.mul_sum]
  refine Finset.sum_congr rfl fun s _ => ?_
  rw [Finset.mul_sum]
  exact Finset.sum_congr rfl fun t _ => by ring

/-! ### Sources -/

/-- Mark that goes with a field of the SMEFT: the doublet `q` is rotated. -/
def smark (s : Slot) : Mark := if s.fld = .q then (if s.bar then .vc else .v) else .one

/-- `S'` holds the coefficients `S` with the doublet `q` rotated by the adjoint of `V`. -/
structure Cov (V : M3) (S S' : Src) : Prop where
  tn : ∀ k x y z w, IsOp k (.four x y z w) → Tr4 V (smark x, smark y, smark z, smark w) (S.tn k) (S'.tn k)
  mt : ∀ k x y, IsOp k (.two x y) → Tr2 V (smark x, smark y) (S.mt k) (S'.mt k)
  phiWB : S'.phiWB = S.phiWB

theorem Cov.zero (V : M3) (S : Src) : Cov V S.zero S.zero where
  tn _ _ _ _ _ _ := Tr4.zero V _
  mt _ _ _ _ := by
    unfold Tr2; funext i; simp [rot2, Src.zero]
  phiWB := rfl

variable {V : M3} {S S' : Src} (h : Cov V S S')
include h

theorem Cov.four {k : String} {x y z w : Slot} (ho : IsOp k (.four x y z w)) {m : Mark × Mark × Mark × Mark}
    (hm : (smark x, smark y, smark z, smark w) = m) : Tr4 V m (S.tn k) (S'.tn k) := hm ▸ h.tn k x y z w ho

theorem Cov.two {k : String} {x y : Slot} (ho : IsOp k (.two x y)) {m : Mark × Mark}
    (hm : (smark x, smark y) = m) : Tr2 V m (S.mt k) (S'.mt k) := hm ▸ h.mt k x y ho

theorem Cov.four_one {k : String} {x y z w : Slot} (ho : IsOp k (.four x y z w))
    (hm : (smark x, smark y, smark z, smark w) = (.one, .one, .one, .one)) : S'.tn k = S.tn k :=
  (h.four ho hm).trans (rot4_one _)

theorem Cov.two_one {k : String} {x y : Slot} (ho : IsOp k (.two x y)) (hm : (smark x, smark y) = (.one, .one)) :
    S'.mt k = S.mt k := (h.two ho hm).trans (rot2_one _)

theorem Cov.ll : S'.tn "ll" = S.tn "ll" := h.four_one (x := b .l) (y := n .l) (z := b .l) (w := n .l) (by decide +kernel) rfl
theorem Cov.phil1 : S'.mt "phil1" = S.mt "phil1" := h.two_one (x := b .l) (y := n .l) (by decide +kernel) rfl
theorem Cov.phil3 : S'.mt "phil3" = S.mt "phil3" := h.two_one (x := b .l) (y := n .l) (by decide +kernel) rfl
theorem Cov.phie : S'.mt "phie" = S.mt "phie" := h.two_one (x := b .e) (y := n .e) (by decide +kernel) rfl
theorem Cov.phid : S'.mt "phid" = S.mt "phid" := h.two_one (x := b .d) (y := n .d) (by decide +kernel) rfl
theorem Cov.llphiphi : S'.mt "llphiphi" = S.mt "llphiphi" := h.two_one (x := n .l) (y := n .l) (by decide +kernel) rfl
theorem Cov.eW : S'.mt "eW" = S.mt "eW" := h.two_one (x := b .l) (y := n .e) (by decide +kernel) rfl
theorem Cov.eB : S'.mt "eB" = S.mt "eB" := h.two_one (x := b .l) (y := n .e) (by decide +kernel) rfl
theorem Cov.ee : S'.tn "ee" = S.tn "ee" :=
  h.four_one (x := b .e) (y := n .e) (z := b .e) (w := n .e) (by decide +kernel) rfl
theorem Cov.ed : S'.tn "ed" = S.tn "ed" :=
  h.four_one (x := b .e) (y := n .e) (z := b .d) (w := n .d) (by decide +kernel) rfl
theorem Cov.dd : S'.tn "dd" = S.tn "dd" :=
  h.four_one (x := b .d) (y := n .d) (z := b .d) (w := n .d) (by decide +kernel) rfl
theorem Cov.le : S'.tn "le" = S.tn "le" :=
  h.four_one (x := b .l) (y := n .l) (z := b .e) (w := n .e) (by decide +kernel) rfl
theorem Cov.ld : S'.tn "ld" = S.tn "ld" :=
  h.four_one (x := b .l) (y := n .l) (z := b .d) (w := n .d) (by decide +kernel) rfl
theorem Cov.lq1 : Tr4 V (.one, .one, .vc, .v) (S.tn "lq1") (S'.tn "lq1") :=
  h.four (x := b .l) (y := n .l) (z := b .q) (w := n .q) (by decide +kernel) rfl
theorem Cov.lq3 : Tr4 V (.one, .one, .vc, .v) (S.tn "lq3") (S'.tn "lq3") :=
  h.four (x := b .l) (y := n .l) (z := b .q) (w := n .q) (by decide +kernel) rfl
theorem Cov.qq1 : Tr4 V (.vc, .v, .vc, .v) (S.tn "qq1") (S'.tn "qq1") :=
  h.four (x := b .q) (y := n .q) (z := b .q) (w := n .q) (by decide +kernel) rfl
theorem Cov.qq3 : Tr4 V (.vc, .v, .vc, .v) (S.tn "qq3") (S'.tn "qq3") :=
  h.four (x := b .q) (y := n .q) (z := b .q) (w := n .q) (by decide +kernel) rfl
theorem Cov.qe : Tr4 V (.vc, .v, .one, .one) (S.tn "qe") (S'.tn "qe") :=
  h.four (x := b .q) (y := n .q) (z := b .e) (w := n .e) (by decide +kernel) rfl
theorem Cov.qd1 : Tr4 V (.vc, .v, .one, .one) (S.tn "qd1") (S'.tn "qd1") :=
  h.four (x := b .q) (y := n .q) (z := b .d) (w := n .d) (by decide +kernel) rfl
theorem Cov.qd8 : Tr4 V (.vc, .v, .one, .one) (S.tn "qd8") (S'.tn "qd8") :=
  h.four (x := b .q) (y := n .q) (z := b .d) (w := n .d) (by decide +kernel) rfl
theorem Cov.ledq : Tr4 V (.one, .one, .one, .v) (S.tn "ledq") (S'.tn "ledq") :=
  h.four (x := b .l) (y := n .e) (z := b .d) (w := n .q) (by decide +kernel) rfl

theorem Cov.ew (p : Par) : ewOf S' p = ewOf S p := by
  have hv : vT S' p = vT S p := by unfold vT; rw [h.ll, h.phil3]
  have he : eps S' p = eps S p := by unfold eps; rw [hv, h.phiWB]
  have h2 : g2b S' p = g2b S p := by unfold g2b; rw [hv]
  have h1 : g1b S' p = g1b S p := by unfold g1b; rw [h2, he]
  have hs : sb S' p = sb S p := by unfold sb; rw [h1, h2, he]
  have hc : cb S' p = cb S p := by unfold cb; rw [h1, h2, he]
  have hb : eb S' p = eb S p := by unfold eb; rw [h2, hs, hc, hv, h.phiWB]
  have hz : gzb S' p = gzb S p := by unfold gzb; rw [hb, hs, hc, h1, h2, hv, h.phiWB]
  unfold ewOf
  rw [hv, h2, hs, hc, hz]

theorem Cov.znu (w : EW) : znu S' w = znu S w := by unfold Verif.znu; rw [h.phil1, h.phil3]
theorem Cov.zel (w : EW) : zel S' w = zel S w := by unfold Verif.zel; rw [h.phil1, h.phil3]
theorem Cov.zer (w : EW) : zer S' w = zer S w := by unfold Verif.zer; rw [h.phie]
theorem Cov.zdr (w : EW) : zdr S' w = zdr S w := by unfold Verif.zdr; rw [h.phid]
theorem Cov.wl (w : EW) : wl S' w = wl S w := by unfold Verif.wl; rw [h.phil3]

theorem Cov.zdl (hV : Matrix.conjTranspose V * V = 1) (w : EW) : Tr2 V (.vc, .v) (zdl S w) (zdl S' w) :=
  ((Tr2.eye hV _).sub ((h.two (x := b .q) (y := n .q) (by decide +kernel) rfl).smul _)).sub
    ((h.two (x := b .q) (y := n .q) (by decide +kernel) rfl).smul _)

omit h

/-! ### Matching conditions -/

/-- A matching condition whose rotated value does not depend on the rotation. -/
def Inv1 (V : M3) (k : String) (f : Src → EW → Arr) : Prop :=
  ∀ S S' S0 w w0, Cov V S S' → Cov V S0 S0 → rotEntry V k ((f S' w).sub (f S0 w0)) = (f S w).sub (f S0 w0)

theorem inv_mat {V : M3} {k : String} {g : Src → EW → Ix2 → ℂ} (h : ∀ S S' w, Cov V S S' → g S' w = g S w) :
    Inv1 V k fun C w => .mat (g C w) := by
  intro S S' S0 w w0 hS h0
  simp only [Arr.sub, rotEntry]
  rw [h S S' w hS]

theorem inv_ten {V : M3} (hV : Matrix.conjTranspose V * V = 1) {k : String} {g : Src → EW → Ix4 → ℂ}
    (m : Mark × Mark × Mark × Mark) (hm : codeMarks k = m) (h : ∀ S S' w, Cov V S S' → Tr4 V m (g S w) (g S' w)) : Inv1 V k fun C w => .ten (g C w) := by
  intro S S' S0 w w0 hS h0
  simp only [Arr.sub, rotEntry]
  subst hm
  exact congrArg Arr.ten (((h S S' w hS).sub (h S0 S0 w0 h0)).undo hV)

theorem inv_eq {V : M3} (hV : Matrix.conjTranspose V * V = 1) {k : String} {g : Src → EW → Ix4 → ℂ}
    (hk : codeMarks k = (.one, .one, .one, .one)) (h : ∀ S S' w, Cov V S S' → g S' w = g S w) :
    Inv1 V k fun C w => .ten (g C w) := by
  refine inv_ten hV _ hk fun S S' w hS => ?_
  rw [h S S' w hS]
  exact Tr4.rfl' V _

/-- Names of the operators of `NoUp` that are not dipoles of the down quarks. -/
def downNames : List String := ["nu", "nugamma", "egamma", "VnunuLL", "VeeLL", "VnueLL", "VnudLL", "VedLL", "VddLL", "VeeRR",
  "VedRR", "VddRR", "VnueLR", "VeeLR", "VnudLR", "VedLR", "VdeLR", "V1ddLR", "V8ddLR", "SedRL", "SeeRR", "SedRR", "TedRR",
  "S1ddRR", "S8ddRR", "SnunuLL", "SnueLL", "TnueLL", "SnueLR", "SnudLL", "TnudLL", "SnudLR", "SdddLL", "SdddLR", "SdddRL",
  "SdddRR"]

theorem noUp_names {k : String} (h : NoUp k) (hk : k ∉ ["dgamma", "dG"]) : k ∈ downNames := by
  have : ∀ p ∈ wetTable, ∀ k ∈ p.2, p.1 ≠ [] → (∀ s ∈ p.1, s.fld ≠ .u) → k ∉ ["dgamma", "dG"] → k ∈ downNames := by
    decide +kernel
  obtain ⟨ss, ⟨ks, h1, h2⟩, h3, h4⟩ := h
  exact this _ h1 k h2 h3 h4 hk

theorem rules_down {V : M3} (hV : Matrix.conjTranspose V * V = 1) :
    ∀ r ∈ matchRules, r.1 ∈ downNames → Inv1 V r.1 r.2 := by
  unfold matchRules rulesDipole rulesLL rulesRR rulesLR rulesScalar rulesBL
  simp only [List.cons_append, List.nil_append, List.forall_mem_cons]
  repeat' apply And.intro
  on_goal 97 => simp
  all_goals first
    | exact fun hk => absurd hk (by decide +kernel)
    | (refine fun _ => inv_ten hV _ rfl fun S S' w h => ?_; with_reducible exact Tr4.zero V _)
    | skip
  · exact fun _ => inv_mat fun S S' w h => by rw [h.llphiphi]
  · exact fun _ => inv_mat fun S S' w h => rfl
  · exact fun _ => inv_mat fun S S' w h => by rw [h.eW, h.eB]
  · exact fun _ => inv_eq hV (by decide +kernel) fun S S' w h => by simp only [h.ll, h.znu]
  · exact fun _ => inv_eq hV (by decide +kernel) fun S S' w h => by simp only [h.ll, h.zel]
  · exact fun _ => inv_eq hV (by decide +kernel) fun S S' w h => by simp only [h.ll, h.wl, h.znu, h.zel]
  · exact fun _ => inv_ten hV (.one, .one, .vc, .v) (by decide +kernel) fun S S' w h => (h.lq1.sub h.lq3).sub ((Tr4.prod (h.znu w ▸ Tr2.rfl' V _) (h.zdl hV w)).smul _)
  · exact fun _ => inv_ten hV (.one, .one, .vc, .v) (by decide +kernel) fun S S' w h => (h.lq1.add h.lq3).sub ((Tr4.prod (h.zel w ▸ Tr2.rfl' V _) (h.zdl hV w)).smul _)
  · exact fun _ => inv_ten hV (.vc, .v, .vc, .v) (by decide +kernel) fun S S' w h => (h.qq1.add h.qq3).sub ((Tr4.prod (h.zdl hV w) (h.zdl hV w)).smul _)
  · exact fun _ => inv_eq hV (by decide +kernel) fun S S' w h => by simp only [h.zer, h.ee]
  · exact fun _ => inv_eq hV (by decide +kernel) fun S S' w h => by simp only [h.zer, h.zdr, h.ed]
  · exact fun _ => inv_eq hV (by decide +kernel) fun S S' w h => by simp only [h.zdr, h.dd]
  · exact fun _ => inv_eq hV (by decide +kernel) fun S S' w h => by simp only [h.znu, h.zer, h.le]
  · exact fun _ => inv_eq hV (by decide +kernel) fun S S' w h => by simp only [h.zel, h.zer, h.le]
  · exact fun _ => inv_eq hV (by decide +kernel) fun S S' w h => by simp only [h.znu, h.zdr, h.ld]
  · exact fun _ => inv_eq hV (by decide +kernel) fun S S' w h => by simp only [h.zel, h.zdr, h.ld]
  · exact fun _ => inv_ten hV (.vc, .v, .one, .one) (by decide +kernel) fun S S' w h => h.qe.sub ((Tr4.prod (h.zdl hV w) (h.zer w ▸ Tr2.rfl' V _)).smul _)
  · exact fun _ => inv_ten hV (.vc, .v, .one, .one) (by decide +kernel) fun S S' w h => h.qd1.sub ((Tr4.prod (h.zdl hV w) (h.zdr w ▸ Tr2.rfl' V _)).smul _)
  · exact fun _ => inv_ten hV (.vc, .v, .one, .one) (by decide +kernel) fun S S' w h => h.qd8
  · exact fun _ => inv_ten hV (.one, .one, .one, .v) (by decide +kernel) fun S S' w h => h.ledq

end Verif
