import Verif.Spec.Charge
import Verif.Lemmas.MatchDown

/-! Phases of fields in the matching. -/

set_option autoImplicit false

namespace Verif

open Spec

/-- The matrix `M'` is `M` with phases. -/
def Ph2 (φ : Fld → Fin 3 → ℂ) (x y : Slot) (M M' : Ix2 → ℂ) : Prop := ∀ p r, M' (p, r) = x.phase φ p * y.phase φ r * M (p, r)

/-- The tensor `T'` is `T` with phases. -/
def Ph4 (φ : Fld → Fin 3 → ℂ) (x y z w : Slot) (T T' : Ix4 → ℂ) : Prop :=
  ∀ p r s t, T' (p, r, s, t) = x.phase φ p * y.phase φ r * z.phase φ s * w.phase φ t * T (p, r, s, t)

theorem phase_b (φ : Fld → Fin 3 → ℂ) (f : Fld) (i : Fin 3) : (b f).phase φ i = starRingEnd ℂ (φ f i) := rfl

theorem phase_n (φ : Fld → Fin 3 → ℂ) (f : Fld) (i : Fin 3) : (n f).phase φ i = φ f i := rfl

section

variable {φ : Fld → Fin 3 → ℂ} {x y z w : Slot}

theorem Ph2.add {A A' B B' : Ix2 → ℂ} (h : Ph2 φ x y A A') (g : Ph2 φ x y B B') : Ph2 φ x y (A + B) (A' + B') := by
  intro p r; simp only [Pi.add_apply, h p r, g p r]; ring

theorem Ph2.sub {A A' B B' : Ix2 → ℂ} (h : Ph2 φ x y A A') (g : Ph2 φ x y B B') : Ph2 φ x y (A - B) (A' - B') := by
  intro p r; simp only [Pi.sub_apply, h p r, g p r]; ring

theorem Ph2.neg {A A' : Ix2 → ℂ} (h : Ph2 φ x y A A') : Ph2 φ x y (-A) (-A') := by
  intro p r; simp only [Pi.neg_apply, h p r]; ring

theorem Ph2.smul {A A' : Ix2 → ℂ} (c : ℂ) (h : Ph2 φ x y A A') : Ph2 φ x y (c • A) (c • A') := by
  intro p r; simp only [Pi.smul_apply, smul_eq_mul, h p r]; ring

theorem Ph2.zero : Ph2 φ x y 0 0 := by intro p r; simp

theorem Ph2.eye (hφ : Phases φ) (f : Fld) (c : ℝ) : Ph2 φ (b f) (n f) (eyeT c) (eyeT c) := by
  intro p r
  simp only [eyeT, phase_b, phase_n]
  by_cases h : p = r
  · subst h; rw [if_pos rfl, hφ.unit, one_mul]
  · rw [if_neg h, mul_zero]

theorem Ph2.cj {f g : Fld} {A A' : Ix2 → ℂ} (h : Ph2 φ (b f) (n g) A A') : Ph2 φ (n f) (b g) (cj A) (cj A') := by
  intro p r
  simp only [Verif.cj, h p r, map_mul, phase_b, phase_n, Complex.conj_conj]

theorem Ph4.add {A A' B B' : Ix4 → ℂ} (h : Ph4 φ x y z w A A') (g : Ph4 φ x y z w B B') : Ph4 φ x y z w (A + B) (A' + B') := by
  intro p r s t; simp only [Pi.add_apply, h p r s t, g p r s t]; ring

theorem Ph4.sub {A A' B B' : Ix4 → ℂ} (h : Ph4 φ x y z w A A') (g : Ph4 φ x y z w B B') : Ph4 φ x y z w (A - B) (A' - B') := by
  intro p r s t; simp only [Pi.sub_apply, h p r s t, g p r s t]; ring

theorem Ph4.neg {A A' : Ix4 → ℂ} (h : Ph4 φ x y z w A A') : Ph4 φ x y z w (-A) (-A') := by
  intro p r s t; simp only [Pi.neg_apply, h p r s t]; ring

theorem Ph4.smul {A A' : Ix4 → ℂ} (c : ℂ) (h : Ph4 φ x y z w A A') : Ph4 φ x y z w (c • A) (c • A') := by
  intro p r s t; simp only [Pi.smul_apply, smul_eq_mul, h p r s t]; ring

theorem Ph4.zero : Ph4 φ x y z w 0 0 := by intro p r s t; simp

theorem Ph4.pr_st {A A' B B' : Ix2 → ℂ} (h : Ph2 φ x y A A') (g : Ph2 φ z w B B') : Ph4 φ x y z w (epr_st A B) (epr_st A' B') := by
  intro p r s t; simp only [epr_st, h p r, g s t]; ring

theorem Ph4.pt_sr {A A' B B' : Ix2 → ℂ} (h : Ph2 φ x w A A') (g : Ph2 φ z y B B') : Ph4 φ x y z w (ept_sr A B) (ept_sr A' B') := by
  intro p r s t; simp only [ept_sr, h p t, g s r]; ring

theorem Ph4.pt_rs {A A' B B' : Ix2 → ℂ} (h : Ph2 φ x w A A') (g : Ph2 φ y z B B') : Ph4 φ x y z w (ept_rs A B) (ept_rs A' B') := by
  intro p r s t; simp only [ept_rs, h p t, g r s]; ring

theorem Ph4.pr_ts {A A' B B' : Ix2 → ℂ} (h : Ph2 φ x y A A') (g : Ph2 φ w z B B') : Ph4 φ x y z w (epr_ts A B) (epr_ts A' B') := by
  intro p r s t; simp only [epr_ts, h p r, g t s]; ring

theorem Ph4.stpr {T T' : Ix4 → ℂ} (h : Ph4 φ z w x y T T') : Ph4 φ x y z w (estpr T) (estpr T') := by
  intro p r s t; simp only [estpr, h s t p r]; ring

theorem Ph4.ptsr {T T' : Ix4 → ℂ} (h : Ph4 φ x w z y T T') : Ph4 φ x y z w (eptsr T) (eptsr T') := by
  intro p r s t; simp only [eptsr, h p t s r]; ring

theorem Ph4.srpt {T T' : Ix4 → ℂ} (h : Ph4 φ z y x w T T') : Ph4 φ x y z w (esrpt T) (esrpt T') := by
  intro p r s t; simp only [esrpt, h s r p t]; ring

theorem Ph4.rpst {T T' : Ix4 → ℂ} (h : Ph4 φ y x z w T T') : Ph4 φ x y z w (erpst T) (erpst T') := by
  intro p r s t; simp only [erpst, h r p s t]; ring

end

/-- What the formulas read, with phases. -/
structure Phased (φ : Fld → Fin 3 → ℂ) (S S' : Src) : Prop where
  tn : ∀ k x y z w, IsOp k (.four x y z w) → Ph4 φ x y z w (S.tn k) (S'.tn k)
  mt : ∀ k x y, IsOp k (.two x y) → Ph2 φ x y (S.mt k) (S'.mt k)
  phiWB : S'.phiWB = S.phiWB

theorem Phased.zero {φ : Fld → Fin 3 → ℂ} (S S' : Src) : Phased φ S.zero S'.zero :=
  ⟨fun _ _ _ _ _ _ => Ph4.zero, fun _ _ _ _ => Ph2.zero, rfl⟩

theorem ewOf_same {S S' : Src} {p : Par} (hv : vT S' p = vT S p) (hB : S'.phiWB = S.phiWB) : ewOf S' p = ewOf S p := by
  have he : eps S' p = eps S p := by unfold eps; rw [hv, hB]
  have h2 : g2b S' p = g2b S p := by unfold g2b; rw [hv]
  have h1 : g1b S' p = g1b S p := by unfold g1b; rw [h2, he]
  have hs : sb S' p = sb S p := by unfold sb; rw [h1, h2, he]
  have hc : cb S' p = cb S p := by unfold cb; rw [h1, h2, he]
  have hb : eb S' p = eb S p := by unfold eb; rw [h2, hs, hc, hv, hB]
  have hz : gzb S' p = gzb S p := by unfold gzb; rw [hb, hs, hc, h1, h2, hv, hB]
  unfold ewOf
  rw [hv, h2, hs, hc, hz]

section

variable {φ : Fld → Fin 3 → ℂ} {S S' : Src} (h : Phased φ S S') (hφ : Phases φ)

include h hφ

theorem Phased.ew (p : Par) : ewOf S' p = ewOf S p := by
  refine ewOf_same ?_ h.phiWB
  have l := h.tn "ll" (b .l) (n .l) (b .l) (n .l) (by decide +kernel)
  have m := h.mt "phil3" (b .l) (n .l) (by decide +kernel)
  have u := hφ.unit .l
  have l1 : S'.tn "ll" (1, 0, 0, 1) = S.tn "ll" (1, 0, 0, 1) := by
    rw [l 1 0 0 1]
    simp only [phase_b, phase_n]
    linear_combination (S.tn "ll" (1, 0, 0, 1)) * (starRingEnd ℂ (φ .l 0) * φ .l 0 * u 1 + u 0)
  have l2 : S'.tn "ll" (0, 1, 1, 0) = S.tn "ll" (0, 1, 1, 0) := by
    rw [l 0 1 1 0]
    simp only [phase_b, phase_n]
    linear_combination (S.tn "ll" (0, 1, 1, 0)) * (starRingEnd ℂ (φ .l 0) * φ .l 0 * u 1 + u 0)
  have m1 : ∀ i, S'.mt "phil3" (i, i) = S.mt "phil3" (i, i) := by
    intro i
    rw [m i i]
    simp only [phase_b, phase_n]
    rw [u i, one_mul]
  unfold vT
  rw [l1, l2, m1, m1]

theorem Phased.wl (w : EW) : Ph2 φ (b .l) (n .l) (wl S w) (wl S' w) :=
  (Ph2.eye hφ .l _).add ((h.mt _ _ _ (by decide +kernel)).smul _)
theorem Phased.wq (w : EW) : Ph2 φ (b .q) (n .q) (wq S w) (wq S' w) :=
  (Ph2.eye hφ .q _).add ((h.mt _ _ _ (by decide +kernel)).smul _)
omit hφ in
theorem Phased.wr (w : EW) : Ph2 φ (b .u) (n .d) (wr S w) (wr S' w) := (h.mt _ _ _ (by decide +kernel)).smul _
theorem Phased.znu (w : EW) : Ph2 φ (b .l) (n .l) (znu S w) (znu S' w) :=
  ((Ph2.eye hφ .l _).sub ((h.mt _ _ _ (by decide +kernel)).smul _)).add ((h.mt _ _ _ (by decide +kernel)).smul _)
theorem Phased.zel (w : EW) : Ph2 φ (b .l) (n .l) (zel S w) (zel S' w) :=
  ((Ph2.eye hφ .l _).sub ((h.mt _ _ _ (by decide +kernel)).smul _)).sub ((h.mt _ _ _ (by decide +kernel)).smul _)
theorem Phased.zer (w : EW) : Ph2 φ (b .e) (n .e) (zer S w) (zer S' w) :=
  (Ph2.eye hφ .e _).sub ((h.mt _ _ _ (by decide +kernel)).smul _)
theorem Phased.zul (w : EW) : Ph2 φ (b .q) (n .q) (zul S w) (zul S' w) :=
  ((Ph2.eye hφ .q _).sub ((h.mt _ _ _ (by decide +kernel)).smul _)).add ((h.mt _ _ _ (by decide +kernel)).smul _)
theorem Phased.zur (w : EW) : Ph2 φ (b .u) (n .u) (zur S w) (zur S' w) :=
  (Ph2.eye hφ .u _).sub ((h.mt _ _ _ (by decide +kernel)).smul _)
theorem Phased.zdl (w : EW) : Ph2 φ (b .q) (n .q) (zdl S w) (zdl S' w) :=
  ((Ph2.eye hφ .q _).sub ((h.mt _ _ _ (by decide +kernel)).smul _)).sub ((h.mt _ _ _ (by decide +kernel)).smul _)
theorem Phased.zdr (w : EW) : Ph2 φ (b .d) (n .d) (zdr S w) (zdr S' w) :=
  (Ph2.eye hφ .d _).sub ((h.mt _ _ _ (by decide +kernel)).smul _)

end

/-! ### Arrays -/

/-- The array `a'` is `a` with phases. -/
def PhArr (φ : Fld → Fin 3 → ℂ) : List Slot → Arr → Arr → Prop
  | [x, y], .mat m, .mat m' => Ph2 φ x y m m'
  | [x, y, z, w], .ten t, .ten t' => Ph4 φ x y z w t t'
  | [], _, _ => True
  | _, _, _ => False

/-- Fields of the coefficients of `rulesDipole`. -/
def slotsDipole : List (List Slot) := [
  [n .l, n .l],
  [n .l, n .l],
  [b .l, n .e],
  [b .q, n .u],
  [b .q, n .d],
  [b .q, n .u],
  [b .q, n .d],
  [],
  []]

/-- Fields of the coefficients of `rulesLL`. -/
def slotsLL : List (List Slot) := [
  [b .l, n .l, b .l, n .l],
  [b .l, n .l, b .l, n .l],
  [b .l, n .l, b .l, n .l],
  [b .l, n .l, b .q, n .q],
  [b .l, n .l, b .q, n .q],
  [b .l, n .l, b .q, n .q],
  [b .l, n .l, b .q, n .q],
  [b .l, n .l, b .q, n .q],
  [b .q, n .q, b .q, n .q],
  [b .q, n .q, b .q, n .q],
  [b .q, n .q, b .q, n .q],
  [b .q, n .q, b .q, n .q]]

/-- Fields of the coefficients of `rulesRR`. -/
def slotsRR : List (List Slot) := [
  [b .e, n .e, b .e, n .e],
  [b .e, n .e, b .u, n .u],
  [b .e, n .e, b .d, n .d],
  [b .u, n .u, b .u, n .u],
  [b .d, n .d, b .d, n .d],
  [b .u, n .u, b .d, n .d],
  [b .u, n .u, b .d, n .d]]

/-- Fields of the coefficients of `rulesLR`. -/
def slotsLR : List (List Slot) := [
  [b .l, n .l, b .e, n .e],
  [b .l, n .l, b .e, n .e],
  [b .l, n .l, b .u, n .u],
  [b .l, n .l, b .d, n .d],
  [b .l, n .l, b .u, n .u],
  [b .l, n .l, b .d, n .d],
  [b .q, n .q, b .e, n .e],
  [b .q, n .q, b .e, n .e],
  [b .l, n .l, b .d, n .u],
  [b .q, n .q, b .u, n .u],
  [b .q, n .q, b .u, n .u],
  [b .q, n .q, b .d, n .d],
  [b .q, n .q, b .d, n .d],
  [b .q, n .q, b .u, n .u],
  [b .q, n .q, b .u, n .u],
  [b .q, n .q, b .d, n .d],
  [b .q, n .q, b .d, n .d],
  [b .q, n .q, b .d, n .u],
  [b .q, n .q, b .d, n .u]]

/-- Fields of the coefficients of `rulesScalar`. -/
def slotsScalar : List (List Slot) := [
  [b .l, n .e, b .u, n .q],
  [b .l, n .e, b .d, n .q],
  [b .l, n .e, b .d, n .q],
  [b .l, n .e, b .l, n .e],
  [b .l, n .e, b .q, n .u],
  [b .l, n .e, b .q, n .u],
  [b .l, n .e, b .q, n .d],
  [b .l, n .e, b .q, n .d],
  [b .l, n .e, b .q, n .u],
  [b .l, n .e, b .q, n .u],
  [b .q, n .u, b .q, n .u],
  [b .q, n .u, b .q, n .u],
  [b .q, n .u, b .q, n .d],
  [b .q, n .u, b .q, n .d],
  [b .q, n .d, b .q, n .d],
  [b .q, n .d, b .q, n .d],
  [b .q, n .d, b .q, n .u],
  [b .q, n .d, b .q, n .u],
  [n .l, n .l, n .l, n .l]]

/-- Fields of the coefficients of `rulesBL`. -/
def slotsBL : List (List Slot) := [
  [n .l, n .l, b .e, n .l],
  [n .l, n .l, b .e, n .l],
  [n .l, n .l, b .l, n .e],
  [n .l, n .l, b .u, n .q],
  [n .l, n .l, b .u, n .q],
  [n .l, n .l, b .q, n .u],
  [n .l, n .l, b .d, n .q],
  [n .l, n .l, b .d, n .q],
  [n .l, n .l, b .q, n .d],
  [n .l, n .l, b .d, n .q],
  [n .l, n .l, b .d, n .q],
  [n .l, n .l, b .q, n .u],
  [n .l, n .e, b .q, n .q],
  [n .l, n .e, b .d, n .u],
  [n .q, n .q, n .q, n .l],
  [n .q, n .q, n .q, n .l],
  [n .q, n .q, n .d, n .e],
  [n .q, n .q, n .u, n .e],
  [n .u, n .u, n .q, n .l],
  [n .d, n .u, n .q, n .l],
  [n .d, n .u, n .q, n .l],
  [n .d, n .d, n .q, n .l],
  [n .d, n .u, n .u, n .e],
  [n .q, n .q, b .e, n .q],
  [n .q, n .q, b .l, n .d],
  [n .q, n .q, b .l, n .u],
  [n .q, n .q, b .l, n .d],
  [n .d, n .d, b .e, n .q],
  [n .u, n .d, b .l, n .d],
  [n .d, n .d, b .l, n .d]]

/-- Fields of the coefficients in the order of the matching conditions. -/
def ruleSlots : List (List Slot) := slotsDipole ++ slotsLL ++ slotsRR ++ slotsLR ++ slotsScalar ++ slotsBL

theorem ruleSlots_spec : ∀ p ∈ wetTable, ∀ k ∈ p.2, ∀ q ∈ wetNames.zip ruleSlots, q.1 = k → q.2 = p.1.map WSlot.slot := by decide +kernel

/-- One step of a proof that an expression takes phases. -/
macro "phase_step" h:ident hφ:ident : tactic => `(tactic| first
  | with_reducible exact Ph4.zero
  | with_reducible exact Ph2.zero
  | with_reducible apply Ph4.sub
  | with_reducible apply Ph4.add
  | with_reducible apply Ph4.neg
  | with_reducible apply Ph4.smul
  | with_reducible apply Ph4.pr_st
  | with_reducible apply Ph4.pt_sr
  | with_reducible apply Ph4.pt_rs
  | with_reducible apply Ph4.pr_ts
  | with_reducible apply Ph4.stpr
  | with_reducible apply Ph4.ptsr
  | with_reducible apply Ph4.srpt
  | with_reducible apply Ph4.rpst
  | with_reducible apply Ph2.sub
  | with_reducible apply Ph2.add
  | with_reducible apply Ph2.neg
  | with_reducible apply Ph2.smul
  | with_reducible apply Ph2.cj
  | with_reducible exact Phased.znu $h $hφ _
  | with_reducible exact Phased.zel $h $hφ _
  | with_reducible exact Phased.zer $h $hφ _
  | with_reducible exact Phased.zul $h $hφ _
  | with_reducible exact Phased.zur $h $hφ _
  | with_reducible exact Phased.zdl $h $hφ _
  | with_reducible exact Phased.zdr $h $hφ _
  | with_reducible exact Phased.wl $h $hφ _
  | with_reducible exact Phased.wq $h $hφ _
  | with_reducible exact Phased.wr $h _
  | exact Phased.tn $h _ _ _ _ _ (by decide +kernel)
  | exact Phased.mt $h _ _ _ (by decide +kernel)
  | exact trivial)

section

variable {φ : Fld → Fin 3 → ℂ} {S S' : Src} (h : Phased φ S S') (hφ : Phases φ) (w : EW)

include h hφ

omit hφ in
theorem phaseDipole : List.Forall₂ (fun r ss => PhArr φ ss (r.2 S w) (r.2 S' w)) rulesDipole slotsDipole := by
  unfold rulesDipole slotsDipole
  repeat' apply List.Forall₂.cons
  all_goals first
    | exact List.Forall₂.nil
    | (dsimp only [PhArr]; repeat' phase_step h h)

theorem phaseLL : List.Forall₂ (fun r ss => PhArr φ ss (r.2 S w) (r.2 S' w)) rulesLL slotsLL := by
  unfold rulesLL slotsLL
  repeat' apply List.Forall₂.cons
  all_goals first
    | exact List.Forall₂.nil
    | (dsimp only [PhArr]; repeat' phase_step h hφ)

theorem phaseRR : List.Forall₂ (fun r ss => PhArr φ ss (r.2 S w) (r.2 S' w)) rulesRR slotsRR := by
  unfold rulesRR slotsRR
  repeat' apply List.Forall₂.cons
  all_goals first
    | exact List.Forall₂.nil
    | (dsimp only [PhArr]; repeat' phase_step h hφ)

theorem phaseLR : List.Forall₂ (fun r ss => PhArr φ ss (r.2 S w) (r.2 S' w)) rulesLR slotsLR := by
  unfold rulesLR slotsLR
  repeat' apply List.Forall₂.cons
  all_goals first
    | exact List.Forall₂.nil
    | (dsimp only [PhArr]; repeat' phase_step h hφ)

omit hφ in
theorem phaseScalar : List.Forall₂ (fun r ss => PhArr φ ss (r.2 S w) (r.2 S' w)) rulesScalar slotsScalar := by
  unfold rulesScalar slotsScalar
  repeat' apply List.Forall₂.cons
  all_goals first
    | exact List.Forall₂.nil
    | (dsimp only [PhArr]; repeat' phase_step h h)

omit hφ in
theorem phaseBL : List.Forall₂ (fun r ss => PhArr φ ss (r.2 S w) (r.2 S' w)) rulesBL slotsBL := by
  unfold rulesBL slotsBL
  repeat' apply List.Forall₂.cons
  all_goals first
    | exact List.Forall₂.nil
    | (dsimp only [PhArr]; repeat' phase_step h h)

theorem phase_rules : List.Forall₂ (fun r ss => PhArr φ ss (r.2 S w) (r.2 S' w)) matchRules ruleSlots :=
  List.rel_append (List.rel_append (List.rel_append (List.rel_append (List.rel_append (phaseDipole h w) (phaseLL h hφ w)) (phaseRR h hφ w))
    (phaseLR h hφ w)) (phaseScalar h w)) (phaseBL h w)

end

/-! ### Rotations -/

/-- A matrix that commutes with the phases of a field. -/
def CommPh (φ : Fld → Fin 3 → ℂ) (s : Slot) (M : M3) : Prop := ∀ p i, M p i * s.phase φ p = s.phase φ i * M p i

theorem commPh_one (φ : Fld → Fin 3 → ℂ) (s : Slot) : CommPh φ s 1 := by
  intro p i
  by_cases h : p = i
  · subst h; exact mul_comm _ _
  · rw [Matrix.one_apply_ne h, zero_mul, mul_zero]

theorem commPh_q {φ : Fld → Fin 3 → ℂ} (hφ : Phases φ) {s : Slot} (hs : s.fld = .q) (M : M3) : CommPh φ s M := by
  intro p i
  have : s.phase φ p = s.phase φ i := by
    unfold Slot.phase
    rw [hs, hφ.doublet p i]
  rw [this, mul_comm]

theorem Ph2.rot {φ : Fld → Fin 3 → ℂ} {x y : Slot} {A B : M3} (hA : CommPh φ x A) (hB : CommPh φ y B) {M M' : Ix2 → ℂ}
    (h : Ph2 φ x y M M') : Ph2 φ x y (rot2 A B M) (rot2 A B M') := by
  intro p r
  simp only [rot2, Finset.mul_sum]
  refine Finset.sum_congr rfl fun a _ => Finset.sum_congr rfl fun c _ => ?_
  rw [h a c]
  linear_combination (B c r * y.phase φ c * M (a, c)) * hA a p + (x.phase φ p * A a p * M (a, c)) * hB c r

theorem Ph4.rot {φ : Fld → Fin 3 → ℂ} {x y z w : Slot} {A B C D : M3} (hA : CommPh φ x A) (hB : CommPh φ y B) (hC : CommPh φ z C)
    (hD : CommPh φ w D) {M M' : Ix4 → ℂ} (h : Ph4 φ x y z w M M') : Ph4 φ x y z w (rot4 A B C D M) (rot4 A B C D M') := by
  intro p r s t
  simp only [rot4, Finset.mul_sum]
  refine Finset.sum_congr rfl fun a _ => Finset.sum_congr rfl fun c _ => Finset.sum_congr rfl fun e _ => Finset.sum_congr rfl fun f _ => ?_
  rw [h a c e f]
  linear_combination (B c r * y.phase φ c * C e s * z.phase φ e * D f t * w.phase φ f * M (a, c, e, f)) * hA a p +
    (x.phase φ p * A a p * C e s * z.phase φ e * D f t * w.phase φ f * M (a, c, e, f)) * hB c r +
    (x.phase φ p * A a p * y.phase φ r * B c r * D f t * w.phase φ f * M (a, c, e, f)) * hC e s +
    (x.phase φ p * A a p * y.phase φ r * B c r * z.phase φ s * C e s * M (a, c, e, f)) * hD f t

theorem PhArr.sub {φ : Fld → Fin 3 → ℂ} {ss : List Slot} {a a' c c' : Arr} (h : PhArr φ ss a a') (g : PhArr φ ss c c') :
    PhArr φ ss (a.sub c) (a'.sub c') := by
  match ss, a, a', c, c', h, g with
  | [], _, _, _, _, _, _ => trivial
  | [x, y], .mat _, .mat _, .mat _, .mat _, h, g => exact Ph2.sub h g
  | [x, y, z, w], .ten _, .ten _, .ten _, .ten _, h, g => exact Ph4.sub h g

/-- The rotated indices belong to the quark doublet. -/
theorem codeMarks_q : ∀ q ∈ wetNames.zip ruleSlots, ∀ m ∈ [(codeMarks q.1).1, (codeMarks q.1).2.1, (codeMarks q.1).2.2.1, (codeMarks q.1).2.2.2].zip q.2,
    m.1 = .one ∨ m.2.fld = .q := by decide +kernel

theorem mark_comm {φ : Fld → Fin 3 → ℂ} (hφ : Phases φ) (V : M3) {m : Mark} {s : Slot} (h : m = .one ∨ s.fld = .q) : CommPh φ s (m.mat V) := by
  rcases h with rfl | h
  · exact commPh_one φ s
  · exact commPh_q hφ h _

theorem PhArr.rot {φ : Fld → Fin 3 → ℂ} (hφ : Phases φ) (V : M3) {k : String} {ss : List Slot} (hk : (k, ss) ∈ wetNames.zip ruleSlots) {a a' : Arr}
    (h : PhArr φ ss a a') : PhArr φ ss (rotEntry V k a) (rotEntry V k a') := by
  have hm := codeMarks_q _ hk
  match ss, a, a', h with
  | [], _, _, _ => trivial
  | [x, y], .mat _, .mat _, h => exact h
  | [x, y, z, w], .ten _, .ten _, h =>
    simp only [List.zip_cons_cons, List.zip_nil_right, List.forall_mem_cons, List.not_mem_nil, IsEmpty.forall_iff, implies_true, and_true] at hm
    obtain ⟨m1, m2, m3, m4⟩ := hm
    change Ph4 φ x y z w (rotateRule V k _) (rotateRule V k _)
    rw [rotateRule_eq, rotateRule_eq]
    exact Ph4.rot (mark_comm hφ V m1) (mark_comm hφ V m2) (mark_comm hφ V m3) (mark_comm hφ V m4) h

theorem PhArr.ent {φ : Fld → Fin 3 → ℂ} {ss : List Slot} {a a' : Arr} (h : PhArr φ ss a a') (hs : ss ≠ []) {i : List (Fin 3)}
    (hi : i.length = ss.length) : i ∈ a.idxs ∧ i ∈ a'.idxs ∧ a'.ent i = weight φ ss i * a.ent i := by
  match ss, a, a', h with
  | [], _, _, _ => exact absurd rfl hs
  | [x, y], .mat _, .mat _, h =>
    obtain ⟨p, r, rfl⟩ := List.length_eq_two.1 hi
    refine ⟨List.mem_map.2 ⟨(p, r), mem_ix2s _, rfl⟩, List.mem_map.2 ⟨(p, r), mem_ix2s _, rfl⟩, ?_⟩
    change _ = (x.phase φ p * (y.phase φ r * 1)) * _
    rw [mul_one]
    exact h p r
  | [x, y, z, w], .ten _, .ten _, h =>
    obtain ⟨p, r, s, t, rfl⟩ := length_four hi
    refine ⟨List.mem_map.2 ⟨(p, r, s, t), mem_ix4s _, rfl⟩, List.mem_map.2 ⟨(p, r, s, t), mem_ix4s _, rfl⟩, ?_⟩
    change _ = (x.phase φ p * (y.phase φ r * (z.phase φ s * (w.phase φ t * 1)))) * _
    rw [mul_one, ← mul_assoc, ← mul_assoc]
    exact h p r s t

end Verif
