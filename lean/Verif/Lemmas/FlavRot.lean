import Verif.Spec.FlavRot
import Verif.Lemmas.MatchLagApi

/-! Rotations of the fields in the tree-level effective Lagrangian. -/

set_option autoImplicit false

namespace Verif

open Spec

/-! ### Rotation and the operations on Lagrangians -/

/-- The matrix of a barred field. -/
noncomputable def barM (A : M3) : M3 := fun i j => starRingEnd ℂ (A i j)

theorem barM_mul (A B : M3) : barM (A * B) = barM A * barM B := by
  ext i j; simp [barM, Matrix.mul_apply]

theorem barM_one : barM 1 = 1 := by
  ext i j; by_cases h : i = j <;> simp [barM, Matrix.one_apply, h]

theorem rot_eq (M : FieldRot) (T : Four) (p q r s : Leg) : T.rot M p q r s =
    rot4 (barM (M p.chirBar p.kind)) (M q.chir q.kind) (barM (M r.chirBar r.kind)) (M s.chir s.kind)
      (fun i => T { p with gen := i.1 } { q with gen := i.2.1 } { r with gen := i.2.2.1 } { s with gen := i.2.2.2 })
      (p.gen, q.gen, r.gen, s.gen) := rfl

/-- Two rotations one after the other. -/
theorem rot_comp (M N : FieldRot) (T : Four) : (T.rot N).rot M = T.rot fun A k => N A k * M A k := by
  funext p q r s
  rw [rot_eq, rot_eq, barM_mul, barM_mul, ← rot4_comp]
  rfl

theorem rot_id (T : Four) : (T.rot fun _ _ => 1) = T := by
  funext p q r s
  rw [rot_eq, barM_one, rot4_one]

theorem rotL_eq (V : M3) (T : Four) : T.rotL V = T.rot fun A k => if A = .L ∧ k = .d then V else 1 := by
  have h1 : ∀ (p : Leg) a, rotUn V p a = (if p.chir = .L ∧ p.kind = .d then V else 1 : M3) a p.gen := by
    intro p a
    unfold rotUn Leg.chir
    by_cases hk : p.kind = .d <;> by_cases hs : p.spin.val < 2 <;> simp [hk, hs, Matrix.one_apply]
  have h2 : ∀ (p : Leg) a, rotBar V p a = starRingEnd ℂ ((if p.chirBar = .L ∧ p.kind = .d then V else 1 : M3) a p.gen) := by
    intro p a
    unfold rotBar Leg.chirBar
    by_cases hk : p.kind = .d <;> by_cases hs : 2 ≤ p.spin.val <;> simp [hk, hs, Matrix.one_apply]
  funext p q r s
  unfold Four.rotL Four.rot
  simp only [h1, h2]

theorem chirBar_fl (p : Leg) : p.fl.chirBar = p.chir := by
  have h : ∀ α : Fin 4, 2 ≤ (prm 0 α).val ↔ α.val < 2 := by decide
  unfold Leg.chirBar Leg.chir
  simp only [show p.fl.spin = prm 0 p.spin from rfl, h]

theorem chir_fl (p : Leg) : p.fl.chir = p.chirBar := by
  have h : ∀ α : Fin 4, (prm 0 α).val < 2 ↔ 2 ≤ α.val := by decide
  unfold Leg.chirBar Leg.chir
  simp only [show p.fl.spin = prm 0 p.spin from rfl, h]

theorem rot_adj (M : FieldRot) (T : Four) : (T.rot M).adj = T.adj.rot M := by
  funext p q r s
  rw [adj_eq]
  unfold Four.rot
  simp only [map_sum, map_mul, adj_eq, Complex.conj_conj, chirBar_fl, chir_fl]
  rw [sum_swap4]
  refine Finset.sum_congr rfl fun a _ => Finset.sum_congr rfl fun b _ => Finset.sum_congr rfl fun c _ =>
    Finset.sum_congr rfl fun d _ => ?_
  have e : ({ q.fl with gen := b } : Leg) = ({ q with gen := b } : Leg).fl := rfl
  have e' : ({ p.fl with gen := a } : Leg) = ({ p with gen := a } : Leg).fl := rfl
  have e2 : ({ s.fl with gen := d } : Leg) = ({ s with gen := d } : Leg).fl := rfl
  have e3 : ({ r.fl with gen := c } : Leg) = ({ r with gen := c } : Leg).fl := rfl
  rw [e, e', e2, e3]
  simp only [show ∀ p : Leg, p.fl.kind = p.kind from fun _ => rfl, show ∀ p : Leg, p.fl.gen = p.gen from fun _ => rfl]
  ring

theorem rot_add (M : FieldRot) (T U : Four) :
    Four.rot M (fun p q r s => T p q r s + U p q r s) = fun p q r s => T.rot M p q r s + U.rot M p q r s := by
  funext p q r s
  unfold Four.rot
  simp only [mul_add, Finset.sum_add_distrib]

theorem rot_sub (M : FieldRot) (T U : Four) :
    Four.rot M (fun p q r s => T p q r s - U p q r s) = fun p q r s => T.rot M p q r s - U.rot M p q r s := by
  funext p q r s
  unfold Four.rot
  simp only [mul_sub, Finset.sum_sub_distrib]

theorem rot_mul (M : FieldRot) (x : ℂ) (T : Four) :
    Four.rot M (fun p q r s => x * T p q r s) = fun p q r s => x * T.rot M p q r s := by
  funext p q r s
  unfold Four.rot
  simp only [Finset.mul_sum]
  refine Finset.sum_congr rfl fun a _ => Finset.sum_congr rfl fun b _ => Finset.sum_congr rfl fun c _ =>
    Finset.sum_congr rfl fun d _ => ?_
  ring

theorem rot_zero (M : FieldRot) : Four.rot M (fun _ _ _ _ => 0) = fun _ _ _ _ => 0 := by
  funext p q r s
  unfold Four.rot
  simp only [mul_zero, Finset.sum_const_zero]

theorem rot_sum {ι : Type} (M : FieldRot) (l : List ι) (T : ι → Four) :
    Four.rot M (fun p q r s => (l.map fun i => T i p q r s).sum) = fun p q r s => (l.map fun i => (T i).rot M p q r s).sum := by
  induction l with
  | nil => exact rot_zero M
  | cons i l ih =>
    simp only [List.map_cons, List.sum_cons]
    rw [rot_add, ih]

/-! ### Rotation of an operator -/

/-- Chirality from a flag. -/
def chirOf (l : Bool) : Chir := if l then .L else .R

theorem mono_field (M : FieldRot) (k1 k2 k3 k4 : Kind) {D : Dir} (hD : ∀ n A B, D = .g n A B → n < 3) (c : Col) (f : Ix4 → ℂ) :
    mono k1 k2 k3 k4 D c (rot4 (barM (M (chirOf (dirLeft D).1) k1)) (M (chirOf (dirLeft D).2.1) k2)
      (barM (M (chirOf (dirLeft D).2.2.1) k3)) (M (chirOf (dirLeft D).2.2.2) k4) f) = (mono k1 k2 k3 k4 D c f).rot M := by
  funext p q r s
  rw [rot_eq]
  unfold mono
  by_cases hk : p.kind = k1 ∧ q.kind = k2 ∧ r.kind = k3 ∧ s.kind = k4
  · simp only [hk, and_self, if_true]
    by_cases hs : SpinOk (dirLeft D) p.spin q.spin r.spin s.spin
    · obtain ⟨h1, h2, h3, h4⟩ := hs
      obtain ⟨rfl, rfl, rfl, rfl⟩ := hk
      have c1 : p.chirBar = chirOf (dirLeft D).1 := by simp only [Leg.chirBar, chirOf, h1]
      have c2 : q.chir = chirOf (dirLeft D).2.1 := by simp only [Leg.chir, chirOf, h2]
      have c3 : r.chirBar = chirOf (dirLeft D).2.2.1 := by simp only [Leg.chirBar, chirOf, h3]
      have c4 : s.chir = chirOf (dirLeft D).2.2.2 := by simp only [Leg.chir, chirOf, h4]
      rw [c1, c2, c3, c4]
      simp only [rot4, Finset.sum_mul]
      refine Finset.sum_congr rfl fun a _ => Finset.sum_congr rfl fun b _ => Finset.sum_congr rfl fun c _ =>
        Finset.sum_congr rfl fun d _ => ?_
      ring
    · simp only [spin_val hD hs, mul_zero, zero_mul, rot4, Finset.sum_const_zero]
  · simp only [hk, if_false, rot4, mul_zero, Finset.sum_const_zero]

/-! ### Contact terms -/

section

variable {U : Fld → M3} {S S' : JSrc → ℂ} (h : Rotated U S S')
include h

omit h in
theorem warsaw_fields : ∀ o ∈ warsawOps, (∀ x ∈ o.f1.comps, multiplet (chirOf (dirLeft o.dir).1) x.2 = some o.f1) ∧
    (∀ x ∈ o.f2.comps, multiplet (chirOf (dirLeft o.dir).2.1) x.2 = some o.f2) ∧
    (∀ x ∈ o.f3.comps, multiplet (chirOf (dirLeft o.dir).2.2.1) x.2 = some o.f3) ∧
    ∀ x ∈ o.f4.comps, multiplet (chirOf (dirLeft o.dir).2.2.2) x.2 = some o.f4 := by
  have h : (warsawOps.all fun o => decide ((∀ x ∈ o.f1.comps, multiplet (chirOf (dirLeft o.dir).1) x.2 = some o.f1) ∧
    (∀ x ∈ o.f2.comps, multiplet (chirOf (dirLeft o.dir).2.1) x.2 = some o.f2) ∧
    (∀ x ∈ o.f3.comps, multiplet (chirOf (dirLeft o.dir).2.2.1) x.2 = some o.f3) ∧
    ∀ x ∈ o.f4.comps, multiplet (chirOf (dirLeft o.dir).2.2.2) x.2 = some o.f4)) = true := by decide +kernel
  exact fun o ho => of_decide_eq_true (List.all_eq_true.mp h o ho)

omit h in
theorem warsaw_dirs : ∀ o ∈ warsawOps, ∀ n A B, o.dir = .g n A B → n < 3 := by
  simp only [warsawOps, List.forall_mem_cons]
  simp (config := { contextual := true }) [Dir.g.injEq, eq_comm]

theorem wop_rot {o : WOp} (ho : o ∈ warsawOps) : o.lag S' = (o.lag S).rot (fieldRot U) := by
  obtain ⟨h1, h2, h3, h4⟩ := warsaw_fields o ho
  unfold WOp.lag
  rw [rot_sum]
  funext p q r s
  refine congrArg List.sum (List.map_congr_left fun a ha => ?_)
  rw [rot_sum]
  refine congrArg List.sum (List.map_congr_left fun b' hb => ?_)
  rw [rot_sum]
  refine congrArg List.sum (List.map_congr_left fun c hc => ?_)
  rw [rot_sum]
  refine congrArg List.sum (List.map_congr_left fun d hd => ?_)
  rw [rot_mul, ← mono_field (fieldRot U) _ _ _ _ (warsaw_dirs o ho), h.four _ _ _ _ _ (warsaw_isOp o ho)]
  simp only [fieldRot, h1 a ha, h2 b' hb, h3 c hc, h4 d hd, Option.elim]
  rfl

theorem contact_rot : contactLag S' = (contactLag S).rot (fieldRot U) := by
  have e : ∀ S, contactLag S = fun p q r s => (warsawOps.map fun o =>
      (fun p q r s => o.lag S p q r s + (if o.herm then (fun _ _ _ _ => 0 : Four) else (o.lag S).adj) p q r s : Four) p q r s).sum := by
    intro J
    funext p q r s
    unfold contactLag
    refine congrArg List.sum ?_
    exact List.map_congr_left fun o _ => by cases o.herm <;> rfl
  rw [e S', e S, rot_sum]
  funext p q r s
  refine congrArg List.sum (List.map_congr_left fun o ho => ?_)
  rw [rot_add]
  dsimp only
  rw [wop_rot h ho]
  cases o.herm
  · simp only [Bool.false_eq_true, if_false, rot_adj]
  · simp only [if_true, rot_zero]

/-! ### Exchange of Z and W bosons -/

omit h in
theorem rot2_eye {A : M3} (hA : A.conjTranspose * A = 1) : rot2 (barM A) A (fun i => if i.1 = i.2 then 1 else 0) = fun i => if i.1 = i.2 then 1 else 0 := by
  funext ⟨i, j⟩
  have h2 := congrFun (congrFun hA i) j
  simp only [Matrix.mul_apply, Matrix.one_apply, Matrix.conjTranspose_apply] at h2
  simp only [rot2, barM, mul_ite, mul_one, mul_zero, Finset.sum_ite_eq, Finset.mem_univ, if_true]
  exact h2

omit h in
theorem rot2_lin (A B : M3) (x y z : ℂ) (f g k : Ix2 → ℂ) (i : Ix2) :
    rot2 A B (fun i => x * f i - y * g i + z * k i) i = x * rot2 A B f i - y * rot2 A B g i + z * rot2 A B k i := by
  simp only [rot2, Fin.sum_univ_three]; ring

omit h in
theorem rot2_prod (A B C D : M3) (f g : Ix2 → ℂ) : (fun i : Ix4 => rot2 A B f (i.1, i.2.1) * rot2 C D g (i.2.2.1, i.2.2.2)) =
    rot4 A B C D fun i => f (i.1, i.2.1) * g (i.2.2.1, i.2.2.2) := by
  funext ⟨p, r, s, t⟩
  simp only [rot2, rot4]
  rw [Finset.sum_mul]
  refine Finset.sum_congr rfl fun p _ => ?_
  rw [Finset.sum_mul]
  refine Finset.sum_congr rfl fun r _ => ?_
  rw [Finset.mul_sum]
  refine Finset.sum_congr rfl fun s _ => ?_
  rw [Finset.mul_sum]
  exact Finset.sum_congr rfl fun t _ => by ring

omit h in
theorem rot2_conj (A B : M3) (f : Ix2 → ℂ) (i : Ix2) : starRingEnd ℂ (rot2 (barM A) B f (i.2, i.1)) =
    rot2 (barM B) A (fun i => starRingEnd ℂ (f (i.2, i.1))) i := by
  simp only [rot2, map_sum, map_mul, barM, Complex.conj_conj]
  rw [Finset.sum_comm]
  exact Finset.sum_congr rfl fun _ _ => Finset.sum_congr rfl fun _ _ => by ring

theorem shift_rot {k : String} {f g : Fld} (ho : IsOp k (.two (b f) (n g))) (i : Ix2) :
    S' (k, [i.1, i.2]) = rot2 (barM (U f)) (U g) (fun i => S (k, [i.1, i.2])) i := congrFun (h.two k _ _ ho) i

variable (hU : ∀ f, (U f).conjTranspose * U f = 1)
include hU

theorem zCoup_rot (c : Couplings) : ∀ x ∈ chirals, zCoup S' c x = rot2 (barM (fieldRot U x.1 x.2)) (fieldRot U x.1 x.2) (zCoup S c x) := by
  have z0 : ∀ A : M3, rot2 (barM A) A (fun _ => 0) = fun _ => 0 := fun A => by funext i; simp [rot2]
  have key : ∀ x, ∀ f, multiplet x.1 x.2 = some f → (∀ k, (zNames x).1 = some k → IsOp k (.two (b f) (n f))) →
      (∀ k, (zNames x).2 = some k → IsOp k (.two (b f) (n f))) →
      zCoup S' c x = rot2 (barM (fieldRot U x.1 x.2)) (fieldRot U x.1 x.2) (zCoup S c x) := by
    intro x f hf h1 h2
    have e : fieldRot U x.1 x.2 = U f := by simp [fieldRot, hf]
    have hs : ∀ k : Option String, (∀ k', k = some k' → IsOp k' (.two (b f) (n f))) → ∀ i, shift S' k i = rot2 (barM (U f)) (U f) (shift S k) i := by
      intro k hk i
      cases k with
      | none => exact (congrFun (z0 (U f)) i).symm
      | some k => exact shift_rot h (hk k rfl) i
    rw [e]
    funext i
    unfold zCoup
    rw [rot2_lin, rot2_eye (hU f), hs _ h1, hs _ h2]
  have o1 : ∀ k ∈ ["phil1", "phil3"], IsOp k (.two (b .l) (n .l)) := by decide +kernel
  have o2 : ∀ k ∈ ["phiq1", "phiq3"], IsOp k (.two (b .q) (n .q)) := by decide +kernel
  have o3 : IsOp "phie" (.two (b .e) (n .e)) := by decide +kernel
  have o4 : IsOp "phiu" (.two (b .u) (n .u)) := by decide +kernel
  have o5 : IsOp "phid" (.two (b .d) (n .d)) := by decide +kernel
  simp only [chirals, List.forall_mem_cons]
  refine ⟨key (.L, .nu) .l rfl ?_ ?_, key (.L, .e) .l rfl ?_ ?_, key (.R, .e) .e rfl ?_ ?_, key (.L, .u) .q rfl ?_ ?_, key (.R, .u) .u rfl ?_ ?_,
    key (.L, .d) .q rfl ?_ ?_, key (.R, .d) .d rfl ?_ ?_, by simp⟩ <;> intro k hk <;> simp only [zNames, Option.some.injEq, reduceCtorEq] at hk <;>
    subst hk
  · exact o1 _ (by simp)
  · exact o1 _ (by simp)
  · exact o1 _ (by simp)
  · exact o1 _ (by simp)
  · exact o3
  · exact o2 _ (by simp)
  · exact o2 _ (by simp)
  · exact o4
  · exact o2 _ (by simp)
  · exact o2 _ (by simp)
  · exact o5

theorem wCoup_rot (c : Couplings) : ∀ x ∈ charged, wCoup S' c x = rot2 (barM (fieldRot U x.1 x.2.1)) (fieldRot U x.1 x.2.2) (wCoup S c x) := by
  have o1 : IsOp "phil3" (.two (b .l) (n .l)) := by decide +kernel
  have o2 : IsOp "phiq3" (.two (b .q) (n .q)) := by decide +kernel
  have o3 : IsOp "phiud" (.two (b .u) (n .d)) := by decide +kernel
  have lin : ∀ (A B : M3) (y : ℂ) (f g : Ix2 → ℂ) (i : Ix2), rot2 A B (fun i => f i + y * g i) i = rot2 A B f i + y * rot2 A B g i := by
    intro A B y f g i; simp only [rot2, Fin.sum_univ_three]; ring
  have mul : ∀ (A B : M3) (y : ℂ) (g : Ix2 → ℂ) (i : Ix2), rot2 A B (fun i => y * g i) i = y * rot2 A B g i := by
    intro A B y g i; simp only [rot2, Fin.sum_univ_three]; ring
  simp only [charged, List.forall_mem_cons, List.not_mem_nil, false_implies, implies_true, and_true]
  refine ⟨?_, ?_, ?_⟩ <;> funext i
  · change (if i.1 = i.2 then 1 else 0) + _ * S' ("phil3", [i.1, i.2]) = rot2 (barM (U .l)) (U .l) (fun i => (if i.1 = i.2 then 1 else 0) + _ * S ("phil3", [i.1, i.2])) i
    rw [lin, rot2_eye (hU .l), shift_rot h o1]
  · change (if i.1 = i.2 then 1 else 0) + _ * S' ("phiq3", [i.1, i.2]) = rot2 (barM (U .q)) (U .q) (fun i => (if i.1 = i.2 then 1 else 0) + _ * S ("phiq3", [i.1, i.2])) i
    rw [lin, rot2_eye (hU .q), shift_rot h o2]
  · change _ * S' ("phiud", [i.1, i.2]) = rot2 (barM (U .u)) (U .d) (fun i => _ * S ("phiud", [i.1, i.2])) i
    rw [mul, shift_rot h o3]

theorem zLag_rot (c : Couplings) : zLag S' c = (zLag S c).rot (fieldRot U) := by
  unfold zLag
  rw [rot_mul, rot_sum]
  funext p q r s
  refine congrArg _ (congrArg List.sum (List.map_congr_left fun x hx => ?_))
  rw [rot_sum]
  refine congrArg List.sum (List.map_congr_left fun y hy => ?_)
  rw [← mono_field (fieldRot U) _ _ _ _ (by intro n A B e; cases e; norm_num), zCoup_rot h hU c x hx, zCoup_rot h hU c y hy, rot2_prod]
  obtain ⟨A, k⟩ := x
  obtain ⟨B, k'⟩ := y
  cases A <;> cases B <;> rfl

theorem wLag_rot (c : Couplings) : wLag S' c = (wLag S c).rot (fieldRot U) := by
  unfold wLag
  rw [rot_mul, rot_sum]
  funext p q r s
  refine congrArg _ (congrArg List.sum (List.map_congr_left fun x hx => ?_))
  rw [rot_sum]
  refine congrArg List.sum (List.map_congr_left fun y hy => ?_)
  rw [← mono_field (fieldRot U) _ _ _ _ (by intro n A B e; cases e; norm_num), wCoup_rot h hU c x hx, wCoup_rot h hU c y hy]
  have e : ∀ i : Ix4, starRingEnd ℂ (rot2 (barM (fieldRot U y.1 y.2.1)) (fieldRot U y.1 y.2.2) (wCoup S c y) (i.2.2.2, i.2.2.1)) =
      rot2 (barM (fieldRot U y.1 y.2.2)) (fieldRot U y.1 y.2.1) (fun i => starRingEnd ℂ (wCoup S c y (i.2, i.1))) (i.2.2.1, i.2.2.2) :=
    fun i => rot2_conj _ _ _ (i.2.2.1, i.2.2.2)
  simp only [e]
  rw [rot2_prod]
  obtain ⟨A, k⟩ := x
  obtain ⟨B, k'⟩ := y
  cases A <;> cases B <;> rfl

/-- The tree-level effective Lagrangian is covariant under rotations of the multiplets. -/
theorem tree_rot (c : Couplings) : treeLag S' c = (treeLag S c).rot (fieldRot U) := by
  unfold treeLag
  rw [contact_rot h, zLag_rot h hU, wLag_rot h hU, rot_add, rot_add]

end

end Verif
