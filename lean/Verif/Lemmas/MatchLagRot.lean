import Verif.Lemmas.MatchLag
import Verif.Lemmas.MatchCkm

/-! The rotation of the left-handed down quarks in the Lagrangian. -/

set_option autoImplicit false

namespace Verif

open Spec

/-! ### Chirality of the fields of an operator -/

/-- Whether a Dirac structure has left-handed fields: first barred, first unbarred, second barred, second unbarred field. -/
def dirLeft : Dir → Bool × Bool × Bool × Bool
  | .g n A B => (decide (n % 2 = 0 ↔ A = .R), decide (A = .L), decide (n % 2 = 0 ↔ B = .R), decide (B = .L))
  | .sg A B => (decide (A = .R), decide (A = .L), decide (B = .R), decide (B = .L))

/-- The spinor indices are those of fields with the chiralities `l`. -/
def SpinOk (l : Bool × Bool × Bool × Bool) (α β γ δ : Fin 4) : Prop :=
  (2 ≤ α.val ↔ l.1 = true) ∧ (β.val < 2 ↔ l.2.1 = true) ∧ (2 ≤ γ.val ↔ l.2.2.1 = true) ∧ (δ.val < 2 ↔ l.2.2.2 = true)

instance (l) (α β γ δ : Fin 4) : Decidable (SpinOk l α β γ δ) := by unfold SpinOk; infer_instance

theorem spin_fast (n : Fin 3) (A B : Chir) : ∀ α β γ δ, ¬ SpinOk (dirLeft (.g n.val A B)) α β γ δ → fastG n.val A B α β γ δ = 0 := by
  have : ∀ n : Fin 3, ∀ α β γ δ, (¬ SpinOk (dirLeft (.g n.val .L .L)) α β γ δ → fastG n.val .L .L α β γ δ = 0) ∧
      (¬ SpinOk (dirLeft (.g n.val .L .R)) α β γ δ → fastG n.val .L .R α β γ δ = 0) ∧
      (¬ SpinOk (dirLeft (.g n.val .R .L)) α β γ δ → fastG n.val .R .L α β γ δ = 0) ∧
      (¬ SpinOk (dirLeft (.g n.val .R .R)) α β γ δ → fastG n.val .R .R α β γ δ = 0) := by decide +kernel
  intro α β γ δ
  obtain ⟨h1, h2, h3, h4⟩ := this n α β γ δ
  cases A <;> cases B <;> assumption

theorem spin_val {D : Dir} (hD : ∀ n A B, D = .g n A B → n < 3) {α β γ δ : Fin 4} (h : ¬ SpinOk (dirLeft D) α β γ δ) :
    D.val α β γ δ = 0 := by
  cases D with
  | g n A B => rw [val_g, spin_fast ⟨n, hD n A B rfl⟩ A B α β γ δ h, map_zero]
  | sg A B =>
    have e0 : dirLeft (.sg A B) = dirLeft (.g (0 : Fin 3).val A B) := by cases A <;> cases B <;> rfl
    have e2 : dirLeft (.sg A B) = dirLeft (.g (2 : Fin 3).val A B) := by cases A <;> cases B <;> rfl
    have h0 := spin_fast 0 A B α β γ δ (by rw [← e0]; exact h)
    have h2 := spin_fast 2 A B α β γ δ (by rw [← e2]; exact h)
    have h0' : fastG 0 A B α β γ δ = 0 := h0
    have h2' : fastG 2 A B α β γ δ = 0 := h2
    unfold Dir.val
    rw [ent_sg, h0', h2', mul_zero, sub_zero, map_zero]

/-! ### Rotation of an operator -/

/-- The mark of a barred field. -/
def markBar (k : Kind) (l : Bool) : Mark := if k = .d ∧ l = true then .vc else .one

/-- The mark of an unbarred field. -/
def markUn (k : Kind) (l : Bool) : Mark := if k = .d ∧ l = true then .v else .one

theorem one_mat (a b : Fin 3) : (1 : M3) a b = if a = b then 1 else 0 := Matrix.one_apply

theorem rotBar_mark (V : M3) {p : Leg} {l : Bool} (h : 2 ≤ p.spin.val ↔ l = true) (a : Fin 3) :
    rotBar V p a = (markBar p.kind l).mat V a p.gen := by
  unfold rotBar markBar
  simp only [h]
  by_cases hc : p.kind = .d ∧ l = true
  · rw [if_pos hc, if_pos hc]
    rfl
  · rw [if_neg hc, if_neg hc]
    exact (one_mat a p.gen).symm

theorem rotUn_mark (V : M3) {p : Leg} {l : Bool} (h : p.spin.val < 2 ↔ l = true) (a : Fin 3) :
    rotUn V p a = (markUn p.kind l).mat V a p.gen := by
  unfold rotUn markUn
  simp only [h]
  by_cases hc : p.kind = .d ∧ l = true
  · rw [if_pos hc, if_pos hc]
    rfl
  · rw [if_neg hc, if_neg hc]
    exact (one_mat a p.gen).symm

theorem mono_rot (V : M3) (k1 k2 k3 k4 : Kind) {D : Dir} (hD : ∀ n A B, D = .g n A B → n < 3) (c : Col) (f : Ix4 → ℂ) :
    mono k1 k2 k3 k4 D c (rot4 ((markBar k1 (dirLeft D).1).mat V) ((markUn k2 (dirLeft D).2.1).mat V)
      ((markBar k3 (dirLeft D).2.2.1).mat V) ((markUn k4 (dirLeft D).2.2.2).mat V) f) = (mono k1 k2 k3 k4 D c f).rotL V := by
  funext p q r s
  unfold Four.rotL mono
  by_cases hk : p.kind = k1 ∧ q.kind = k2 ∧ r.kind = k3 ∧ s.kind = k4
  · simp only [hk, and_self, if_true]
    by_cases hs : SpinOk (dirLeft D) p.spin q.spin r.spin s.spin
    · obtain ⟨h1, h2, h3, h4⟩ := hs
      obtain ⟨rfl, rfl, rfl, rfl⟩ := hk
      simp only [rotBar_mark V h1, rotUn_mark V h2, rotBar_mark V h3, rotUn_mark V h4, rot4, Finset.sum_mul]
      refine Finset.sum_congr rfl fun a _ => Finset.sum_congr rfl fun b _ => Finset.sum_congr rfl fun c _ =>
        Finset.sum_congr rfl fun d _ => ?_
      ring
    · simp only [spin_val hD hs, mul_zero, zero_mul, Finset.sum_const_zero]
  · simp only [hk, if_false, mul_zero, Finset.sum_const_zero]

/-! ### Rotation and the operations on Lagrangians -/

theorem rotBar_fl (V : M3) (p : Leg) (a : Fin 3) : starRingEnd ℂ (rotBar V p.fl a) = rotUn V p a := by
  have h : ∀ α : Fin 4, 2 ≤ (prm 0 α).val ↔ α.val < 2 := by decide
  unfold rotBar rotUn
  simp only [show p.fl.spin = prm 0 p.spin from rfl, h, show p.fl.kind = p.kind from rfl, show p.fl.gen = p.gen from rfl]
  split_ifs <;> simp

theorem rotUn_fl (V : M3) (p : Leg) (a : Fin 3) : starRingEnd ℂ (rotUn V p.fl a) = rotBar V p a := by
  have h : ∀ α : Fin 4, (prm 0 α).val < 2 ↔ 2 ≤ α.val := by decide
  unfold rotBar rotUn
  simp only [show p.fl.spin = prm 0 p.spin from rfl, h, show p.fl.kind = p.kind from rfl, show p.fl.gen = p.gen from rfl]
  split_ifs <;> simp

theorem sum_swap4 (F : Fin 3 → Fin 3 → Fin 3 → Fin 3 → ℂ) :
    ∑ a, ∑ b, ∑ c, ∑ d, F a b c d = ∑ b, ∑ a, ∑ d, ∑ c, F a b c d := by
  rw [Finset.sum_comm]
  exact Finset.sum_congr rfl fun b _ => Finset.sum_congr rfl fun a _ => Finset.sum_comm

theorem rotL_adj (V : M3) (T : Four) : (T.rotL V).adj = T.adj.rotL V := by
  funext p q r s
  rw [adj_eq]
  unfold Four.rotL
  simp only [map_sum, map_mul, adj_eq]
  rw [sum_swap4]
  refine Finset.sum_congr rfl fun a _ => Finset.sum_congr rfl fun b _ => Finset.sum_congr rfl fun c _ =>
    Finset.sum_congr rfl fun d _ => ?_
  rw [rotBar_fl, rotBar_fl, rotUn_fl, rotUn_fl]
  have e : ({ q.fl with gen := b } : Leg) = ({ q with gen := b } : Leg).fl := rfl
  have e' : ({ p.fl with gen := a } : Leg) = ({ p with gen := a } : Leg).fl := rfl
  have e2 : ({ s.fl with gen := d } : Leg) = ({ s with gen := d } : Leg).fl := rfl
  have e3 : ({ r.fl with gen := c } : Leg) = ({ r with gen := c } : Leg).fl := rfl
  rw [e, e', e2, e3]
  ring

theorem rotL_add (V : M3) (T U : Four) :
    Four.rotL V (fun p q r s => T p q r s + U p q r s) = fun p q r s => T.rotL V p q r s + U.rotL V p q r s := by
  funext p q r s
  unfold Four.rotL
  simp only [mul_add, Finset.sum_add_distrib]

theorem rotL_zero (V : M3) : Four.rotL V (fun _ _ _ _ => 0) = fun _ _ _ _ => 0 := by
  funext p q r s
  unfold Four.rotL
  simp only [mul_zero, Finset.sum_const_zero]

theorem rotL_sum {ι : Type} (V : M3) (l : List ι) (T : ι → Four) :
    Four.rotL V (fun p q r s => (l.map fun i => T i p q r s).sum) = fun p q r s => (l.map fun i => (T i).rotL V p q r s).sum := by
  induction l with
  | nil => exact rotL_zero V
  | cons i l ih =>
    simp only [List.map_cons, List.sum_cons]
    rw [rotL_add, ih]

theorem sum_swap13 (F : Fin 3 → Fin 3 → Fin 3 → Fin 3 → ℂ) :
    ∑ a, ∑ b, ∑ c, ∑ d, F a b c d = ∑ c, ∑ b, ∑ a, ∑ d, F a b c d := by
  simp only [Fin.sum_univ_three]; ring

theorem sum_swap24 (F : Fin 3 → Fin 3 → Fin 3 → Fin 3 → ℂ) :
    ∑ a, ∑ b, ∑ c, ∑ d, F a b c d = ∑ a, ∑ d, ∑ c, ∑ b, F a b c d := by
  refine Finset.sum_congr rfl fun a _ => ?_
  simp only [Fin.sum_univ_three]; ring

/-- Antisymmetrisation of a rotated Lagrangian. -/
theorem rotL_anti (V : M3) (T : Four) : (T.rotL V).anti = Four.rotL V T.anti := by
  have e1 : ∀ p q r s, T.rotL V r q p s = Four.rotL V (fun p q r s => T r q p s) p q r s := by
    intro p q r s
    unfold Four.rotL
    rw [sum_swap13]
    refine Finset.sum_congr rfl fun a _ => Finset.sum_congr rfl fun b _ => Finset.sum_congr rfl fun c _ =>
      Finset.sum_congr rfl fun d _ => ?_
    ring
  have e2 : ∀ p q r s, T.rotL V p s r q = Four.rotL V (fun p q r s => T p s r q) p q r s := by
    intro p q r s
    unfold Four.rotL
    rw [sum_swap24]
    refine Finset.sum_congr rfl fun a _ => Finset.sum_congr rfl fun b _ => Finset.sum_congr rfl fun c _ =>
      Finset.sum_congr rfl fun d _ => ?_
    ring
  have e3 : ∀ p q r s, T.rotL V r s p q = Four.rotL V (fun p q r s => T r s p q) p q r s := by
    intro p q r s
    unfold Four.rotL
    rw [sum_swap13, sum_swap24]
    refine Finset.sum_congr rfl fun a _ => Finset.sum_congr rfl fun b _ => Finset.sum_congr rfl fun c _ =>
      Finset.sum_congr rfl fun d _ => ?_
    ring
  funext p q r s
  unfold Four.anti
  rw [e1 p q r s, e2 p q r s, e3 p q r s]
  unfold Four.rotL
  simp only [← Finset.sum_sub_distrib, ← Finset.sum_add_distrib]
  refine Finset.sum_congr rfl fun a _ => Finset.sum_congr rfl fun b _ => Finset.sum_congr rfl fun c _ =>
    Finset.sum_congr rfl fun d _ => ?_
  ring

/-- Lagrangians that agree for all physical fields also agree after a rotation. -/
theorem rotL_congr (V : M3) {T U : Four} (h : ∀ p q r s : Leg, p.Phys → q.Phys → r.Phys → s.Phys → T p q r s = U p q r s)
    {p q r s : Leg} (hp : p.Phys) (hq : q.Phys) (hr : r.Phys) (hs : s.Phys) : T.rotL V p q r s = U.rotL V p q r s := by
  unfold Four.rotL
  refine Finset.sum_congr rfl fun a _ => Finset.sum_congr rfl fun b _ => Finset.sum_congr rfl fun c _ =>
    Finset.sum_congr rfl fun d _ => ?_
  exact congrArg _ (h { p with gen := a } { q with gen := b } { r with gen := c } { s with gen := d } hp hq hr hs)

/-! ### The WET Lagrangian -/

/-- The code rotates the fields of every operator except one whose coefficient is zero. -/
theorem marks_ops : ∀ o ∈ wetOps, o.name ≠ "S8ddRR" → codeMarks o.name = (markBar o.k1 (dirLeft o.dir).1, markUn o.k2 (dirLeft o.dir).2.1,
    markBar o.k3 (dirLeft o.dir).2.2.1, markUn o.k4 (dirLeft o.dir).2.2.2) := by
  have h : (wetOps.all fun o => decide (o.name ≠ "S8ddRR" → codeMarks o.name = (markBar o.k1 (dirLeft o.dir).1,
      markUn o.k2 (dirLeft o.dir).2.1, markBar o.k3 (dirLeft o.dir).2.2.1, markUn o.k4 (dirLeft o.dir).2.2.2))) = true := by
    decide +kernel
  exact fun o ho => of_decide_eq_true (List.all_eq_true.mp h o ho)

theorem dirs_ops : ∀ o ∈ wetOps, ∀ n A B, o.dir = .g n A B → n < 3 := by
  simp only [wetOps, jmsOps, List.cons_append, List.nil_append, List.forall_mem_cons]
  simp (config := { contextual := true }) [Dir.g.injEq, eq_comm]

theorem wetLag_rot (V : M3) {J J' : JSrc → ℂ} (h0 : tens J "S8ddRR" = 0) (h : ∀ o ∈ wetOps, tens J' o.name = rotateRule V o.name (tens J o.name)) :
    wetLag J' = (wetLag J).rotL V := by
  have e : ∀ J, wetLag J = fun p q r s => (wetOps.map fun o =>
      (fun p q r s => o.mono J p q r s + (if o.herm then (fun _ _ _ _ => 0 : Four) else (o.mono J).adj) p q r s : Four) p q r s).sum := by
    intro J
    funext p q r s
    unfold wetLag
    refine congrArg List.sum ?_
    exact List.map_congr_left fun o _ => by cases o.herm <;> rfl
  rw [e J', e J, rotL_sum]
  funext p q r s
  refine congrArg List.sum (List.map_congr_left fun o ho => ?_)
  have hm : o.mono J' = (o.mono J).rotL V := by
    unfold JOp.mono
    rw [h o ho, rotateRule_eq]
    by_cases hn : o.name = "S8ddRR"
    · have hz : tens J o.name = 0 := by rw [hn]; exact h0
      rw [hz]
      have e1 : ∀ A B C D : M3, rot4 A B C D (0 : Ix4 → ℂ) = 0 := by
        intro A B C D; funext i; simp [rot4]
      have e2 : mono o.k1 o.k2 o.k3 o.k4 o.dir o.col 0 = fun _ _ _ _ => 0 := by
        funext p q r s; simp [mono]
      rw [e1, e2, rotL_zero]
    · rw [marks_ops o ho hn]
      exact mono_rot V _ _ _ _ (dirs_ops o ho) _ _
  rw [rotL_add]
  dsimp only
  rw [hm]
  cases o.herm
  · simp only [Bool.false_eq_true, if_false, rotL_adj]
  · simp only [if_true, rotL_zero]

end Verif
