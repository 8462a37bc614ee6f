import Verif.Lemmas.MatchLagApi
import Verif.Spec.Bnv

/-! Antisymmetry and Fierz identities of operators with three quarks and a lepton. -/

set_option autoImplicit false

namespace Verif

open Spec

theorem alt_add (T U : Four) (x : Fin 4 → Leg) : Four.alt (fun p q r s => T p q r s + U p q r s) x = T.alt x + U.alt x := by
  unfold Four.alt; rw [← Finset.sum_add_distrib]; exact Finset.sum_congr rfl fun σ _ => by ring

theorem alt_mul (a : ℂ) (T : Four) (x : Fin 4 → Leg) : Four.alt (fun p q r s => a * T p q r s) x = a * T.alt x := by
  unfold Four.alt; rw [Finset.mul_sum]; exact Finset.sum_congr rfl fun σ _ => by ring

theorem alt_neg (T : Four) (x : Fin 4 → Leg) : Four.alt (fun p q r s => -T p q r s) x = -T.alt x := by
  unfold Four.alt; rw [← Finset.sum_neg_distrib]; exact Finset.sum_congr rfl fun σ _ => by ring

theorem alt_zero (x : Fin 4 → Leg) : Four.alt (fun _ _ _ _ => 0) x = 0 := by simp [Four.alt]

/-- Exchange of two fields. -/
theorem alt_perm (T : Four) (x : Fin 4 → Leg) (τ : Equiv.Perm (Fin 4)) :
    T.alt x = ((Equiv.Perm.sign τ : ℤ) : ℂ) * ∑ σ : Equiv.Perm (Fin 4), ((Equiv.Perm.sign σ : ℤ) : ℂ) *
      T (x (σ (τ 0))) (x (σ (τ 1))) (x (σ (τ 2))) (x (σ (τ 3))) := by
  unfold Four.alt
  rw [← Equiv.sum_comp (Equiv.mulRight τ), Finset.mul_sum]
  refine Finset.sum_congr rfl fun σ _ => ?_
  simp only [Equiv.coe_mulRight, Equiv.Perm.mul_apply, Equiv.Perm.sign_mul, Units.val_mul, Int.cast_mul]
  ring

theorem alt_swap12 (T : Four) (x : Fin 4 → Leg) : T.alt x = -Four.alt (fun p q r s => T q p r s) x := by
  rw [alt_perm T x (Equiv.swap 0 1), Equiv.Perm.sign_swap (by decide)]
  simp [Four.alt, Equiv.swap_apply_def]

theorem alt_swap23 (T : Four) (x : Fin 4 → Leg) : T.alt x = -Four.alt (fun p q r s => T p r q s) x := by
  rw [alt_perm T x (Equiv.swap 1 2), Equiv.Perm.sign_swap (by decide)]
  simp [Four.alt, Equiv.swap_apply_def]

/-- Antisymmetric in spinor indices. -/
theorem conj_anti (A : Chir) : ∀ α β, (chargeConj * proj A) α β = -(chargeConj * proj A) β α := by
  cases A <;> decide +kernel

/-- The identity of four two-component spinors. -/
theorem schouten (A : Chir) : ∀ α β γ δ, (chargeConj * proj A) α β * (chargeConj * proj A) γ δ =
    (chargeConj * proj A) α γ * (chargeConj * proj A) β δ - (chargeConj * proj A) β γ * (chargeConj * proj A) α δ := by
  cases A <;> decide +kernel

theorem levi_swap12 : ∀ a b c, levi a b c = -levi b a c := by decide +kernel
theorem levi_swap23 : ∀ a b c, levi a b c = -levi a c b := by decide +kernel

theorem ent_swap (A B : Chir) (p q r s : Leg) : bnvEnt A B p q r s = bnvEnt A B q p r s := by
  unfold bnvEnt
  rw [conj_anti A p.spin, levi_swap12 p.col]
  push_cast
  ring

theorem ent_fierz (A : Chir) (p q r s : Leg) : bnvEnt A A p q r s = -bnvEnt A A p r q s - bnvEnt A A q r p s := by
  unfold bnvEnt
  rw [schouten A p.spin q.spin, levi_swap23 p.col r.col, levi_swap23 q.col r.col, levi_swap12 q.col p.col]
  push_cast
  ring

/-- The first two fields are exchanged. -/
def fSwap (f : Ix4 → ℂ) : Ix4 → ℂ := fun i => f (i.2.1, i.1, i.2.2.1, i.2.2.2)

theorem mono_swap (k1 k2 k3 k4 : Kind) (A B : Chir) (f : Ix4 → ℂ) (x : Fin 4 → Leg) :
    (bnvMono k1 k2 k3 k4 A B f).alt x = -(bnvMono k2 k1 k3 k4 A B (fSwap f)).alt x := by
  rw [alt_swap12]
  congr 2
  funext p q r s
  unfold bnvMono
  rw [ent_swap A B q p]
  simp only [fSwap, and_left_comm]

theorem mono_fierz (k1 k2 k3 k4 : Kind) (A : Chir) (f : Ix4 → ℂ) (x : Fin 4 → Leg) :
    (bnvMono k1 k2 k3 k4 A A f).alt x = (bnvMono k1 k3 k2 k4 A A fun i => f (i.1, i.2.2.1, i.2.1, i.2.2.2)).alt x -
      (bnvMono k2 k3 k1 k4 A A fun i => f (i.2.2.1, i.1, i.2.1, i.2.2.2)).alt x := by
  have e1 : bnvMono k1 k2 k3 k4 A A f = fun p q r s =>
      (-(fun p q r s => bnvMono k1 k3 k2 k4 A A (fun i => f (i.1, i.2.2.1, i.2.1, i.2.2.2)) p r q s) p q r s) +
      -(fun p q r s => bnvMono k2 k3 k1 k4 A A (fun i => f (i.2.2.1, i.1, i.2.1, i.2.2.2)) q r p s) p q r s := by
    funext p q r s
    have c1 : (p.kind = k1 ∧ r.kind = k3 ∧ q.kind = k2 ∧ s.kind = k4) ↔ (p.kind = k1 ∧ q.kind = k2 ∧ r.kind = k3 ∧ s.kind = k4) := by tauto
    have c2 : (q.kind = k2 ∧ r.kind = k3 ∧ p.kind = k1 ∧ s.kind = k4) ↔ (p.kind = k1 ∧ q.kind = k2 ∧ r.kind = k3 ∧ s.kind = k4) := by tauto
    simp only [bnvMono, c1, c2]
    split
    · rw [ent_fierz]; simp only [map_sub, map_neg]; ring
    · simp
  rw [e1, alt_add, alt_neg, alt_neg]
  rw [alt_swap23 (fun p q r s => bnvMono k1 k3 k2 k4 A A _ p r q s), alt_swap12 (fun p q r s => bnvMono k2 k3 k1 k4 A A _ q r p s),
    alt_swap23 (fun p q r s => bnvMono k2 k3 k1 k4 A A _ p r q s)]
  ring

theorem mono_lin (k1 k2 k3 k4 : Kind) (A B : Chir) (a b : ℂ) (f g : Ix4 → ℂ) (x : Fin 4 → Leg) :
    (bnvMono k1 k2 k3 k4 A B fun i => a * f i + b * g i).alt x =
      a * (bnvMono k1 k2 k3 k4 A B f).alt x + b * (bnvMono k1 k2 k3 k4 A B g).alt x := by
  rw [← alt_mul, ← alt_mul, ← alt_add]
  congr 1
  funext p q r s
  unfold bnvMono
  split
  · ring
  · ring

theorem mono_nil (k1 k2 k3 k4 : Kind) (A B : Chir) : bnvMono k1 k2 k3 k4 A B 0 = fun _ _ _ _ => 0 := by
  funext p q r s; simp [bnvMono]

/-! ### Components of the operators -/

theorem duql_comp (f : Ix4 → ℂ) (x : Fin 4 → Leg) : (bnvField .d .u .q .l .R .L .second f).alt x =
    (bnvMono .d .u .u .e .R .L f).alt x - (bnvMono .d .u .d .nu .R .L f).alt x := by
  rw [sub_eq_add_neg, ← alt_neg, ← alt_add]
  congr 1
  funext p q r s
  simp [bnvField, Fld.comps, Contr.val, eps2]

theorem qque_comp (f : Ix4 → ℂ) (x : Fin 4 → Leg) : (bnvField .q .q .u .e .L .R .first f).alt x =
    -(bnvMono .d .u .u .e .L .R (fSwap f)).alt x - (bnvMono .d .u .u .e .L .R f).alt x := by
  rw [← mono_swap, sub_eq_add_neg, ← alt_neg, ← alt_add]
  congr 1
  funext p q r s
  simp [bnvField, Fld.comps, Contr.val, eps2]

theorem pairs_comp (f : Ix4 → ℂ) (x : Fin 4 → Leg) : (qqqlLag .pairs f).alt x =
    -(bnvMono .d .u .u .e .L .L (fSwap f)).alt x - (bnvMono .d .u .u .e .L .L f).alt x +
    (-(bnvMono .u .d .d .nu .L .L (fSwap f)).alt x - (bnvMono .u .d .d .nu .L .L f).alt x) := by
  rw [← mono_swap, ← mono_swap, sub_eq_add_neg, sub_eq_add_neg, ← alt_neg, ← alt_neg, ← alt_add, ← alt_add, ← alt_add]
  congr 1
  funext p q r s
  simp [qqqlLag, bnvField, Fld.comps, Contr.val, eps2]
  ring

theorem duue_comp (f : Ix4 → ℂ) (x : Fin 4 → Leg) : (bnvField .d .u .u .e .R .R .none f).alt x = (bnvMono .d .u .u .e .R .R f).alt x := by
  congr 1
  funext p q r s
  simp [bnvField, Fld.comps, Contr.val]

/-- What `qqql` with the contraction `ε_jn ε_km` gives for `SduuLL` and `SuddLL`. -/
def nestedT (f : Ix4 → ℂ) : Ix4 → ℂ := fun i =>
  f (i.2.1, i.1, i.2.2.1, i.2.2.2) - f (i.2.1, i.2.2.1, i.1, i.2.2.2) + f (i.2.2.1, i.2.1, i.1, i.2.2.2)

theorem nested_comp (f : Ix4 → ℂ) (x : Fin 4 → Leg) : (qqqlLag .nested f).alt x =
    (bnvMono .d .u .u .e .L .L (nestedT f)).alt x + (bnvMono .u .d .d .nu .L .L (nestedT f)).alt x := by
  have e : qqqlLag .nested f = fun p q r s =>
      (bnvMono .u .u .d .e .L .L f p q r s + -bnvMono .u .d .u .e .L .L f p q r s) +
      (bnvMono .d .d .u .nu .L .L f p q r s + -bnvMono .d .u .d .nu .L .L f p q r s) := by
    funext p q r s
    simp [qqqlLag, bnvField, Fld.comps, Contr.val, eps2]
    ring
  have l : ∀ k1 k2 k3 k4 A, (bnvMono k1 k2 k3 k4 A A (nestedT f)).alt x =
      (bnvMono k1 k2 k3 k4 A A (fSwap f)).alt x - (bnvMono k1 k2 k3 k4 A A fun i => f (i.2.1, i.2.2.1, i.1, i.2.2.2)).alt x +
      (bnvMono k1 k2 k3 k4 A A fun i => f (i.2.2.1, i.2.1, i.1, i.2.2.2)).alt x := by
    intro k1 k2 k3 k4 A
    rw [sub_eq_add_neg, ← alt_neg, ← alt_add, ← alt_add]
    congr 1
    funext p q r s
    unfold bnvMono nestedT fSwap
    split
    · ring
    · ring
  rw [e, alt_add, alt_add, alt_add, alt_neg, alt_neg, mono_fierz .u .u .d .e, mono_fierz .d .d .u .nu, mono_swap .u .d .u .e .L .L f,
    mono_swap .d .u .d .nu .L .L f, l, l, mono_swap .u .d .u .e .L .L (fun i => _), mono_swap .d .u .d .nu .L .L (fun i => _),
    mono_swap .u .d .u .e .L .L (fun i => _), mono_swap .d .u .d .nu .L .L (fun i => _)]
  have s1 : (fSwap fun i => f (i.1, i.2.2.1, i.2.1, i.2.2.2)) = fun i => f (i.2.1, i.2.2.1, i.1, i.2.2.2) := rfl
  have s2 : (fSwap fun i => f (i.2.2.1, i.1, i.2.1, i.2.2.2)) = fun i => f (i.2.2.1, i.2.1, i.1, i.2.2.2) := rfl
  rw [s1, s2]
  ring

end Verif
