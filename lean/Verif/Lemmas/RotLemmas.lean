import Mathlib.Tactic.Ring
import Mathlib.Tactic.LinearCombination
import Verif.Spec.Smeft

/-! Algebra of index rotations. -/

set_option autoImplicit false

namespace Verif

open Spec ComplexConjugate

abbrev MM := Matrix (Fin 3) (Fin 3) ℂ
abbrev T2 := Fin 3 × Fin 3 → ℂ
abbrev T4 := Fin 3 × Fin 3 × Fin 3 × Fin 3 → ℂ

/-! ### Exchange of indices -/

theorem rot4_swap12 (A B C D : MM) (T : T4) (x y z w : Fin 3) :
    rot4 A B C D T (x, y, z, w) = rot4 B A C D (fun i => T (i.2.1, i.1, i.2.2)) (y, x, z, w) := by
  unfold rot4
  rw [Finset.sum_comm]
  refine Finset.sum_congr rfl fun _ _ => Finset.sum_congr rfl fun _ _ => Finset.sum_congr rfl fun _ _ =>
    Finset.sum_congr rfl fun _ _ => ?_
  ring

theorem rot4_swap23 (A B C D : MM) (T : T4) (x y z w : Fin 3) :
    rot4 A B C D T (x, y, z, w) = rot4 A C B D (fun i => T (i.1, i.2.2.1, i.2.1, i.2.2.2)) (x, z, y, w) := by
  unfold rot4
  refine Finset.sum_congr rfl fun _ _ => ?_
  rw [Finset.sum_comm]
  refine Finset.sum_congr rfl fun _ _ => Finset.sum_congr rfl fun _ _ => Finset.sum_congr rfl fun _ _ => ?_
  ring

theorem rot4_swap34 (A B C D : MM) (T : T4) (x y z w : Fin 3) :
    rot4 A B C D T (x, y, z, w) = rot4 A B D C (fun i => T (i.1, i.2.1, i.2.2.2, i.2.2.1)) (x, y, w, z) := by
  unfold rot4
  refine Finset.sum_congr rfl fun _ _ => Finset.sum_congr rfl fun _ _ => ?_
  rw [Finset.sum_comm]
  refine Finset.sum_congr rfl fun _ _ => Finset.sum_congr rfl fun _ _ => ?_
  ring

theorem rot2_swap (A B : MM) (C : T2) (x y : Fin 3) :
    rot2 A B C (x, y) = rot2 B A (fun i => C (i.2, i.1)) (y, x) := by
  unfold rot2
  rw [Finset.sum_comm]
  refine Finset.sum_congr rfl fun _ _ => Finset.sum_congr rfl fun _ _ => ?_
  ring

/-! ### Complex conjugation and addition -/

theorem conj_rot4 (A B C D : MM) (T : T4) (i : Fin 3 × Fin 3 × Fin 3 × Fin 3) :
    conj (rot4 A B C D T i) =
      rot4 (A.map conj) (B.map conj) (C.map conj) (D.map conj) (fun i => conj (T i)) i := by
  simp only [rot4, map_sum, map_mul, Matrix.map_apply]

theorem conj_rot2 (A B : MM) (T : T2) (i : Fin 3 × Fin 3) :
    conj (rot2 A B T i) = rot2 (A.map conj) (B.map conj) (fun i => conj (T i)) i := by
  simp only [rot2, map_sum, map_mul, Matrix.map_apply]

theorem rot4_add (A B C D : MM) (T S : T4) (i : Fin 3 × Fin 3 × Fin 3 × Fin 3) :
    rot4 A B C D (fun i => T i + S i) i = rot4 A B C D T i + rot4 A B C D S i := by
  simp only [rot4, mul_add, Finset.sum_add_distrib]

/-! ### Composition -/

theorem rot2_comp (A B A' B' : MM) (C : T2) : rot2 A' B' (rot2 A B C) = rot2 (A * A') (B * B') C := by
  funext i
  simp only [rot2, Matrix.mul_apply, Finset.mul_sum, Finset.sum_mul]
  rw [Finset.sum_congr rfl fun p _ => Finset.sum_comm, Finset.sum_comm]
  refine Finset.sum_congr rfl fun a _ => ?_
  rw [Finset.sum_congr rfl fun p _ => Finset.sum_comm, Finset.sum_comm]
  refine Finset.sum_congr rfl fun c _ => Finset.sum_comm.trans ?_
  refine Finset.sum_congr rfl fun p _ => Finset.sum_congr rfl fun r _ => ?_
  ring

/-- Rotation of the first index. -/
def r1 (A : MM) (T : T4) : T4 := fun i => ∑ p, A p i.1 * T (p, i.2)
/-- Rotation of the second index. -/
def r2 (A : MM) (T : T4) : T4 := fun i => ∑ p, A p i.2.1 * T (i.1, p, i.2.2)
/-- Rotation of the third index. -/
def r3 (A : MM) (T : T4) : T4 := fun i => ∑ p, A p i.2.2.1 * T (i.1, i.2.1, p, i.2.2.2)
/-- Rotation of the fourth index. -/
def r4 (A : MM) (T : T4) : T4 := fun i => ∑ p, A p i.2.2.2 * T (i.1, i.2.1, i.2.2.1, p)

theorem rot4_eq (A B C D : MM) (T : T4) : rot4 A B C D T = r1 A (r2 B (r3 C (r4 D T))) := by
  funext i
  simp only [rot4, r1, r2, r3, r4, Finset.mul_sum, mul_assoc]

theorem comp_sum (A A' : MM) (f : Fin 3 → ℂ) (x : Fin 3) :
    ∑ p, A' p x * ∑ s, A s p * f s = ∑ s, (A * A') s x * f s := by
  simp only [Matrix.mul_apply, Finset.mul_sum, Finset.sum_mul]
  rw [Finset.sum_comm]
  refine Finset.sum_congr rfl fun _ _ => Finset.sum_congr rfl fun _ _ => ?_
  ring

theorem comm_sum (A B : MM) (f : Fin 3 → Fin 3 → ℂ) (x y : Fin 3) :
    ∑ p, A p x * ∑ s, B s y * f p s = ∑ s, B s y * ∑ p, A p x * f p s := by
  simp only [Finset.mul_sum]
  rw [Finset.sum_comm]
  refine Finset.sum_congr rfl fun _ _ => Finset.sum_congr rfl fun _ _ => ?_
  ring

theorem r1_r1 (A A' : MM) (T : T4) : r1 A' (r1 A T) = r1 (A * A') T := by
  funext i; exact comp_sum A A' (fun p => T (p, i.2)) i.1
theorem r2_r2 (A A' : MM) (T : T4) : r2 A' (r2 A T) = r2 (A * A') T := by
  funext i; exact comp_sum A A' (fun p => T (i.1, p, i.2.2)) i.2.1
theorem r3_r3 (A A' : MM) (T : T4) : r3 A' (r3 A T) = r3 (A * A') T := by
  funext i; exact comp_sum A A' (fun p => T (i.1, i.2.1, p, i.2.2.2)) i.2.2.1
theorem r4_r4 (A A' : MM) (T : T4) : r4 A' (r4 A T) = r4 (A * A') T := by
  funext i; exact comp_sum A A' (fun p => T (i.1, i.2.1, i.2.2.1, p)) i.2.2.2

theorem r2_r1 (A B : MM) (T : T4) : r2 B (r1 A T) = r1 A (r2 B T) := by
  funext i; exact comm_sum B A (fun p s => T (s, p, i.2.2)) i.2.1 i.1
theorem r3_r1 (A B : MM) (T : T4) : r3 B (r1 A T) = r1 A (r3 B T) := by
  funext i; exact comm_sum B A (fun p s => T (s, i.2.1, p, i.2.2.2)) i.2.2.1 i.1
theorem r4_r1 (A B : MM) (T : T4) : r4 B (r1 A T) = r1 A (r4 B T) := by
  funext i; exact comm_sum B A (fun p s => T (s, i.2.1, i.2.2.1, p)) i.2.2.2 i.1
theorem r3_r2 (A B : MM) (T : T4) : r3 B (r2 A T) = r2 A (r3 B T) := by
  funext i; exact comm_sum B A (fun p s => T (i.1, s, p, i.2.2.2)) i.2.2.1 i.2.1
theorem r4_r2 (A B : MM) (T : T4) : r4 B (r2 A T) = r2 A (r4 B T) := by
  funext i; exact comm_sum B A (fun p s => T (i.1, s, i.2.2.1, p)) i.2.2.2 i.2.1
theorem r4_r3 (A B : MM) (T : T4) : r4 B (r3 A T) = r3 A (r4 B T) := by
  funext i; exact comm_sum B A (fun p s => T (i.1, i.2.1, s, p)) i.2.2.2 i.2.2.1

theorem rot4_comp (A B C D A' B' C' D' : MM) (T : T4) :
    rot4 A' B' C' D' (rot4 A B C D T) = rot4 (A * A') (B * B') (C * C') (D * D') T := by
  simp only [rot4_eq, r2_r1, r3_r1, r4_r1, r3_r2, r4_r2, r4_r3, r1_r1, r2_r2, r3_r3, r4_r4]

theorem rot4_one (T : T4) : rot4 1 1 1 1 T = T := by
  rw [rot4_eq]
  have h1 : ∀ T, r1 1 T = T := fun T => by funext i; simp [r1, Matrix.one_apply]
  have h2 : ∀ T, r2 1 T = T := fun T => by funext i; simp [r2, Matrix.one_apply]
  have h3 : ∀ T, r3 1 T = T := fun T => by funext i; simp [r3, Matrix.one_apply]
  have h4 : ∀ T, r4 1 T = T := fun T => by funext i; simp [r4, Matrix.one_apply]
  rw [h1, h2, h3, h4]

theorem rot2_one (C : T2) : rot2 1 1 C = C := by
  funext i
  simp [rot2, Matrix.one_apply]

/-! ### The matrices of the indices -/

theorem slot_conj (U : Fld → MM) (f : Fld) : ((b f).mat U).map conj = (n f).mat U := by
  ext i j; simp [Slot.mat, b, n]

theorem slot_conj' (U : Fld → MM) (f : Fld) : ((n f).mat U).map conj = (b f).mat U := by
  ext i j; simp [Slot.mat, b, n]

theorem slot_mul (U W : Fld → MM) (s : Slot) : s.mat U * s.mat W = s.mat fun f => U f * W f := by
  ext i j
  simp only [Slot.mat, Matrix.mul_apply]
  cases s.bar <;> simp

theorem slot_one (s : Slot) : s.mat (fun _ => 1) = 1 := by
  ext i j
  simp only [Slot.mat, Matrix.one_apply]
  cases s.bar <;> simp [apply_ite]

/-! ### Rotations keep the relations -/

theorem rot2_rel (U : Fld → MM) (x y : Slot) (c : SymClass) (hc : cls2 x y = some c) (C : T2) (h : Rel2 c C) :
    Rel2 c (rot2 (x.mat U) (y.mat U) C) := by
  obtain ⟨f, bx⟩ := x
  obtain ⟨g, by'⟩ := y
  unfold cls2 at hc
  split at hc
  · next h1 =>
    obtain ⟨rfl, rfl, h2⟩ := h1
    simp only [Bool.not_eq_true] at h2
    subst h2
    obtain rfl := Option.some.inj hc
    intro p r
    change rot2 ((b f).mat U) ((n f).mat U) C (r, p) = conj (rot2 ((b f).mat U) ((n f).mat U) C (p, r))
    rw [conj_rot2, slot_conj, slot_conj', rot2_swap]
    congr 1
    funext i
    exact h i.1 i.2
  · split at hc
    · next h1 =>
      obtain ⟨rfl, h2, h3⟩ := h1
      simp only [Bool.not_eq_true] at h2 h3
      subst h2 h3
      obtain rfl := Option.some.inj hc
      intro p r
      rw [rot2_swap]
      congr 1
      funext i
      exact h i.1 i.2
    · simp at hc

theorem rot4_rel (U : Fld → MM) (x y z w : Slot) (c : SymClass) (hc : cls4 x y z w = some c) (T : T4) (h : Rel4 c T) :
    Rel4 c (rot4 (x.mat U) (y.mat U) (z.mat U) (w.mat U) T) := by
  have hconj : ∀ f g : Fld, (∀ p r s t, T (r, p, t, s) = conj (T (p, r, s, t))) → ∀ p r s t,
      rot4 ((b f).mat U) ((n f).mat U) ((b g).mat U) ((n g).mat U) T (r, p, t, s) =
        conj (rot4 ((b f).mat U) ((n f).mat U) ((b g).mat U) ((n g).mat U) T (p, r, s, t)) := by
    intro f g h p r s t
    rw [conj_rot4, slot_conj, slot_conj', slot_conj, slot_conj', rot4_swap12, rot4_swap34]
    congr 1
    funext i
    exact h i.1 i.2.1 i.2.2.1 i.2.2.2
  have hswap : ∀ A B : MM, (∀ p r s t, T (s, t, p, r) = T (p, r, s, t)) → ∀ p r s t,
      rot4 A B A B T (s, t, p, r) = rot4 A B A B T (p, r, s, t) := by
    intro A B h p r s t
    rw [rot4_swap23, rot4_swap12, rot4_swap34, rot4_swap23]
    congr 1
    funext i
    exact h i.1 i.2.1 i.2.2.1 i.2.2.2
  have hfierz : ∀ A B : MM, (∀ p r s t, T (p, t, s, r) = T (p, r, s, t)) → ∀ p r s t,
      rot4 A B A B T (p, t, s, r) = rot4 A B A B T (p, r, s, t) := by
    intro A B h p r s t
    rw [rot4_swap34, rot4_swap23, rot4_swap34]
    congr 1
    funext i
    exact h i.1 i.2.1 i.2.2.1 i.2.2.2
  obtain ⟨f, bx⟩ := x
  obtain ⟨f', by'⟩ := y
  obtain ⟨g, bz⟩ := z
  obtain ⟨g', bw⟩ := w
  unfold cls4 at hc
  split at hc
  · next h1 =>
    obtain ⟨rfl, rfl, rfl, h2, rfl, h3⟩ := h1
    simp only [Bool.not_eq_true] at h2 h3
    subst h2 h3
    split at hc
    · next h4 =>
      dsimp only at h4
      subst h4
      split at hc
      · obtain rfl := Option.some.inj hc
        intro p r s t
        exact ⟨hconj f f (fun p r s t => (h p r s t).1) p r s t, hswap _ _ (fun p r s t => (h p r s t).2.1) p r s t,
          hfierz _ _ (fun p r s t => (h p r s t).2.2) p r s t⟩
      · obtain rfl := Option.some.inj hc
        intro p r s t
        exact ⟨hconj f f (fun p r s t => (h p r s t).1) p r s t, hswap _ _ (fun p r s t => (h p r s t).2) p r s t⟩
    · obtain rfl := Option.some.inj hc
      exact hconj f g h
  · split at hc
    · next h1 =>
      simp only [List.cons.injEq, and_true] at h1
      obtain ⟨h1, h2, h3, h4⟩ := h1
      rw [h1, h2, h3, h4]
      obtain rfl := Option.some.inj hc
      intro p r s t
      rw [rot4_swap12]
      congr 1
      funext i
      exact h i.1 i.2.1 i.2.2.1 i.2.2.2
    · split at hc
      · next h1 =>
        simp only [List.cons.injEq, and_true] at h1
        obtain ⟨h1, h2, h3, h4⟩ := h1
        rw [h1, h2, h3, h4]
        obtain rfl := Option.some.inj hc
        intro p r s t
        generalize (n .q).mat U = A
        generalize (n .l).mat U = D
        rw [rot4_swap12 A A A D T r p s t, rot4_swap12 A A A D T s p r t, rot4_swap23 A A A D _ p s r t,
          rot4_swap23 A A A D T s r p t, rot4_swap12 A A A D _ s p r t, rot4_swap23 A A A D _ p s r t,
          ← rot4_add, ← rot4_add]
        congr 1
        funext i
        have := h i.1 i.2.1 i.2.2.1 i.2.2.2
        exact this
      · simp at hc

end Verif
