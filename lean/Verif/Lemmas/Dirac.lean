import Mathlib.Algebra.BigOperators.Fin
import Verif.Spec.Lagrangian

/-! Identities of Dirac structures: products of gamma matrices, exchange of the bilinears, Fierz identities. -/

set_option autoImplicit false

namespace Verif.Spec

/-! ### Evaluation -/

/-- Row `α` of `gamma^mu` has one entry, in this column. -/
def prm : Fin 4 → Fin 4 → Fin 4
  | 0, α => α + 2
  | 3, α => α + 2
  | _, α => 3 - α

/-- That entry. -/
def phs : Fin 4 → Fin 4 → GaussianInt
  | 0, _ => 1
  | 1, α => if α.val < 2 then 1 else -1
  | 2, 0 => -gI
  | 2, 1 => gI
  | 2, 2 => gI
  | 2, 3 => -gI
  | 3, 0 => 1
  | 3, 1 => -1
  | 3, 2 => -1
  | 3, 3 => 1

/-- Entry of a projector. -/
def prE : Chir → Fin 4 → Fin 4 → GaussianInt
  | .L, α, β => if α.val = β.val then if α.val < 2 then 1 else 0 else 0
  | .R, α, β => if α.val = β.val then if α.val < 2 then 0 else 1 else 0

/-- Entries of matrices. -/
def mE (M : Matrix (Fin 4) (Fin 4) GaussianInt) (α β : Fin 4) : GaussianInt := M α β

theorem gam_eq : ∀ μ α α', mE (gam μ) α α' = if α' = prm μ α then phs μ α else 0 := by decide +kernel

theorem proj_eq (A : Chir) : ∀ α β, mE (proj A) α β = prE A α β := by cases A <;> decide +kernel

/-- `Dir.ent` of `g n A B`, evaluated step by step. -/
def fastG : ℕ → Chir → Chir → Fin 4 → Fin 4 → Fin 4 → Fin 4 → GaussianInt
  | 0, A, B, α, β, γ, δ => prE A α β * prE B γ δ
  | n + 1, A, B, α, β, γ, δ =>
    phs 0 α * phs 0 γ * fastG n A B (prm 0 α) β (prm 0 γ) δ -
    phs 1 α * phs 1 γ * fastG n A B (prm 1 α) β (prm 1 γ) δ -
    phs 2 α * phs 2 γ * fastG n A B (prm 2 α) β (prm 2 γ) δ -
    phs 3 α * phs 3 γ * fastG n A B (prm 3 α) β (prm 3 γ) δ

theorem gam_mul_apply (μ : Fin 4) (M : Matrix (Fin 4) (Fin 4) GaussianInt) (α β : Fin 4) :
    mE (gam μ * M) α β = phs μ α * mE M (prm μ α) β := by
  have : mE (gam μ * M) α β = ∑ k, mE (gam μ) α k * mE M k β := Matrix.mul_apply
  rw [this]
  simp only [gam_eq, ite_mul, zero_mul, Finset.sum_ite_eq', Finset.mem_univ, if_true]

theorem mE_smul (c : GaussianInt) (M : Matrix (Fin 4) (Fin 4) GaussianInt) (α β : Fin 4) : mE (c • M) α β = c * mE M α β := rfl

theorem entG (n : ℕ) (A B : Chir) (α β γ δ : Fin 4) : (Dir.g n A B).ent α β γ δ = ∑ m : Fin n → Fin 4, (∏ i, met (m i)) *
      mE ((List.ofFn fun i => gam (m i)).prod * proj A) α β * mE ((List.ofFn fun i => gam (m i)).prod * proj B) γ δ := rfl

theorem entS (A B : Chir) (α β γ δ : Fin 4) : (Dir.sg A B).ent α β γ δ =
    ∑ μ, ∑ ν, met μ * met ν * mE (sig μ ν * proj A) α β * mE (sig μ ν * proj B) γ δ := rfl

theorem met0 : met 0 = 1 ∧ met 1 = -1 ∧ met 2 = -1 ∧ met 3 = -1 := by decide +kernel

theorem ent_g (n : ℕ) (A B : Chir) (α β γ δ : Fin 4) : (Dir.g n A B).ent α β γ δ = fastG n A B α β γ δ := by
  obtain ⟨e0, e1, e2, e3⟩ := met0
  induction n generalizing α γ with
  | zero => simp [entG, fastG, proj_eq]
  | succ n ih =>
    simp only [entG, fastG] at ih ⊢
    simp only [← ih]
    rw [← (Fin.consEquiv fun _ : Fin (n + 1) => Fin 4).sum_comp, Fintype.sum_prod_type, Fin.sum_univ_four]
    have h : ∀ μ, (∑ m : Fin n → Fin 4, (∏ i, met ((Fin.consEquiv fun _ : Fin (n + 1) => Fin 4) (μ, m) i)) *
        mE ((List.ofFn fun i => gam ((Fin.consEquiv fun _ : Fin (n + 1) => Fin 4) (μ, m) i)).prod * proj A) α β *
        mE ((List.ofFn fun i => gam ((Fin.consEquiv fun _ : Fin (n + 1) => Fin 4) (μ, m) i)).prod * proj B) γ δ) =
        met μ * phs μ α * phs μ γ * ∑ m : Fin n → Fin 4, (∏ i, met (m i)) *
          mE ((List.ofFn fun i => gam (m i)).prod * proj A) (prm μ α) β *
          mE ((List.ofFn fun i => gam (m i)).prod * proj B) (prm μ γ) δ := by
      intro μ
      rw [Finset.mul_sum]
      refine Finset.sum_congr rfl fun m _ => ?_
      simp only [Fin.consEquiv_apply, Fin.prod_univ_succ, Fin.cons_zero, Fin.cons_succ, List.ofFn_succ, List.prod_cons, mul_assoc (gam μ),
        gam_mul_apply]
      ring
    rw [h, h, h, h, e0, e1, e2, e3]
    ring

theorem gam_sq : ∀ μ, gam μ * gam μ = met μ • 1 := by decide +kernel

theorem met_sq : ∀ μ, met μ * met μ = 1 := by decide +kernel

theorem sig_apply (μ ν : Fin 4) (A : Chir) (α β : Fin 4) :
    mE (sig μ ν * proj A) α β = if μ = ν then 0 else gI * (phs μ α * (phs ν (prm μ α) * prE A (prm ν (prm μ α)) β)) := by
  unfold sig
  split
  · rw [Matrix.zero_mul]; rfl
  · rw [Matrix.smul_mul, mE_smul, Matrix.mul_assoc, gam_mul_apply, gam_mul_apply, proj_eq]

theorem ent_sg (A B : Chir) (α β γ δ : Fin 4) : (Dir.sg A B).ent α β γ δ = 4 * fastG 0 A B α β γ δ - fastG 2 A B α β γ δ := by
  have hI : gI * gI = -1 := by decide +kernel
  have h : ∀ μ : Fin 4, ∀ A α β, phs μ α * (phs μ (prm μ α) * prE A (prm μ (prm μ α)) β) = met μ * prE A α β := by
    intro μ A α β
    have := congrArg (fun M => mE (M * proj A) α β) (gam_sq μ)
    simp only [Matrix.mul_assoc, gam_mul_apply, Matrix.smul_mul, mE_smul, Matrix.one_mul, proj_eq] at this
    exact this
  have t : ∀ μ ν : Fin 4, met μ * met ν * mE (sig μ ν * proj A) α β * mE (sig μ ν * proj B) γ δ =
      (if μ = ν then prE A α β * prE B γ δ else 0) - met μ * met ν * (phs μ α * (phs ν (prm μ α) * prE A (prm ν (prm μ α)) β)) *
        (phs μ γ * (phs ν (prm μ γ) * prE B (prm ν (prm μ γ)) δ)) := by
    intro μ ν
    rw [sig_apply, sig_apply]
    split
    · rename_i e
      subst e
      rw [h, h]
      have := met_sq μ
      linear_combination (met μ * met μ + 1) * prE A α β * prE B γ δ * this
    · linear_combination met μ * met ν * (phs μ α * (phs ν (prm μ α) * prE A (prm ν (prm μ α)) β)) *
        (phs μ γ * (phs ν (prm μ γ) * prE B (prm ν (prm μ γ)) δ)) * hI
  obtain ⟨e0, e1, e2, e3⟩ := met0
  simp only [entS, t, Finset.sum_sub_distrib, Finset.sum_ite_eq, Finset.mem_univ, if_true]
  simp only [fastG, Fin.sum_univ_four, e0, e1, e2, e3]
  ring

/-! ### Identities -/

theorem fast_succ (n : ℕ) (A B : Chir) (α β γ δ : Fin 4) : fastG (n + 1) A B α β γ δ =
    phs 0 α * phs 0 γ * fastG n A B (prm 0 α) β (prm 0 γ) δ - phs 1 α * phs 1 γ * fastG n A B (prm 1 α) β (prm 1 γ) δ -
    phs 2 α * phs 2 γ * fastG n A B (prm 2 α) β (prm 2 γ) δ - phs 3 α * phs 3 γ * fastG n A B (prm 3 α) β (prm 3 γ) δ := rfl

/-- The bilinears can be exchanged. -/
theorem fastS (n : ℕ) (A B : Chir) (α β γ δ : Fin 4) : fastG n A B γ δ α β = fastG n B A α β γ δ := by
  induction n generalizing α γ with
  | zero => simp only [fastG]; ring
  | succ n ih => simp only [fast_succ, ih]; ring

theorem fast2 : (∀ α β γ δ, fastG 2 .L .R α β γ δ = 4 * fastG 0 .L .R α β γ δ) ∧
    ∀ α β γ δ, fastG 2 .R .L α β γ δ = 4 * fastG 0 .R .L α β γ δ := by
  have h : ∀ α β γ δ, fastG 2 .L .R α β γ δ = 4 * fastG 0 .L .R α β γ δ := by decide +kernel
  refine ⟨h, fun α β γ δ => ?_⟩
  rw [← fastS 2, ← fastS 0, h]

theorem fastX1 : (∀ α β γ δ, fastG 1 .L .L γ β α δ = -fastG 1 .L .L α β γ δ) ∧
    (∀ α β γ δ, fastG 1 .R .R γ β α δ = -fastG 1 .R .R α β γ δ) ∧
    (∀ α β γ δ, fastG 1 .L .R γ β α δ = 2 * fastG 0 .L .R α β γ δ) ∧
    ∀ α β γ δ, fastG 1 .R .L γ β α δ = 2 * fastG 0 .R .L α β γ δ := by
  refine ⟨?_, ?_, ?_, ?_⟩ <;> decide +kernel

theorem fastX0 : (∀ α β γ δ, fastG 2 .L .L α β γ δ = 8 * fastG 0 .L .L α β γ δ - 8 * fastG 0 .L .L γ β α δ) ∧
    ∀ α β γ δ, fastG 2 .R .R α β γ δ = 8 * fastG 0 .R .R α β γ δ - 8 * fastG 0 .R .R γ β α δ := by
  refine ⟨?_, ?_⟩ <;> decide +kernel

theorem fast3 : (∀ α β γ δ, fastG 3 .L .L α β γ δ = 16 * fastG 1 .L .L α β γ δ) ∧
    (∀ α β γ δ, fastG 3 .R .R α β γ δ = 16 * fastG 1 .R .R α β γ δ) ∧
    (∀ α β γ δ, fastG 3 .L .R α β γ δ = 4 * fastG 1 .L .R α β γ δ) ∧
    ∀ α β γ δ, fastG 3 .R .L α β γ δ = 4 * fastG 1 .R .L α β γ δ := by
  have h : ∀ A, (∀ α β γ δ, fastG 2 A A α β γ δ = 8 * fastG 0 A A α β γ δ - 8 * fastG 0 A A γ β α δ) →
      (∀ α β γ δ, fastG 1 A A γ β α δ = -fastG 1 A A α β γ δ) → ∀ α β γ δ, fastG 3 A A α β γ δ = 16 * fastG 1 A A α β γ δ := by
    intro A h0 h1 α β γ δ
    have e : fastG 3 A A α β γ δ = 8 * fastG 1 A A α β γ δ - 8 * fastG 1 A A γ β α δ := by
      rw [fast_succ 2, fast_succ 0, fast_succ 0]
      simp only [h0]; ring
    rw [e, h1]; ring
  refine ⟨h _ fastX0.1 fastX1.1, h _ fastX0.2 fastX1.2.1, fun α β γ δ => ?_, fun α β γ δ => ?_⟩
  · rw [fast_succ 2, fast_succ 0]
    simp only [fast2.1]; ring
  · rw [fast_succ 2, fast_succ 0]
    simp only [fast2.2]; ring

theorem fast4 : (∀ α β γ δ, fastG 4 .L .L α β γ δ = 16 * fastG 2 .L .L α β γ δ) ∧
    (∀ α β γ δ, fastG 4 .R .R α β γ δ = 16 * fastG 2 .R .R α β γ δ) ∧
    (∀ α β γ δ, fastG 4 .L .R α β γ δ = 16 * fastG 0 .L .R α β γ δ) ∧
    ∀ α β γ δ, fastG 4 .R .L α β γ δ = 16 * fastG 0 .R .L α β γ δ := by
  obtain ⟨h1, h2, h3, h4⟩ := fast3
  refine ⟨fun α β γ δ => ?_, fun α β γ δ => ?_, fun α β γ δ => ?_, fun α β γ δ => ?_⟩
  · rw [fast_succ 3, fast_succ 1]
    simp only [h1]; ring
  · rw [fast_succ 3, fast_succ 1]
    simp only [h2]; ring
  · have := fast2.1 α β γ δ
    rw [fast_succ 1] at this
    rw [fast_succ 3]
    simp only [h3]
    linear_combination 4 * this
  · have := fast2.2 α β γ δ
    rw [fast_succ 1] at this
    rw [fast_succ 3]
    simp only [h4]
    linear_combination 4 * this

/-! ### Complex values -/

section

variable (α β γ δ : Fin 4)

@[local simp] theorem tc2 : (GaussianInt.toComplex 2 : ℂ) = 2 := map_ofNat GaussianInt.toComplex 2

@[local simp] theorem tc4 : (GaussianInt.toComplex 4 : ℂ) = 4 := map_ofNat GaussianInt.toComplex 4

@[local simp] theorem tc8 : (GaussianInt.toComplex 8 : ℂ) = 8 := map_ofNat GaussianInt.toComplex 8

@[local simp] theorem tc16 : (GaussianInt.toComplex 16 : ℂ) = 16 := map_ofNat GaussianInt.toComplex 16

theorem val_g (n : ℕ) (A B : Chir) : (Dir.g n A B).val α β γ δ = GaussianInt.toComplex (fastG n A B α β γ δ) := by
  rw [Dir.val, ent_g]

theorem val_sg (A B : Chir) : (Dir.sg A B).val α β γ δ =
    4 * (Dir.g 0 A B).val α β γ δ - (Dir.g 2 A B).val α β γ δ := by
  rw [Dir.val, ent_sg, val_g, val_g]; simp

/-- Exchange of the bilinears. -/
theorem val_swap (n : ℕ) (A B : Chir) : (Dir.g n A B).val γ δ α β = (Dir.g n B A).val α β γ δ := by
  rw [val_g, val_g, fastS]

theorem val_sg_swap (A B : Chir) : (Dir.sg A B).val γ δ α β = (Dir.sg B A).val α β γ δ := by
  rw [val_sg, val_sg, val_swap α β γ δ 0, val_swap α β γ δ 2]

theorem val3_same (A : Chir) : (Dir.g 3 A A).val α β γ δ = 16 * (Dir.g 1 A A).val α β γ δ := by
  obtain ⟨h1, h2, -, -⟩ := fast3
  cases A <;> simp [val_g, h1, h2]

theorem val3_LR : (Dir.g 3 .L .R).val α β γ δ = 4 * (Dir.g 1 .L .R).val α β γ δ := by
  simp [val_g, fast3.2.2.1]

theorem val3_RL : (Dir.g 3 .R .L).val α β γ δ = 4 * (Dir.g 1 .R .L).val α β γ δ := by
  simp [val_g, fast3.2.2.2]

theorem val4_same (A : Chir) : (Dir.g 4 A A).val α β γ δ = 64 * (Dir.g 0 A A).val α β γ δ - 16 * (Dir.sg A A).val α β γ δ := by
  obtain ⟨h1, h2, -, -⟩ := fast4
  rw [val_sg]
  cases A <;> simp [val_g, h1, h2] <;> ring

theorem val4_LR : (Dir.g 4 .L .R).val α β γ δ = 16 * (Dir.g 0 .L .R).val α β γ δ := by
  simp [val_g, fast4.2.2.1]

theorem val4_RL : (Dir.g 4 .R .L).val α β γ δ = 16 * (Dir.g 0 .R .L).val α β γ δ := by
  simp [val_g, fast4.2.2.2]

theorem val_sg_LR : (Dir.sg .L .R).val α β γ δ = 0 := by
  rw [val_sg, val_g, val_g, fast2.1]; simp

theorem val_sg_RL : (Dir.sg .R .L).val α β γ δ = 0 := by
  rw [val_sg, val_g, val_g, fast2.2]; simp

/-- Fierz identity of `(V - A) (V - A)`. -/
theorem fierz1_same (A : Chir) : (Dir.g 1 A A).val γ β α δ = -(Dir.g 1 A A).val α β γ δ := by
  obtain ⟨h1, h2, -, -⟩ := fastX1
  cases A <;> rw [val_g, val_g]
  · rw [h1]; simp
  · rw [h2]; simp

/-- Fierz identity of `(V - A) (V + A)`. -/
theorem fierz1_LR : (Dir.g 1 .L .R).val γ β α δ = 2 * (Dir.g 0 .L .R).val α β γ δ := by
  rw [val_g, val_g, fastX1.2.2.1]; simp

theorem fierz1_RL : (Dir.g 1 .R .L).val γ β α δ = 2 * (Dir.g 0 .R .L).val α β γ δ := by
  rw [val_g, val_g, fastX1.2.2.2]; simp

theorem fierz0_LR : (Dir.g 0 .L .R).val γ β α δ = (Dir.g 1 .L .R).val α β γ δ / 2 := by
  have := fierz1_LR γ β α δ
  rw [this]; ring

theorem fierz0_RL : (Dir.g 0 .R .L).val γ β α δ = (Dir.g 1 .R .L).val α β γ δ / 2 := by
  have := fierz1_RL γ β α δ
  rw [this]; ring

/-- Fierz identity of scalars. -/
theorem fierz0_same (A : Chir) : (Dir.g 0 A A).val γ β α δ =
    (Dir.g 0 A A).val α β γ δ / 2 + (Dir.sg A A).val α β γ δ / 8 := by
  rw [val_sg]
  have h : (Dir.g 2 A A).val α β γ δ = 8 * (Dir.g 0 A A).val α β γ δ - 8 * (Dir.g 0 A A).val γ β α δ := by
    cases A <;> rw [val_g, val_g, val_g]
    · rw [fastX0.1]; simp
    · rw [fastX0.2]; simp
  rw [h]; ring

/-- Fierz identity of tensors. -/
theorem fierz_sg_same (A : Chir) : (Dir.sg A A).val γ β α δ =
    6 * (Dir.g 0 A A).val α β γ δ - (Dir.sg A A).val α β γ δ / 2 := by
  have h1 := fierz0_same α β γ δ A
  have h2 := fierz0_same γ β α δ A
  linear_combination -8 * h2 - 4 * h1

end

end Verif.Spec
