import Verif.Lemmas.Dirac
import Verif.Lemmas.WetClosed

/-! Tensors of four-fermion Lagrangians. -/

set_option autoImplicit false

namespace Verif.Spec

/-! ### Hermitian conjugation -/

/-- `gamma^0` exchanges the two halves of a spinor. -/
def Leg.fl (p : Leg) : Leg := { p with spin := prm 0 p.spin }

theorem g0_eq (α β : Fin 4) : g0 α β = if β = prm 0 α then 1 else 0 := by
  have h : ∀ α β, mE (gam 0) α β = if β = prm 0 α then 1 else 0 := by decide +kernel
  rw [g0, show gam 0 α β = mE (gam 0) α β from rfl, h]; split <;> simp

theorem g0_eq' (α β : Fin 4) : g0 α β = if α = prm 0 β then 1 else 0 := by
  have h : ∀ α β, mE (gam 0) α β = if α = prm 0 β then 1 else 0 := by decide +kernel
  rw [g0, show gam 0 α β = mE (gam 0) α β from rfl, h]; split <;> simp

theorem adj_eq (T : Four) (p q r s : Leg) : T.adj p q r s = starRingEnd ℂ (T q.fl p.fl s.fl r.fl) := by
  have e : ∀ α β γ δ, g0 p.spin α * g0 β q.spin * g0 r.spin γ * g0 δ s.spin *
      starRingEnd ℂ (T { q with spin := β } { p with spin := α } { s with spin := δ } { r with spin := γ }) =
      if δ = prm 0 s.spin then if γ = prm 0 r.spin then if β = prm 0 q.spin then if α = prm 0 p.spin then
        starRingEnd ℂ (T { q with spin := β } { p with spin := α } { s with spin := δ } { r with spin := γ })
        else 0 else 0 else 0 else 0 := by
    intro α β γ δ
    rw [g0_eq p.spin, g0_eq' β, g0_eq r.spin, g0_eq' δ]
    split_ifs <;> simp
  simp only [Four.adj, e, Finset.sum_ite_eq', Finset.mem_univ, if_true]
  rfl

theorem fl_fl (p : Leg) : p.fl.fl = p := by
  have : ∀ α, prm 0 (prm 0 α) = α := by decide
  cases p
  simp only [Leg.fl, this]

theorem adj_adj (T : Four) : T.adj.adj = T := by
  funext p q r s
  simp only [adj_eq, fl_fl, Complex.conj_conj]

/-- The other chirality. -/
def Chir.flip : Chir → Chir
  | .L => .R
  | .R => .L

theorem val0_adj (A B : Chir) (α β γ δ : Fin 4) :
    starRingEnd ℂ ((Dir.g 0 A B).val (prm 0 β) (prm 0 α) (prm 0 δ) (prm 0 γ)) = (Dir.g 0 A.flip B.flip).val α β γ δ := by
  rw [val_g, val_g, ← GaussianInt.toComplex_star]
  congr 1
  have h : ∀ A α β, star (prE A (prm 0 β) (prm 0 α)) = prE A.flip α β := by
    intro A; cases A <;> decide +kernel
  simp only [fastG, star_mul', h]

theorem val1_adj (A B : Chir) (α β γ δ : Fin 4) :
    starRingEnd ℂ ((Dir.g 1 A B).val (prm 0 β) (prm 0 α) (prm 0 δ) (prm 0 γ)) = (Dir.g 1 A B).val α β γ δ := by
  rw [val_g, val_g, ← GaussianInt.toComplex_star]
  congr 1
  revert α β γ δ
  cases A <;> cases B <;> decide +kernel

theorem valS_adj (A : Chir) (α β γ δ : Fin 4) :
    starRingEnd ℂ ((Dir.sg A A).val (prm 0 β) (prm 0 α) (prm 0 δ) (prm 0 γ)) = (Dir.sg A.flip A.flip).val α β γ δ := by
  have e : ∀ A α β γ δ, (Dir.sg A A).val α β γ δ = 8 * (Dir.g 0 A A).val γ β α δ - 4 * (Dir.g 0 A A).val α β γ δ := by
    intro A α β γ δ
    have := fierz0_same α β γ δ A
    linear_combination -8 * this
  rw [e, e]
  have h1 := val0_adj A A α β γ δ
  have h2 := val0_adj A A α δ γ β
  have h3 := val_swap α δ γ β 0 A.flip A.flip
  simp only [map_sub, map_mul, map_ofNat, h1, h2, h3]

theorem col_adj (c : Col) (a b d e : Fin 3) : c.val b a e d = c.val a b d e := by
  have h1 : (b = a ∧ e = d) ↔ (a = b ∧ d = e) := by constructor <;> rintro ⟨h, h'⟩ <;> exact ⟨h.symm, h'.symm⟩
  have h2 : (b = d ∧ e = a) ↔ (a = e ∧ d = b) := by constructor <;> rintro ⟨h, h'⟩ <;> exact ⟨h'.symm, h.symm⟩
  cases c <;> simp only [Col.val, h1, h2]

theorem col_real (c : Col) (a b d e : Fin 3) : starRingEnd ℂ (c.val a b d e) = c.val a b d e := by
  cases c <;> simp only [Col.val] <;> split_ifs <;> simp [map_ofNat]

theorem once_real (name : String) (i j : Fin 3 × Fin 3) : starRingEnd ℂ (once name i j) = once name i j := by
  unfold once; split_ifs <;> simp [map_ofNat]

/-- The conjugate of an operator. -/
theorem term_adj (J : JSrc → ℂ) (o : JOp) (p q r s : Leg) : (o.term J).adj p q r s =
    if q.kind = o.k1 ∧ p.kind = o.k2 ∧ s.kind = o.k3 ∧ r.kind = o.k4 then
      once o.name (q.gen, p.gen) (s.gen, r.gen) * starRingEnd ℂ (J (o.name, [q.gen, p.gen, s.gen, r.gen])) *
        starRingEnd ℂ (o.dir.val (prm 0 q.spin) (prm 0 p.spin) (prm 0 s.spin) (prm 0 r.spin)) * o.col.val p.col q.col r.col s.col
    else 0 := by
  have e : o.term J q.fl p.fl s.fl r.fl = if q.kind = o.k1 ∧ p.kind = o.k2 ∧ s.kind = o.k3 ∧ r.kind = o.k4 then
      once o.name (q.gen, p.gen) (s.gen, r.gen) * J (o.name, [q.gen, p.gen, s.gen, r.gen]) *
        o.dir.val (prm 0 q.spin) (prm 0 p.spin) (prm 0 s.spin) (prm 0 r.spin) * o.col.val q.col p.col s.col r.col
      else 0 := rfl
  rw [adj_eq, e]
  by_cases h : q.kind = o.k1 ∧ p.kind = o.k2 ∧ s.kind = o.k3 ∧ r.kind = o.k4
  · rw [if_pos h, if_pos h]
    simp only [map_mul, col_real, once_real, col_adj o.col p.col q.col r.col s.col]
  · rw [if_neg h, if_neg h, map_zero]

/-- Vector operators are Hermitian. -/
theorem term_herm {J : JSrc → ℂ} {o : JOp}
    (hJ : ∀ p r s t, J (o.name, [r, p, t, s]) = starRingEnd ℂ (J (o.name, [p, r, s, t])))
    (hk : o.k1 = o.k2 ∧ o.k3 = o.k4) {A B : Chir} (hd : o.dir = .g 1 A B) : (o.term J).adj = o.term J := by
  funext p q r s
  rw [term_adj, JOp.term, hd, val1_adj, ← hJ]
  have h1 : (q.kind = o.k1 ∧ p.kind = o.k2 ∧ s.kind = o.k3 ∧ r.kind = o.k4) ↔
      (p.kind = o.k1 ∧ q.kind = o.k2 ∧ r.kind = o.k3 ∧ s.kind = o.k4) := by
    rw [hk.1, hk.2]; tauto
  have h2 : once o.name (q.gen, p.gen) (s.gen, r.gen) = once o.name (p.gen, q.gen) (r.gen, s.gen) := by
    unfold once
    simp only [ne_eq, Prod.mk.injEq, and_comm]
  simp only [h1, h2]

theorem adj_add (S T : Four) : Four.adj (fun p q r s => S p q r s + T p q r s) = fun p q r s => S.adj p q r s + T.adj p q r s := by
  funext p q r s
  simp only [adj_eq, map_add]

theorem anti_adj (T : Four) : T.anti.adj = T.adj.anti := by
  funext p q r s
  simp only [adj_eq, Four.anti, map_add, map_sub]
  ring

theorem anti_swap1 (T : Four) (p q r s : Leg) : T.anti r q p s = -T.anti p q r s := by
  simp only [Four.anti]; ring

theorem anti_swap2 (T : Four) (p q r s : Leg) : T.anti p s r q = -T.anti p q r s := by
  simp only [Four.anti]; ring

theorem sum_adj {ι : Type} (l : List ι) (T : ι → Four) :
    Four.adj (fun p q r s => (l.map fun i => T i p q r s).sum) = fun p q r s => (l.map fun i => (T i).adj p q r s).sum := by
  funext p q r s
  rw [adj_eq]
  induction l with
  | nil => simp
  | cons i l ih => simp only [List.map_cons, List.sum_cons, map_add, ih, adj_eq]

theorem jmsOps_herm : ∀ o ∈ jmsOps, o.herm = true → o.name ∈ jmsHermitian ∧ (o.k1 = o.k2 ∧ o.k3 = o.k4) ∧
    ∃ A B, o.dir = .g 1 A B := by
  unfold jmsOps
  simp only [List.forall_mem_cons]
  simp (decide := true)

/-- The Lagrangian of the JMS basis is Hermitian. -/
theorem jmsLag_adj {L : List String} {C : Dict String ℂ} {J : JSrc → ℂ} (hJ : JmsFull L C J) : (jmsLag J).adj = jmsLag J := by
  have : jmsLag J = fun p q r s => (jmsOps.map fun o => (fun p q r s => o.term J p q r s + if o.herm then 0 else (o.term J).adj p q r s : Four) p q r s).sum := rfl
  rw [this, sum_adj]
  funext p q r s
  congr 1
  refine List.map_congr_left fun o ho => ?_
  cases hh : o.herm with
  | true =>
    obtain ⟨h1, h2, A, B, h3⟩ := jmsOps_herm o ho hh
    have e := term_herm (hJ.herm _ h1) h2 h3
    simp only [if_true, add_zero]
    exact congrFun (congrFun (congrFun (congrFun e p) q) r) s
  | false =>
    simp only [Bool.false_eq_true, if_false]
    rw [adj_add, adj_adj, add_comm]

/-- The Lagrangian of the Bern basis is Hermitian. -/
theorem bernLag_adj (GF : ℝ) (c : String → ℂ) : (bernLag GF c).adj = bernLag GF c := by
  have e : Four.adj (fun p q r s => (bernSectors.map fun x => (fun p q r s => x.term c p q r s + (x.term c).adj p q r s : Four) p q r s).sum) =
      fun p q r s => (bernSectors.map fun x => x.term c p q r s + (x.term c).adj p q r s).sum := by
    rw [sum_adj]
    funext p q r s
    congr 1
    refine List.map_congr_left fun x _ => ?_
    rw [adj_add, adj_adj, add_comm]
  funext p q r s
  have e' := congrFun (congrFun (congrFun (congrFun e p) q) r) s
  rw [adj_eq] at e' ⊢
  simp only [bernLag, map_mul, Complex.conj_ofReal]
  rw [e']

end Verif.Spec
