import Verif.Spec.Mixing
import Mathlib.Analysis.SpecialFunctions.Sqrt
import Mathlib.Analysis.Calculus.Deriv.Inv
import Mathlib.Analysis.Calculus.Deriv.Pow

/-! The couplings of the Z boson to first order in `phiWB`. -/

set_option autoImplicit false

namespace Verif

open Spec Filter Topology

/-! ### Exact mixing -/

section

variable {e g ε g1 : ℝ} {A Z : ℝ × ℝ}

/-- Products of the couplings to the Z. -/
theorem mixing_products (h : Mixing e g ε g1 A Z) (he : 0 < e) (hg : 0 < g) :
    let N := g1 ^ 2 + g ^ 2 + 2 * ε * g1 * g
    e ^ 2 * N = g1 ^ 2 * g ^ 2 ∧ 0 < 1 - ε ^ 2 ∧ (g * Z.1 - g1 * Z.2) ^ 2 = N / (1 - ε ^ 2) ∧
      -((g * Z.1 - g1 * Z.2) * (g1 * Z.2)) = g1 * (g1 + ε * g) / (1 - ε ^ 2) ∧
      (g1 * Z.2) ^ 2 = (g1 * (g1 + ε * g)) ^ 2 / ((1 - ε ^ 2) * N) := by
  intro N
  obtain ⟨p1, h1, h2, h3, h4, h5⟩ := h
  obtain ⟨a, b⟩ := A
  obtain ⟨x, y⟩ := Z
  simp only [kin] at h1 h2 h3 h4 h5 ⊢
  have ha : a = e / g := by field_simp; linarith
  have hb : b = e / g1 := by field_simp; linarith
  have k1 : e ^ 2 * N = g1 ^ 2 * g ^ 2 := by
    rw [ha, hb] at h1
    field_simp at h1
    simp only [N]
    linarith
  have o : x * (g1 + ε * g) = -(y * (g + ε * g1)) := by
    rw [ha, hb] at h3
    field_simp at h3
    have := (mul_eq_zero.1 (h3.trans (mul_zero _))).resolve_left he.ne'
    linarith
  have hN : 0 < N := by
    have : 0 < e ^ 2 * N := by rw [k1]; positivity
    exact pos_of_mul_pos_right this (by positivity)
  have id : (1 - ε ^ 2) * N = (g1 + ε * g) ^ 2 + (g + ε * g1) ^ 2 - 2 * ε * (g1 + ε * g) * (g + ε * g1) := by
    simp only [N]; ring
  have xx : x ^ 2 * ((1 - ε ^ 2) * N) = (g + ε * g1) ^ 2 := by
    rw [id]
    linear_combination (x * (g1 + ε * g) - y * (g + ε * g1) - 2 * ε * x * (g + ε * g1)) * o + (g + ε * g1) ^ 2 * h2
  have yy : y ^ 2 * ((1 - ε ^ 2) * N) = (g1 + ε * g) ^ 2 := by
    rw [id]
    linear_combination (-x * (g1 + ε * g) + y * (g + ε * g1) - 2 * ε * y * (g1 + ε * g)) * o + (g1 + ε * g) ^ 2 * h2
  have xy : x * y * ((1 - ε ^ 2) * N) = -((g1 + ε * g) * (g + ε * g1)) := by
    rw [id]
    linear_combination (y * (g1 + ε * g) + x * (g + ε * g1) ) * o - (g1 + ε * g) * (g + ε * g1) * h2
  have hp : 0 < (1 - ε ^ 2) * N := by
    by_contra hle
    rw [not_lt] at hle
    have hs : (g + ε * g1) ^ 2 + (g1 + ε * g) ^ 2 ≤ 0 := by
      rw [← xx, ← yy, ← add_mul]
      exact mul_nonpos_of_nonneg_of_nonpos (by positivity) hle
    have e1 : g + ε * g1 = 0 := pow_eq_zero_iff two_ne_zero |>.1 (le_antisymm (by linarith [sq_nonneg (g1 + ε * g)]) (sq_nonneg _))
    have e2 : g1 + ε * g = 0 := pow_eq_zero_iff two_ne_zero |>.1 (le_antisymm (by linarith [sq_nonneg (g + ε * g1)]) (sq_nonneg _))
    have : N = g * (g + ε * g1) + g1 * (g1 + ε * g) := by simp only [N]; ring
    rw [e1, e2, mul_zero, mul_zero, add_zero] at this
    exact hN.ne' this
  have hε : 0 < 1 - ε ^ 2 := pos_of_mul_pos_left hp hN.le
  refine ⟨k1, hε, ?_, ?_, ?_⟩
  · rw [eq_div_iff hε.ne']
    apply mul_right_cancel₀ hN.ne'
    have : N = g * (g + ε * g1) + g1 * (g1 + ε * g) := by simp only [N]; ring
    linear_combination g ^ 2 * xx + g1 ^ 2 * yy - 2 * g * g1 * xy - (N + g * (g + ε * g1) + g1 * (g1 + ε * g)) * this
  · rw [eq_div_iff hε.ne']
    apply mul_right_cancel₀ hN.ne'
    have : N = g * (g + ε * g1) + g1 * (g1 + ε * g) := by simp only [N]; ring
    linear_combination g1 ^ 2 * yy - g * g1 * xy - g1 * (g1 + ε * g) * this
  · rw [eq_div_iff hp.ne']
    linear_combination g1 ^ 2 * yy

/-- The coupling of the hypercharge. -/
theorem mixing_g1 (h : Mixing e g ε g1 A Z) (he : 0 < e) (hg : e < g) :
    g1 = (ε * e ^ 2 * g + e * g * √(ε ^ 2 * e ^ 2 + (g ^ 2 - e ^ 2))) / (g ^ 2 - e ^ 2) := by
  obtain ⟨k1, -⟩ := mixing_products h he (he.trans hg)
  have p1 := h.g1_pos
  have hd : 0 < g ^ 2 - e ^ 2 := by nlinarith
  have hE : 0 < ε ^ 2 * e ^ 2 + (g ^ 2 - e ^ 2) := by positivity
  have hs := Real.sq_sqrt hE.le
  have hlt : |ε * e| < √(ε ^ 2 * e ^ 2 + (g ^ 2 - e ^ 2)) := by
    rw [← Real.sqrt_sq_eq_abs]
    exact Real.sqrt_lt_sqrt (sq_nonneg _) (by nlinarith)
  have hab := le_abs_self (ε * e)
  set E := √(ε ^ 2 * e ^ 2 + (g ^ 2 - e ^ 2))
  have hsq : ((g ^ 2 - e ^ 2) * g1 - ε * e ^ 2 * g - e * g * E) * ((g ^ 2 - e ^ 2) * g1 - ε * e ^ 2 * g + e * g * E) = 0 := by
    linear_combination -e ^ 2 * g ^ 2 * hs - (g ^ 2 - e ^ 2) * k1
  have hpos : 0 < (g ^ 2 - e ^ 2) * g1 - ε * e ^ 2 * g + e * g * E := by
    have : 0 < e * g * (E - ε * e) := mul_pos (mul_pos he (he.trans hg)) (by linarith)
    nlinarith [mul_pos hd p1]
  rw [eq_div_iff hd.ne']
  have := (mul_eq_zero.1 hsq).resolve_right hpos.ne'
  linarith

end

/-! ### Derivatives -/

/-- Value and derivative at zero. -/
def Jet (f : ℝ → ℝ) (a b : ℝ) : Prop := f 0 = a ∧ HasDerivAt f b 0

namespace Jet

variable {f k : ℝ → ℝ} {a b a' b' x y : ℝ}

theorem of_eq (h : Jet f a b) (h1 : a = x) (h2 : b = y) : Jet f x y := by subst h1 h2; exact h

theorem congr (h : Jet f a b) (hk : k = f) : Jet k a b := by subst hk; exact h

theorem const (c : ℝ) : Jet (fun _ => c) c 0 := ⟨rfl, hasDerivAt_const _ _⟩

theorem id : Jet (fun ε => ε) 0 1 := ⟨rfl, hasDerivAt_id _⟩

theorem add (h : Jet f a b) (h' : Jet k a' b') : Jet (fun ε => f ε + k ε) (a + a') (b + b') := ⟨by simp only [h.1, h'.1], h.2.add h'.2⟩

theorem sub (h : Jet f a b) (h' : Jet k a' b') : Jet (fun ε => f ε - k ε) (a - a') (b - b') := ⟨by simp only [h.1, h'.1], h.2.sub h'.2⟩

theorem mul (h : Jet f a b) (h' : Jet k a' b') : Jet (fun ε => f ε * k ε) (a * a') (b * a' + a * b') :=
  ⟨by simp only [h.1, h'.1], by have := h.2.mul h'.2; rwa [h.1, h'.1] at this⟩

theorem div (h : Jet f a b) (h' : Jet k a' b') (h0 : a' ≠ 0) : Jet (fun ε => f ε / k ε) (a / a') ((b * a' - a * b') / a' ^ 2) :=
  ⟨by simp only [h.1, h'.1], by have := h.2.div h'.2 (by rw [h'.1]; exact h0); rwa [h.1, h'.1] at this⟩

theorem sq (h : Jet f a b) : Jet (fun ε => f ε ^ 2) (a ^ 2) (2 * a * b) := by
  refine ((h.mul h).congr ?_).of_eq (by ring) (by ring)
  funext ε; ring

theorem sqrt (h : Jet f (a ^ 2) b) (h0 : 0 < a) : Jet (fun ε => √(f ε)) a (b / (2 * a)) := by
  have hs : √(f 0) = a := by rw [h.1, Real.sqrt_sq h0.le]
  exact ⟨hs, by have := h.2.sqrt (by rw [h.1]; positivity); rwa [hs] at this⟩

end Jet

section

variable {e g r : ℝ}

/-- Coupling of the hypercharge without expansion. -/
noncomputable def g1x (e g r ε : ℝ) : ℝ := (ε * e ^ 2 * g + e * g * √(ε ^ 2 * e ^ 2 + r ^ 2)) / r ^ 2

theorem g1x_jet (hr : 0 < r) : Jet (g1x e g r) (e * g / r) (e ^ 2 * g / r ^ 2) := by
  have h1 : Jet (fun ε : ℝ => √(ε ^ 2 * e ^ 2 + r ^ 2)) r 0 :=
    ((((Jet.id.sq).mul (.const (e ^ 2))).add (.const (r ^ 2))).of_eq (x := r ^ 2) (y := 0) (by ring) (by ring)).sqrt hr |>.of_eq rfl (by simp)
  exact ((((Jet.id.mul (.const (e ^ 2))).mul (.const g)).add ((Jet.const (e * g)).mul h1)).div (.const (r ^ 2)) (by positivity)).of_eq
    (by field_simp; ring) (by field_simp; ring)

/-- Products of couplings without expansion. -/
theorem exact_jet (he : 0 < e) (hr : 0 < r) (hg : 0 < g) (h : g ^ 2 = e ^ 2 + r ^ 2) :
    Jet (fun ε => (g1x e g r ε ^ 2 + g ^ 2 + 2 * ε * g1x e g r ε * g) / (1 - ε ^ 2)) (g ^ 4 / r ^ 2) (2 * e * g ^ 4 / r ^ 3) ∧
    Jet (fun ε => g1x e g r ε * (g1x e g r ε + ε * g) / (1 - ε ^ 2)) (e ^ 2 * g ^ 2 / r ^ 2) (e * g ^ 2 * (g ^ 2 + e ^ 2) / r ^ 3) ∧
    Jet (fun ε => (g1x e g r ε * (g1x e g r ε + ε * g)) ^ 2 / ((1 - ε ^ 2) * (g1x e g r ε ^ 2 + g ^ 2 + 2 * ε * g1x e g r ε * g)))
      (e ^ 4 / r ^ 2) (2 * e ^ 3 * g ^ 2 / r ^ 3) := by
  have d1 := g1x_jet (e := e) (g := g) hr
  have d2 : Jet (fun ε : ℝ => 1 - ε ^ 2) 1 0 := ((Jet.const 1).sub Jet.id.sq).of_eq (by ring) (by ring)
  have dN : Jet (fun ε => g1x e g r ε ^ 2 + g ^ 2 + 2 * ε * g1x e g r ε * g) (g ^ 4 / r ^ 2) (2 * e * g ^ 4 / r ^ 3) := by
    refine ((d1.sq.add (.const (g ^ 2))).add ((((Jet.const 2).mul .id).mul d1).mul (.const g))).of_eq ?_ ?_
    · field_simp; linear_combination -h
    · field_simp; linear_combination -2 * e * g ^ 2 * h
  have d3 : Jet (fun ε => g1x e g r ε * (g1x e g r ε + ε * g)) (e ^ 2 * g ^ 2 / r ^ 2) (e * g ^ 2 * (g ^ 2 + e ^ 2) / r ^ 3) := by
    refine (d1.mul (d1.add (Jet.id.mul (.const g)))).of_eq ?_ ?_
    · field_simp; ring
    · field_simp; linear_combination -g * h
  refine ⟨?_, ?_, ?_⟩
  · exact (dN.div d2 one_ne_zero).of_eq (by ring) (by ring)
  · exact (d3.div d2 one_ne_zero).of_eq (by ring) (by ring)
  · refine (d3.sq.div (d2.mul dN) (by positivity)).of_eq ?_ ?_
    · field_simp
    · field_simp; ring

/-- The couplings of the matching. -/
theorem code_jets (he : 0 < e) (hr : 0 < r) (hg : 0 < g) (h : g ^ 2 = e ^ 2 + r ^ 2) {k s c : ℝ → ℝ}
    (hk : k = fun ε => e * g / √(g ^ 2 - e ^ 2) + e ^ 2 * g / (g ^ 2 - e ^ 2) * ε)
    (hs : s = fun ε => k ε / √(k ε ^ 2 + g ^ 2) * (1 + ε / 2 * g / k ε * ((g ^ 2 - k ε ^ 2) / (k ε ^ 2 + g ^ 2))))
    (hc : c = fun ε => g / √(k ε ^ 2 + g ^ 2) * (1 - ε / 2 * k ε / g * ((g ^ 2 - k ε ^ 2) / (k ε ^ 2 + g ^ 2)))) :
    Jet k (e * g / r) (e ^ 2 * g / r ^ 2) ∧ Jet s (e / g) (r / (2 * g)) ∧ Jet c (r / g) (-(e / (2 * g))) := by
  have hr2 : g ^ 2 - e ^ 2 = r ^ 2 := by linarith
  have jk : Jet k (e * g / r) (e ^ 2 * g / r ^ 2) := by
    rw [hk, hr2, Real.sqrt_sq hr.le]
    exact ((Jet.const _).add ((Jet.const _).mul .id)).of_eq (by ring) (by ring)
  have jn : Jet (fun ε => k ε ^ 2 + g ^ 2) ((g ^ 2 / r) ^ 2) (2 * e ^ 3 * g ^ 2 / r ^ 3) := by
    refine (jk.sq.add (.const (g ^ 2))).of_eq ?_ ?_
    · field_simp; linear_combination -h
    · field_simp; ring
  have jq : Jet (fun ε => √(k ε ^ 2 + g ^ 2)) (g ^ 2 / r) (e ^ 3 / r ^ 2) := by
    refine (jn.sqrt (by positivity)).of_eq rfl ?_
    field_simp
  have jd : Jet (fun ε => (g ^ 2 - k ε ^ 2) / (k ε ^ 2 + g ^ 2)) ((r ^ 2 - e ^ 2) / g ^ 2)
      (((-(2 * (e * g / r) * (e ^ 2 * g / r ^ 2))) * (g ^ 2 / r) ^ 2 - (g ^ 2 - (e * g / r) ^ 2) * (2 * e ^ 3 * g ^ 2 / r ^ 3)) /
        ((g ^ 2 / r) ^ 2) ^ 2) := by
    refine (((Jet.const (g ^ 2)).sub jk.sq).div jn (by positivity)).of_eq ?_ ?_
    · field_simp
    · ring
  have js : Jet s (e / g) (r / (2 * g)) := by
    rw [hs]
    refine ((jk.div jq (by positivity)).mul ((Jet.const 1).add ((((Jet.id.div (.const 2) two_ne_zero).mul (.const g)).div jk
      (by positivity)).mul jd))).of_eq ?_ ?_
    · field_simp; ring
    · field_simp; linear_combination 2 * g ^ 2 * (2 * e ^ 2 - r ^ 2) * h
  have jc : Jet c (r / g) (-(e / (2 * g))) := by
    rw [hc]
    refine (((Jet.const g).div jq (by positivity)).mul ((Jet.const 1).sub ((((Jet.id.div (.const 2) two_ne_zero).mul jk).div (.const g)
      (by positivity)).mul jd))).of_eq ?_ ?_
    · field_simp; ring
    · field_simp; linear_combination 2 * g ^ 2 * r * e * h
  exact ⟨jk, js, jc⟩

/-- Products of the couplings of the matching. -/
theorem code_jet (he : 0 < e) (hr : 0 < r) (hg : 0 < g) (h : g ^ 2 = e ^ 2 + r ^ 2) {k s c eb gz : ℝ → ℝ}
    (hk : k = fun ε => e * g / √(g ^ 2 - e ^ 2) + e ^ 2 * g / (g ^ 2 - e ^ 2) * ε)
    (hs : s = fun ε => k ε / √(k ε ^ 2 + g ^ 2) * (1 + ε / 2 * g / k ε * ((g ^ 2 - k ε ^ 2) / (k ε ^ 2 + g ^ 2))))
    (hc : c = fun ε => g / √(k ε ^ 2 + g ^ 2) * (1 - ε / 2 * k ε / g * ((g ^ 2 - k ε ^ 2) / (k ε ^ 2 + g ^ 2))))
    (heb : eb = fun ε => g * s ε - 1 / 2 * c ε * g * ε)
    (hgz : gz = fun ε => eb ε / (s ε * c ε) * (1 + (k ε ^ 2 + g ^ 2) / (2 * k ε * g) * ε)) :
    Jet (fun ε => gz ε ^ 2) (g ^ 4 / r ^ 2) (2 * e * g ^ 4 / r ^ 3) ∧
    Jet (fun ε => gz ε ^ 2 * s ε ^ 2) (e ^ 2 * g ^ 2 / r ^ 2) (e * g ^ 2 * (g ^ 2 + e ^ 2) / r ^ 3) ∧
    Jet (fun ε => gz ε ^ 2 * (s ε ^ 2) ^ 2) (e ^ 4 / r ^ 2) (2 * e ^ 3 * g ^ 2 / r ^ 3) := by
  obtain ⟨jk, js, jc⟩ := code_jets he hr hg h hk hs hc
  have jn : Jet (fun ε => k ε ^ 2 + g ^ 2) ((g ^ 2 / r) ^ 2) (2 * e ^ 3 * g ^ 2 / r ^ 3) := by
    refine (jk.sq.add (.const (g ^ 2))).of_eq ?_ ?_
    · field_simp; linear_combination -h
    · field_simp; ring
  have je : Jet eb e 0 := by
    rw [heb]
    refine (((Jet.const g).mul js).sub ((((Jet.const (1 / 2)).mul jc).mul (.const g)).mul .id)).of_eq ?_ ?_
    · field_simp; ring
    · field_simp; ring
  have jz : Jet gz (g ^ 2 / r) (g ^ 2 * e / r ^ 2) := by
    rw [hgz]
    refine ((je.div (js.mul jc) (by positivity)).mul ((Jet.const 1).add ((jn.div (((Jet.const 2).mul jk).mul (.const g)) (by positivity)).mul
      .id))).of_eq ?_ ?_
    · field_simp; ring
    · field_simp; linear_combination 2 * e * r * h
  refine ⟨?_, ?_, ?_⟩
  · exact jz.sq.of_eq (by field_simp) (by field_simp)
  · refine (jz.sq.mul js.sq).of_eq (by field_simp) ?_
    field_simp; linear_combination -h
  · refine (jz.sq.mul js.sq.sq).of_eq (by field_simp) ?_
    field_simp; linear_combination -h

end

end Verif
