import Verif.Lemmas.Match
import Verif.Spec.Match

/-! The electroweak quantities at the point of the Standard Model. -/

set_option autoImplicit false

namespace Verif

open Spec

theorem divE_ok {x y : ℝ} (h : y ≠ 0) : divE x y = .ok (x / y) := by
  unfold divE; rw [if_neg h]

theorem sqrtE_ok {x : ℝ} (h : 0 ≤ x) : sqrtE x = .ok (Real.sqrt x) := by
  unfold sqrtE; rw [if_neg (not_lt.2 h)]

/-- The coefficients that shift the electroweak quantities vanish. -/
structure NoShift (S : Src) : Prop where
  ll : S.tn "ll" (1, 0, 0, 1) = 0 ∧ S.tn "ll" (0, 1, 1, 0) = 0
  phil3 : S.mt "phil3" (1, 1) = 0 ∧ S.mt "phil3" (0, 0) = 0
  phiWB : S.phiWB = 0

theorem noShift_zero (S : Src) : NoShift S.zero := ⟨⟨rfl, rfl⟩, ⟨rfl, rfl⟩, rfl⟩

/-- The quantities are defined if the vacuum expectation value is and if the weak mixing angle is real. -/
theorem ew_ok_v {p : Par} {mW mZ alpha v : ℝ} {S : Src} (hW : Dict.get p "m_W" = .ok mW) (hZ : Dict.get p "m_Z" = .ok mZ)
    (hA : Dict.get p "alpha_e" = .ok alpha) (mW_pos : 0 < mW) (mZ_pos : 0 < mZ) (alpha_pos : 0 < alpha) (hvT : vT S p = .ok v) (v0 : 0 < v)
    (ha : 4 * Real.pi * alpha < (2 * mW / v) ^ 2) (hphi : S.phiWB = 0) : ∃ w, ewOf S p = .ok w ∧ w.vT = v := by
  set h := 2 * mW / v with hh
  have h0 : 0 < h := div_pos (mul_pos two_pos mW_pos) v0
  have hg2 : g2b S p = .ok h := by
    unfold g2b
    rw [hW, ok_bind, hvT, ok_bind, divE_ok v0.ne']
  have heps : eps S p = .ok 0 := by
    unfold eps
    rw [hvT, ok_bind, hphi, zero_mul]; rfl
  set e := Real.sqrt (4 * Real.pi * alpha) with he
  have epos : 0 < 4 * Real.pi * alpha := by have := Real.pi_pos; have := alpha_pos; positivity
  have e0 : 0 < e := Real.sqrt_pos.2 epos
  have e2 : e ^ 2 = 4 * Real.pi * alpha := Real.sq_sqrt epos.le
  have hd : 0 < h ^ 2 - e ^ 2 := by rw [e2]; linarith
  set r := Real.sqrt (h ^ 2 - e ^ 2) with hr
  have r0 : 0 < r := Real.sqrt_pos.2 hd
  set g := e * h / r with hg
  have g0 : 0 < g := div_pos (mul_pos e0 h0) r0
  have hg1 : g1b S p = .ok g := by
    unfold g1b
    rw [hA, ok_bind, sqrtE_ok epos.le, ok_bind, hg2, ok_bind, sqrtE_ok hd.le, ok_bind, divE_ok r0.ne', ok_bind,
      divE_ok hd.ne', ok_bind, heps, ok_bind, mul_zero, add_zero]
    rfl
  have q0 : 0 < g ^ 2 + h ^ 2 := by positivity
  have s0 : 0 < Real.sqrt (g ^ 2 + h ^ 2) := Real.sqrt_pos.2 q0
  have hs : sb S p = .ok (g / Real.sqrt (g ^ 2 + h ^ 2)) := by
    unfold sb
    rw [hg1, ok_bind, hg2, ok_bind, sqrtE_ok q0.le, ok_bind, heps, ok_bind, divE_ok s0.ne', ok_bind, divE_ok g0.ne', ok_bind,
      divE_ok q0.ne', ok_bind]
    simp [pure, Except.pure]
  have hc : cb S p = .ok (h / Real.sqrt (g ^ 2 + h ^ 2)) := by
    unfold cb
    rw [hg1, ok_bind, hg2, ok_bind, sqrtE_ok q0.le, ok_bind, heps, ok_bind, divE_ok s0.ne', ok_bind, divE_ok h0.ne', ok_bind,
      divE_ok q0.ne', ok_bind]
    simp [pure, Except.pure]
  have hsc : g / Real.sqrt (g ^ 2 + h ^ 2) * (h / Real.sqrt (g ^ 2 + h ^ 2)) ≠ 0 := by positivity
  have hgz : ∃ x, gzb S p = .ok x := by
    unfold gzb eb
    rw [hg2, ok_bind, hs, ok_bind, hc, ok_bind, hvT, ok_bind, pure_bind]
    simp only [ok_bind, hg1]
    rw [divE_ok hsc, ok_bind, divE_ok (by positivity), ok_bind]
    exact ⟨_, rfl⟩
  obtain ⟨x, hx'⟩ := hgz
  refine ⟨⟨v, h, g / Real.sqrt (g ^ 2 + h ^ 2), h / Real.sqrt (g ^ 2 + h ^ 2), x, mW, mZ⟩, ?_, rfl⟩
  unfold ewOf
  rw [hvT, ok_bind, hg2, ok_bind, hs, ok_bind, hc, ok_bind, hx', ok_bind, hW, ok_bind, hZ, ok_bind,
    divE_ok mW_pos.ne', ok_bind, divE_ok mZ_pos.ne', ok_bind]
  rfl

theorem vT_plain {p : Par} {GF mW mZ alpha : ℝ} (hp : PhysicalEW p GF mW mZ alpha) {S : Src}
    (ll : S.tn "ll" (1, 0, 0, 1) = 0 ∧ S.tn "ll" (0, 1, 1, 0) = 0) (phil3 : S.mt "phil3" (1, 1) = 0 ∧ S.mt "phil3" (0, 0) = 0) :
    vT S p = .ok (Real.sqrt (1 / Real.sqrt 2 / GF)) := by
  have h2 : (0 : ℝ) < Real.sqrt 2 := Real.sqrt_pos.2 (by norm_num)
  have hG := Dict.get_of_find hp.GF_eq
  have hx : (0 : ℝ) < 1 / Real.sqrt 2 / GF := div_pos (div_pos one_pos h2) hp.GF_pos
  unfold vT
  rw [hG, ok_bind]
  dsimp only
  have hn : ‖((GF : ℂ) - ((Real.sqrt 2 / 4 : ℝ) : ℂ) * (-S.tn "ll" (1, 0, 0, 1) - S.tn "ll" (0, 1, 1, 0)
      + 2 * S.mt "phil3" (1, 1) + 2 * S.mt "phil3" (0, 0)))‖ = GF := by
    rw [ll.1, ll.2, phil3.1, phil3.2]
    simp [abs_of_pos hp.GF_pos]
  rw [hn, divE_ok hp.GF_pos.ne', ok_bind, sqrtE_ok hx.le]

theorem ew_ok {p : Par} {GF mW mZ alpha : ℝ} (hp : PhysicalEW p GF mW mZ alpha) {S : Src} (hS : NoShift S) :
    ∃ w, ewOf S p = .ok w ∧ w.vT = Real.sqrt (1 / Real.sqrt 2 / GF) := by
  have h2 : (0 : ℝ) < Real.sqrt 2 := Real.sqrt_pos.2 (by norm_num)
  have hx : (0 : ℝ) < 1 / Real.sqrt 2 / GF := div_pos (div_pos one_pos h2) hp.GF_pos
  set v := Real.sqrt (1 / Real.sqrt 2 / GF) with hv
  have v0 : 0 < v := Real.sqrt_pos.2 hx
  have v2 : v ^ 2 = 1 / Real.sqrt 2 / GF := Real.sq_sqrt hx.le
  have hvT : vT S p = .ok v := vT_plain hp hS.ll hS.phil3
  refine ew_ok_v (Dict.get_of_find hp.mW_eq) (Dict.get_of_find hp.mZ_eq) (Dict.get_of_find hp.alpha_eq) hp.mW_pos hp.mZ_pos hp.alpha_pos hvT v0
    ?_ hS.phiWB
  rw [div_pow, v2]
  have : (2 * mW) ^ 2 / (1 / Real.sqrt 2 / GF) = 4 * (Real.sqrt 2 * GF * mW ^ 2) := by
    field_simp; ring
  rw [this]
  nlinarith [hp.angle]

/-- The default parameters. -/
theorem default_physical : PhysicalEW defaultPar 1.1663787e-5 80.385 91.1876 (1 / 127.9) := by
  refine ⟨?_, ?_, ?_, ?_, by norm_num, by norm_num, by norm_num, by norm_num, ?_⟩
  · simp [defaultPar, Dict.find]
  · simp [defaultPar, Dict.find]
  · simp [defaultPar, Dict.find]
  · simp [defaultPar, Dict.find]
  · have h1 := Real.pi_lt_d2
    have h2 : (1.4 : ℝ) < Real.sqrt 2 := by
      rw [Real.lt_sqrt (by norm_num)]; norm_num
    have : (1.4 : ℝ) * 1.1663787e-5 * 80.385 ^ 2 < Real.sqrt 2 * 1.1663787e-5 * 80.385 ^ 2 := by
      have : (0 : ℝ) < 1.1663787e-5 * 80.385 ^ 2 := by norm_num
      nlinarith
    have h3 : Real.pi * (1 / 127.9) < 3.15 * (1 / 127.9) := by
      have : (0 : ℝ) < 1 / 127.9 := by norm_num
      nlinarith
    have h4 : (3.15 : ℝ) * (1 / 127.9) < 1.4 * 1.1663787e-5 * 80.385 ^ 2 := by norm_num
    linarith

end Verif
