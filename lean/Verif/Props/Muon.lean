import Verif.Props.MatchLag

/-! C80: muon decay in the matching from SMEFT to WET. The Fermi constant is an input and is measured in the decay of the muon. -/

set_option autoImplicit false

namespace Verif

open Spec

section

variable {ckm : ℝ → ℝ → ℝ → ℝ → M3} {L : List String} {default : Par} {d D : Dict String ℂ} {scale : ℝ} {par : Option Par}
  {GF mW mZ α : ℝ} {S : JSrc → ℂ}

theorem phil3_op : IsOp "phil3" (.two (b .l) (n .l)) := by decide +kernel

theorem phil1_op : IsOp "phil1" (.two (b .l) (n .l)) := by decide +kernel

/-- Hermiticity of the matrices of a set of coefficients. -/
theorem full_conj (hS : SmeftFull d S) {k : String} (hk : IsOp k (.two (b .l) (n .l))) (p r : Fin 3) :
    starRingEnd ℂ (S (k, [p, r])) = S (k, [r, p]) := by
  have h := hS.rel2 k _ _ .herm hk rfl
  exact (h p r).symm

theorem full_real (hS : SmeftFull d S) {k : String} (hk : IsOp k (.two (b .l) (n .l))) (p : Fin 3) :
    ((S (k, [p, p])).re : ℂ) = S (k, [p, p]) := Complex.conj_eq_iff_re.1 (full_conj hS hk p p)

theorem ll_exch (hS : SmeftFull d S) (p r s t : Fin 3) : S ("ll", [s, t, p, r]) = S ("ll", [p, r, s, t]) :=
  ((hS.rel4 "ll" _ _ _ _ .twoIdentical ll_op rfl) p r s t).2

theorem ll_real (hS : SmeftFull d S) : ((S ("ll", [1, 0, 0, 1])).re : ℂ) = S ("ll", [1, 0, 0, 1]) :=
  Complex.conj_eq_iff_re.1 (by
    have h := hS.rel4 "ll" _ _ _ _ .twoIdentical ll_op rfl
    exact ((h 1 0 0 1).1.symm).trans (h 1 0 0 1).2)

/-- The vacuum expectation value. -/
theorem vev_sq (hS : SmeftFull d S)
    (hx : √2 / 2 * ((S ("phil3", [0, 0])).re + (S ("phil3", [1, 1])).re - (S ("ll", [1, 0, 0, 1])).re) < GF) :
    2 / (couplings GF mW mZ α S).v ^ 2 = 2 * √2 * GF - 2 * ((S ("phil3", [0, 0])).re + (S ("phil3", [1, 1])).re
      - (S ("ll", [1, 0, 0, 1])).re) ∧ 0 < (couplings GF mW mZ α S).v := by
  have h2 : (0 : ℝ) < √2 := Real.sqrt_pos.2 (by norm_num)
  have q2 : √2 * √2 = 2 := Real.mul_self_sqrt (by norm_num)
  set y := (S ("phil3", [0, 0])).re + (S ("phil3", [1, 1])).re - (S ("ll", [1, 0, 0, 1])).re with hy
  have e : ‖(GF : ℂ) - ((√2 / 4 : ℝ) : ℂ) *
      (-S ("ll", [1, 0, 0, 1]) - S ("ll", [0, 1, 1, 0]) + 2 * S ("phil3", [1, 1]) + 2 * S ("phil3", [0, 0]))‖ = GF - √2 / 2 * y := by
    have : (GF : ℂ) - ((√2 / 4 : ℝ) : ℂ) *
        (-S ("ll", [1, 0, 0, 1]) - S ("ll", [0, 1, 1, 0]) + 2 * S ("phil3", [1, 1]) + 2 * S ("phil3", [0, 0])) =
        ((GF - √2 / 2 * y : ℝ) : ℂ) := by
      have h1 := ll_real hS
      have h3 := full_real hS phil3_op 0
      have h4 := full_real hS phil3_op 1
      rw [ll_exch hS 1 0 0 1]
      push_cast [hy]
      rw [h1, h3, h4]; ring
    rw [this, Complex.norm_real, Real.norm_of_nonneg (by linarith)]
  have hp : 0 < GF - √2 / 2 * y := by linarith
  have hq : 0 < 1 / √2 / (GF - √2 / 2 * y) := by positivity
  have hv : (couplings GF mW mZ α S).v = √(1 / √2 / (GF - √2 / 2 * y)) := by
    unfold couplings; dsimp only; rw [e]
  rw [hv, Real.sq_sqrt hq.le]
  refine ⟨?_, Real.sqrt_pos.2 hq⟩
  field_simp
  linear_combination (-y) * q2

theorem zero_full : SmeftFull [] (fun _ => 0) := ⟨fun k op i _ _ => rfl, fun k _ => rfl,
  fun k x y c _ _ => by cases c <;> simp [Rel2], fun k x y z w c _ _ => by cases c <;> simp [Rel4]⟩

theorem muon_coeff (hw : Dict.WF d) (hd : ∀ key ∈ Dict.keys d, IsFlat key) (hS : SmeftFull d S)
    (h : warsawUpToJms ckm L default d scale par = .ok D)
    (hG : Dict.find (withPar default par) "GF" = some GF) (hW : Dict.find (withPar default par) "m_W" = some mW)
    (hZ : Dict.find (withPar default par) "m_Z" = some mZ) (hA : Dict.find (withPar default par) "alpha_e" = some α)
    (hmW : 0 < mW) (hGF : 0 < GF)
    (hx : √2 / 2 * ((S ("phil3", [0, 0])).re + (S ("phil3", [1, 1])).re - (S ("ll", [1, 0, 0, 1])).re) < GF) {i j : Fin 3}
    (hij : i = 1 ∧ j = 0 ∨ i = 0 ∧ j = 1) (hl : label "VnueLL" [i, j, j, i] ∈ L) :
    Dict.getD D (label "VnueLL" [i, j, j, i]) 0 =
      -(2 * ((couplings GF mW mZ α S).v ^ 2 : ℝ) : ℂ) * (S ("phil3", [0, 0]) * S ("phil3", [1, 1]))
      + (((couplings GF mW mZ α S).gZ ^ 2 / mZ ^ 2 * ((couplings GF mW mZ α S).v ^ 2 / 2) ^ 2 : ℝ) : ℂ) *
        ((S ("phil3", [i, j]) - S ("phil1", [i, j])) * (S ("phil3", [j, i]) + S ("phil1", [j, i]))) := by
  obtain ⟨w, w0, V', e1, e2, e3, rfl⟩ := matchAll_inv hw hd h
  have hv := vev_sq (mW := mW) (mZ := mZ) (α := α) hS hx
  have hv0 := vev_sq (GF := GF) (mW := mW) (mZ := mZ) (α := α) zero_full (by simpa using hGF)
  have k1 := coup_src hS hG hW hZ hA e1
  have k0 : coup w0 = couplings GF mW mZ α fun _ => 0 := coup_eq (T := fun _ => 0) hG hW hZ hA rfl rfl rfl rfl rfl e2
  rw [← k1] at hv ⊢
  rw [← k0] at hv0
  have kw : ∀ {u : EW} {T : JSrc → ℂ}, coup u = couplings GF mW mZ α T → 0 < u.vT → u.kw 2 = ((2 / u.vT ^ 2 : ℝ) : ℂ) := by
    intro u T hu h
    have g : u.g2b = 2 * mW / u.vT := by
      have a := congrArg Couplings.g2 hu
      have b := congrArg Couplings.v hu
      change u.g2b = _ at a
      change u.vT = _ at b
      rw [a, b]; rfl
    have m : u.mW = mW := congrArg Couplings.mW hu
    unfold EW.kw
    rw [g, m]
    congr 1
    field_simp
  have kz : w.kz 1 = ((w.gzb ^ 2 / mZ ^ 2 : ℝ) : ℂ) := by
    have m : w.mZ = mZ := congrArg Couplings.mZ k1
    unfold EW.kz
    rw [m, one_mul]
  rw [getD_matched (f := fun C w => .ten (C.tn "ll" + estpr (C.tn "ll") - w.kw 2 • ept_rs (wl C w) (cj (wl C w))
      - w.kz 1 • epr_st (znu C w) (zel C w))) (by simp [matchRules, rulesLL]) hl rfl
    (List.mem_map.2 ⟨(i, j, j, i), mem_ix4s _, rfl⟩)]
  have t : (flatSrc d).tn "ll" = tens S "ll" := full_tn hS ll_op
  have m3 := full_mt hS phil3_op
  have m1 := full_mt hS phil1_op
  have rr : ∀ X, rotateRule V' "VnueLL" X = X := fun X => by
    unfold rotateRule
    simp
  simp only [Arr.sub, rotEntry, Arr.ent, rr, Pi.sub_apply, Pi.add_apply, Pi.smul_apply, smul_eq_mul, t, m1, m3, kw k1 hv.2, kw k0 hv0.2, kz,
    tens, estpr, ept_rs, epr_st, cj, wl, znu, zel, eyeT_eq, Src.zero, EW.v2]
  have r2 := ll_exch hS 1 0 0 1
  have v1 : ((2 / w.vT ^ 2 : ℝ) : ℂ) = _ := congrArg _ hv.1
  have v0 : ((2 / w0.vT ^ 2 : ℝ) : ℂ) = _ := congrArg _ hv0.1
  have q1 := ll_real hS
  have q2 := full_real hS phil3_op 0
  have q3 := full_real hS phil3_op 1
  have vne : (w.vT : ℂ) ≠ 0 := by exact_mod_cast hv.2.ne'
  have c1 : ((2 / w.vT ^ 2 : ℝ) : ℂ) * ((w.vT ^ 2 : ℝ) : ℂ) = 2 := by
    push_cast; field_simp
  push_cast at v1 v0 c1
  rw [q1, q2, q3] at v1
  simp only [Complex.zero_re, Complex.ofReal_zero] at v0
  change _ = -(2 * ((w.vT ^ 2 : ℝ) : ℂ)) * _ + ((w.gzb ^ 2 / mZ ^ 2 * (w.vT ^ 2 / 2) ^ 2 : ℝ) : ℂ) * _
  push_cast
  simp only [map_add, map_mul, map_pow, Complex.conj_ofReal, map_one, map_zero, full_conj hS phil3_op, Pi.zero_apply, mul_one]
  rcases hij with ⟨rfl, rfl⟩ | ⟨rfl, rfl⟩ <;> norm_num [r2] <;>
    linear_combination v0 - v1 - c1 * (S ("phil3", [0, 0]) + S ("phil3", [1, 1])
      + w.vT ^ 2 * (S ("phil3", [0, 0]) * S ("phil3", [1, 1])))

/-- **C80**: what is left in the coefficient of the decay of the muon into the muon neutrino, the electron and its antineutrino after the Fermi
constant has absorbed the rest: products of two coefficients of the SMEFT. -/
theorem C80_muon_decay (hw : Dict.WF d) (hd : ∀ key ∈ Dict.keys d, IsFlat key) (hS : SmeftFull d S)
    (h : warsawUpToJms ckm L default d scale par = .ok D)
    (hG : Dict.find (withPar default par) "GF" = some GF) (hW : Dict.find (withPar default par) "m_W" = some mW)
    (hZ : Dict.find (withPar default par) "m_Z" = some mZ) (hA : Dict.find (withPar default par) "alpha_e" = some α)
    (hmW : 0 < mW) (hGF : 0 < GF)
    (hx : √2 / 2 * ((S ("phil3", [0, 0])).re + (S ("phil3", [1, 1])).re - (S ("ll", [1, 0, 0, 1])).re) < GF) :
    ("VnueLL_2112" ∈ L → Dict.getD D "VnueLL_2112" 0 =
      -(2 * ((couplings GF mW mZ α S).v ^ 2 : ℝ) : ℂ) * (S ("phil3", [0, 0]) * S ("phil3", [1, 1]))
      + (((couplings GF mW mZ α S).gZ ^ 2 / mZ ^ 2 * ((couplings GF mW mZ α S).v ^ 2 / 2) ^ 2 : ℝ) : ℂ) *
        ((S ("phil3", [1, 0]) - S ("phil1", [1, 0])) * (S ("phil3", [0, 1]) + S ("phil1", [0, 1])))) ∧
    ("VnueLL_1221" ∈ L → Dict.getD D "VnueLL_1221" 0 =
      -(2 * ((couplings GF mW mZ α S).v ^ 2 : ℝ) : ℂ) * (S ("phil3", [0, 0]) * S ("phil3", [1, 1]))
      + (((couplings GF mW mZ α S).gZ ^ 2 / mZ ^ 2 * ((couplings GF mW mZ α S).v ^ 2 / 2) ^ 2 : ℝ) : ℂ) *
        ((S ("phil3", [0, 1]) - S ("phil1", [0, 1])) * (S ("phil3", [1, 0]) + S ("phil1", [1, 0])))) := by
  have e1 : "VnueLL_2112" = label "VnueLL" [1, 0, 0, 1] := by decide +kernel
  have e2 : "VnueLL_1221" = label "VnueLL" [0, 1, 1, 0] := by decide +kernel
  rw [e1, e2]
  exact ⟨muon_coeff hw hd hS h hG hW hZ hA hmW hGF hx (.inl ⟨rfl, rfl⟩), muon_coeff hw hd hS h hG hW hZ hA hmW hGF hx (.inr ⟨rfl, rfl⟩)⟩

/-- **C80**: without these products the decay of the muon is that of the Standard Model. In particular this is so for every
single coefficient with `phil1` and `phil3` diagonal in flavour. -/
theorem C80_unchanged (hw : Dict.WF d) (hd : ∀ key ∈ Dict.keys d, IsFlat key) (hS : SmeftFull d S)
    (h : warsawUpToJms ckm L default d scale par = .ok D)
    (hG : Dict.find (withPar default par) "GF" = some GF) (hW : Dict.find (withPar default par) "m_W" = some mW)
    (hZ : Dict.find (withPar default par) "m_Z" = some mZ) (hA : Dict.find (withPar default par) "alpha_e" = some α)
    (hmW : 0 < mW) (hGF : 0 < GF)
    (hx : √2 / 2 * ((S ("phil3", [0, 0])).re + (S ("phil3", [1, 1])).re - (S ("ll", [1, 0, 0, 1])).re) < GF)
    (h3 : S ("phil3", [0, 0]) = 0 ∨ S ("phil3", [1, 1]) = 0) (hf : S ("phil1", [0, 1]) = 0 ∧ S ("phil3", [0, 1]) = 0) :
    Dict.getD D "VnueLL_2112" 0 = 0 ∧ Dict.getD D "VnueLL_1221" 0 = 0 := by
  have hp : S ("phil3", [0, 0]) * S ("phil3", [1, 1]) = 0 := by rcases h3 with h | h <;> simp [h]
  have out : ∀ key, key ∉ L → Dict.getD D key 0 = 0 := by
    intro key hk
    obtain ⟨w, w0, V', -, -, -, rfl⟩ := matchAll_inv hw hd h
    unfold Dict.getD
    rw [find_restricted, if_neg hk]; rfl
  obtain ⟨g1, g2⟩ := C80_muon_decay hw hd hS h hG hW hZ hA hmW hGF hx
  constructor
  · by_cases hl : "VnueLL_2112" ∈ L
    · rw [g1 hl, hp, hf.1, hf.2]; simp
    · exact out _ hl
  · by_cases hl : "VnueLL_1221" ∈ L
    · rw [g2 hl, hp, hf.1, hf.2]; simp
    · exact out _ hl

end

/-! ### A coefficient that shifts the Fermi constant -/

/-- Tensor of the coefficient with flavours 1, 2, 2, 1. -/
noncomputable def muT : Ix4 → ℂ := fun i => if i = (0, 1, 1, 0) ∨ i = (1, 0, 0, 1) then 1 else 0

/-- The input. -/
noncomputable def exGF : Dict String ℂ := [("ll_1221", 1)]

theorem exGF_wf : Dict.WF exGF := by simp [Dict.WF, Dict.keys, exGF]

theorem exGF_flat : ∀ key ∈ Dict.keys exGF, IsFlat key := by
  intro key hk
  obtain rfl : key = "ll_1221" := by simpa [Dict.keys, exGF] using hk
  exact ⟨"ll", _, [0, 1, 1, 0], ll_op, rfl, by decide +kernel⟩

theorem exGF_full : SmeftFull exGF (oneS "ll" muT) := by
  refine one_full (by decide) ll_op ?_ fun k i hk hi => ?_
  · have : ∀ p r s t : Fin 3, (((r, p, t, s) : Ix4) = (0, 1, 1, 0) ∨ ((r, p, t, s) : Ix4) = (1, 0, 0, 1) ↔
        ((p, r, s, t) : Ix4) = (0, 1, 1, 0) ∨ ((p, r, s, t) : Ix4) = (1, 0, 0, 1)) ∧ (((s, t, p, r) : Ix4) = (0, 1, 1, 0) ∨
        ((s, t, p, r) : Ix4) = (1, 0, 0, 1) ↔ ((p, r, s, t) : Ix4) = (0, 1, 1, 0) ∨ ((p, r, s, t) : Ix4) = (1, 0, 0, 1)) := by decide
    intro p r s t
    obtain ⟨h1, h2⟩ := this p r s t
    unfold muT
    simp only [h1, h2]
    constructor
    · split_ifs <;> simp
    · trivial
  · have hl : "ll_1221" = label "ll" [0, 1, 1, 0] := by decide +kernel
    unfold Dict.getD exGF
    rw [hl, Dict.find_cons]
    by_cases h : k = "ll" ∧ i = [0, 1, 1, 0]
    · rw [h.1, h.2]; simp [oneS, muT]
    · have hne : ¬ label "ll" [0, 1, 1, 0] = label k i := fun e => h <| by
        have := label_inj (isOp_plain ll_op) hk e
        exact ⟨this.1.symm, this.2.symm⟩
      rw [if_neg hne]
      unfold oneS
      by_cases hkk : k = "ll"
      · simp only [hkk, true_and, if_true] at h ⊢
        match i with
        | [p, r, s, t] =>
          have hI := hi p r s t rfl hkk
          have : ∀ p r s t : Fin 3, Indep4 .twoIdentical (p, r, s, t) → (p, r, s, t) ≠ ((1, 0, 0, 1) : Ix4) := by decide
          have h' : (p, r, s, t) ≠ ((0, 1, 1, 0) : Ix4) := fun e => h (by
            simp only [Prod.mk.injEq] at e
            obtain ⟨rfl, rfl, rfl, rfl⟩ := e
            rfl)
          simp [muT, this p r s t hI, h', Dict.find]
        | [] => rfl
        | [_] => rfl
        | [_, _] => rfl
        | [_, _, _] => rfl
        | _ :: _ :: _ :: _ :: _ :: _ => rfl
      · simp [hkk, Dict.find]

/-- `ll_1221` shifts the Fermi constant and leaves the decay of the muon as it is. -/
theorem exGF_case : ∃ D, warsawUpToJms (fun _ _ _ _ => 1) ["VnueLL_2112", "VnueLL_1221"] defaultPar exGF 91 none = .ok D ∧
    Dict.getD D "VnueLL_2112" 0 = 0 ∧ Dict.getD D "VnueLL_1221" 0 = 0 := by
  have hp := default_physical
  have z : ∀ k i, k ≠ "ll" → oneS "ll" muT (k, i) = 0 := fun k i h => by simp [oneS, h]
  have z1 : oneS "ll" muT ("ll", [1, 0, 0, 1]) = 1 := by simp [oneS, muT]
  have q2 : (0 : ℝ) < √2 := Real.sqrt_pos.2 (by norm_num)
  have hx : √2 / 2 * ((oneS "ll" muT ("phil3", [0, 0])).re + (oneS "ll" muT ("phil3", [1, 1])).re - (oneS "ll" muT ("ll", [1, 0, 0, 1])).re)
      < 1.1663787e-5 := by
    rw [z _ _ (by decide), z _ _ (by decide), z1]
    simp only [Complex.zero_re, Complex.one_re]
    nlinarith
  have hv := vev_sq (mW := 80.385) (mZ := 91.1876) (α := 1 / 127.9) exGF_full hx
  have hphi : (flatSrc exGF).phiWB = 0 := by rw [full_phiWB exGF_full]; simp [oneS]
  have hvT : vT (flatSrc exGF) defaultPar = .ok (couplings 1.1663787e-5 80.385 91.1876 (1 / 127.9) (oneS "ll" muT)).v := by
    have n0 : ‖((1.1663787e-5 : ℝ) : ℂ) - ((√2 / 4 : ℝ) : ℂ) * (-oneS "ll" muT ("ll", [1, 0, 0, 1]) - oneS "ll" muT ("ll", [0, 1, 1, 0])
        + 2 * oneS "ll" muT ("phil3", [1, 1]) + 2 * oneS "ll" muT ("phil3", [0, 0]))‖ ≠ 0 := by
      intro h
      have := hv.2
      have e : (couplings 1.1663787e-5 80.385 91.1876 (1 / 127.9) (oneS "ll" muT)).v = √(1 / √2 / 0) := by rw [← h]; rfl
      rw [e] at this
      simp at this
    unfold vT
    rw [Dict.get_of_find hp.GF_eq, full_tn exGF_full ll_op, full_mt exGF_full phil3_op]
    simp only [bind, Except.bind]
    rw [show tens (oneS "ll" muT) "ll" (1, 0, 0, 1) = oneS "ll" muT ("ll", [1, 0, 0, 1]) from rfl,
      show tens (oneS "ll" muT) "ll" (0, 1, 1, 0) = oneS "ll" muT ("ll", [0, 1, 1, 0]) from rfl, divE, if_neg n0]
    simp only [sqrtE]
    rw [if_neg (by
      rw [not_lt]
      positivity)]
    rfl
  have hg : 4 * Real.pi * (1 / 127.9) < (2 * 80.385 / (couplings 1.1663787e-5 80.385 91.1876 (1 / 127.9) (oneS "ll" muT)).v) ^ 2 := by
    have h1 := hv.1
    rw [z _ _ (by decide), z _ _ (by decide), z1] at h1
    simp only [Complex.zero_re, Complex.one_re] at h1
    generalize (couplings 1.1663787e-5 80.385 91.1876 (1 / 127.9) (oneS "ll" muT)).v = v at h1 ⊢
    rw [div_pow, show (2 * 80.385 : ℝ) ^ 2 / v ^ 2 = 2 * 80.385 ^ 2 * (2 / v ^ 2) by ring, h1]
    have := hp.angle
    nlinarith
  obtain ⟨w, e1, -⟩ := ew_ok_v (Dict.get_of_find hp.mW_eq) (Dict.get_of_find hp.mZ_eq) (Dict.get_of_find hp.alpha_eq) hp.mW_pos hp.mZ_pos
    hp.alpha_pos hvT hv.2 hg hphi
  obtain ⟨w0, e2, -⟩ := ew_ok hp (noShift_zero (flatSrc exGF))
  have hV : ckmOf (fun _ _ _ _ => (1 : M3)) defaultPar = .ok 1 := rfl
  have h := matchAll_intro ["VnueLL_2112", "VnueLL_1221"] exGF_wf exGF_flat (par := none) e1 e2 hV
  exact ⟨_, h, C80_unchanged (scale := 91) exGF_wf exGF_flat exGF_full h hp.GF_eq hp.mW_eq hp.mZ_eq hp.alpha_eq hp.mW_pos hp.GF_pos hx
    (.inl (z _ _ (by decide))) ⟨z _ _ (by decide), z _ _ (by decide)⟩⟩

/-! ### The products are there -/

/-- A coefficient that changes lepton flavour. -/
noncomputable def exMu : Dict String ℂ := [("phil1_12", 1)]

/-- Its matrix. -/
noncomputable def exMuS : JSrc → ℂ := fun x => if x.1 = "phil1" ∧ (x.2 = [0, 1] ∨ x.2 = [1, 0]) then 1 else 0

theorem exMu_wf : Dict.WF exMu := by simp [Dict.WF, Dict.keys, exMu]

theorem exMu_flat : ∀ key ∈ Dict.keys exMu, IsFlat key := by
  intro key hk
  obtain rfl : key = "phil1_12" := by simpa [Dict.keys, exMu] using hk
  exact ⟨"phil1", _, [0, 1], phil1_op, rfl, by decide +kernel⟩

theorem exMu_full : SmeftFull exMu exMuS := by
  refine ⟨fun k op i ho hi => ?_, fun k ho => ?_, fun k x y c ho hc2 => ?_, fun k x y z w c ho hc4 => ?_⟩
  · have hl : "phil1_12" = label "phil1" [0, 1] := by decide +kernel
    unfold exMu Dict.getD exMuS
    rw [hl, Dict.find_cons]
    by_cases h : k = "phil1" ∧ i = [0, 1]
    · simp [h.1, h.2]
    · have hne : ¬ label "phil1" [0, 1] = label k i := fun e => h <| by
        have := label_inj (isOp_plain phil1_op) (isOp_plain ho) e
        exact ⟨this.1.symm, this.2.symm⟩
      have : ¬ (k = "phil1" ∧ (i = [0, 1] ∨ i = [1, 0])) := by
        rintro ⟨rfl, e | rfl⟩
        · exact h ⟨rfl, e⟩
        · rw [isOp_unique ho phil1_op] at hi
          have := hi _ rfl
          revert this
          decide
      simp [this, hne, Dict.find]
  · simp [exMuS]
  · by_cases hk : k = "phil1"
    · subst hk
      have e := isOp_unique ho phil1_op
      injection e with e1 e2
      subst e1 e2
      obtain rfl : c = .herm := Option.some.inj (hc2.symm.trans rfl)
      intro p r
      have : ∀ p r : Fin 3, ([r, p] = [0, 1] ∨ [r, p] = [1, 0]) ↔ ([p, r] = [0, 1] ∨ [p, r] = [1, 0]) := by decide
      simp only [exMuS, true_and, this p r]
      split_ifs <;> simp
    · have : (fun i : Fin 3 × Fin 3 => exMuS (k, [i.1, i.2])) = fun _ => 0 := by
        funext i; simp [exMuS, hk]
      rw [this]
      cases c <;> simp [Rel2]
  · have : (fun i : Fin 3 × Fin 3 × Fin 3 × Fin 3 => exMuS (k, [i.1, i.2.1, i.2.2.1, i.2.2.2])) = fun _ => 0 := by
      funext i; simp [exMuS]
    rw [this]
    cases c <;> simp [Rel4]

/-- The coupling to the Z does not vanish. -/
theorem gZ_ne {GF mW mZ α : ℝ} {S : JSrc → ℂ} (hm : 0 < mW) (hα : 0 < α) (hv : 0 < (couplings GF mW mZ α S).v)
    (ha : 4 * Real.pi * α < (couplings GF mW mZ α S).g2 ^ 2) (hε : (S ("phiWB", [])).re = 0) : (couplings GF mW mZ α S).gZ ≠ 0 := by
  have hg : (couplings GF mW mZ α S).g2 = 2 * mW / (couplings GF mW mZ α S).v := rfl
  have g0 : 0 < (couplings GF mW mZ α S).g2 := by rw [hg]; positivity
  unfold couplings at hv ha g0 ⊢
  dsimp only at hv ha g0 ⊢
  rw [hε]
  generalize √(1 / √2 / _) = v at hv ha g0 ⊢
  generalize 2 * mW / v = g at ha g0 ⊢
  have hpi := Real.pi_pos
  have he : 0 < √(4 * Real.pi * α) := Real.sqrt_pos.2 (by positivity)
  have hd : 0 < g ^ 2 - √(4 * Real.pi * α) ^ 2 := by rw [Real.sq_sqrt (by positivity)]; linarith
  generalize √(4 * Real.pi * α) = e at he hd ⊢
  have hr : 0 < √(g ^ 2 - e ^ 2) := Real.sqrt_pos.2 hd
  simp only [zero_mul, mul_zero, add_zero, zero_div, sub_zero, mul_one]
  have h1 : 0 < e * g / √(g ^ 2 - e ^ 2) := by positivity
  generalize e * g / √(g ^ 2 - e ^ 2) = k at h1 ⊢
  positivity

/-- The products of **C80** do not vanish: `phil1_12` changes the decay of the muon. -/
theorem C80_products : ∃ D, warsawUpToJms (fun _ _ _ _ => 1) ["VnueLL_2112"] defaultPar exMu 91 none = .ok D ∧
    Dict.getD D "VnueLL_2112" 0 ≠ 0 := by
  have hp := default_physical
  have e0 : ∀ k i, k ≠ "phil1" → exMuS (k, i) = 0 := fun k i h => by simp [exMuS, h]
  have hns : NoShift (flatSrc exMu) := by
    refine ⟨?_, ?_, ?_⟩
    · rw [full_tn exMu_full ll_op]; exact ⟨e0 _ _ (by decide), e0 _ _ (by decide)⟩
    · rw [full_mt exMu_full phil3_op]; exact ⟨e0 _ _ (by decide), e0 _ _ (by decide)⟩
    · rw [full_phiWB exMu_full]; simp [exMuS]
  obtain ⟨w, e1, -⟩ := ew_ok hp hns
  obtain ⟨w0, e2, -⟩ := ew_ok hp (noShift_zero (flatSrc exMu))
  have hV : ckmOf (fun _ _ _ _ => (1 : M3)) defaultPar = .ok 1 := rfl
  have h := matchAll_intro ["VnueLL_2112"] exMu_wf exMu_flat (par := none) e1 e2 hV
  refine ⟨_, h, ?_⟩
  have hx : √2 / 2 * ((exMuS ("phil3", [0, 0])).re + (exMuS ("phil3", [1, 1])).re - (exMuS ("ll", [1, 0, 0, 1])).re) < 1.1663787e-5 := by
    rw [e0 _ _ (by decide), e0 _ _ (by decide), e0 _ _ (by decide)]; norm_num
  rw [(C80_muon_decay (scale := 91) exMu_wf exMu_flat exMu_full h hp.GF_eq hp.mW_eq hp.mZ_eq hp.alpha_eq hp.mW_pos hp.GF_pos hx).1 (by simp)]
  have hv := vev_sq (mW := 80.385) (mZ := 91.1876) (α := 1 / 127.9) exMu_full hx
  have hs : (exMuS ("phiWB", [])).re = 0 := by rw [e0 _ _ (by decide)]; rfl
  have hg : (couplings 1.1663787e-5 80.385 91.1876 (1 / 127.9) exMuS).g2 ^ 2 = 4 * (√2 * 1.1663787e-5 * 80.385 ^ 2) := by
    have : (couplings 1.1663787e-5 80.385 91.1876 (1 / 127.9) exMuS).g2 = 2 * 80.385 / (couplings 1.1663787e-5 80.385 91.1876 (1 / 127.9) exMuS).v := rfl
    have h1 := hv.1
    have h2 := hv.2
    rw [e0 _ _ (by decide), e0 _ _ (by decide), e0 _ _ (by decide)] at h1
    rw [this]
    generalize (couplings 1.1663787e-5 80.385 91.1876 (1 / 127.9) exMuS).v = v at h1 h2 ⊢
    rw [div_pow, show (2 * 80.385 : ℝ) ^ 2 / v ^ 2 = 2 * 80.385 ^ 2 * (2 / v ^ 2) by ring, h1]
    simp only [Complex.zero_re]
    ring
  have hz := gZ_ne (mZ := 91.1876) hp.mW_pos hp.alpha_pos hv.2 (by rw [hg]; linarith [hp.angle]) hs
  have e1 : exMuS ("phil1", [1, 0]) = 1 := by simp [exMuS]
  have e2 : exMuS ("phil1", [0, 1]) = 1 := by simp [exMuS]
  rw [e1, e2]
  simp only [fun i => e0 "phil3" i (by decide)]
  have hv2 := hv.2.ne'
  generalize (couplings 1.1663787e-5 80.385 91.1876 (1 / 127.9) exMuS).v = v at hv2 ⊢
  generalize (couplings 1.1663787e-5 80.385 91.1876 (1 / 127.9) exMuS).gZ = g at hz ⊢
  norm_num
  exact ⟨hz, hv2⟩

end Verif
