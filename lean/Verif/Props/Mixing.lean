import Verif.Lemmas.Mixing
import Verif.Props.Muon

/-! C81: the mixing of photon and Z boson in the matching from SMEFT to WET, to first order in `phiWB`. -/

set_option autoImplicit false

namespace Verif

open Spec Filter Topology

/-! ### Exchange of the Z boson in terms of products of couplings -/

section

variable (S : JSrc → ℂ) (v mZ : ℝ)

/-- The part of the coupling proportional to the coupling of the Higgs boson. -/
noncomputable def zHiggs (x : Chir × Kind) (i : Fin 3 × Fin 3) : ℂ :=
  ((isospin x : ℝ) : ℂ) * (if i.1 = i.2 then 1 else 0)
    + (((isospin x * v ^ 2 : ℝ) : ℂ) * shift S (zNames x).2 i - ((v ^ 2 / 2 : ℝ) : ℂ) * shift S (zNames x).1 i)

/-- The part proportional to the electric charge. -/
noncomputable def zEm (x : Chir × Kind) (i : Fin 3 × Fin 3) : ℂ := ((charge x.2 : ℝ) : ℂ) * (if i.1 = i.2 then 1 else 0)

/-- One product of currents. -/
noncomputable def zPair (u : ℝ × ℝ × ℝ) (x y : Chir × Kind) (i : Ix4) : ℂ :=
  (u.1 : ℂ) * (zHiggs S v x (i.1, i.2.1) * zHiggs S v y (i.2.2.1, i.2.2.2))
    + ((u.2.1 : ℂ) * -(zEm x (i.1, i.2.1) * zHiggs S v y (i.2.2.1, i.2.2.2) + zHiggs S v x (i.1, i.2.1) * zEm y (i.2.2.1, i.2.2.2))
    + (u.2.2 : ℂ) * (zEm x (i.1, i.2.1) * zEm y (i.2.2.1, i.2.2.2)))

/-- Exchange of the Z. -/
noncomputable def zForm (u : ℝ × ℝ × ℝ) : Four := fun p q r s =>
  -((1 / (2 * mZ ^ 2) : ℝ) : ℂ) * (chirals.map fun x => (chirals.map fun y =>
    mono x.2 x.2 y.2 y.2 (.g 1 x.1 y.1) .one (zPair S v u x y) p q r s).sum).sum

theorem zPair_split (u : ℝ × ℝ × ℝ) (x y : Chir × Kind) : zPair S v u x y =
    (u.1 : ℂ) • zPair S v (1, 0, 0) x y + ((u.2.1 : ℂ) • zPair S v (0, 1, 0) x y + (u.2.2 : ℂ) • zPair S v (0, 0, 1) x y) := by
  funext i
  simp [zPair]
  ring

theorem zForm_split (u : ℝ × ℝ × ℝ) (p q r s : Leg) : zForm S v mZ u p q r s =
    (u.1 : ℂ) * zForm S v mZ (1, 0, 0) p q r s + ((u.2.1 : ℂ) * zForm S v mZ (0, 1, 0) p q r s
      + (u.2.2 : ℂ) * zForm S v mZ (0, 0, 1) p q r s) := by
  unfold zForm
  simp only [fun x y => zPair_split S v u x y, mono_add, mono_smul, List.sum_map_add, List.sum_map_mul_left]
  ring

theorem zLag_form (c : Couplings) (hv : c.v = v) (hm : c.mZ = mZ) :
    zLag S c = zForm S v mZ (c.gZ ^ 2, c.gZ ^ 2 * c.sW ^ 2, c.gZ ^ 2 * (c.sW ^ 2) ^ 2) := by
  subst hv hm
  funext p q r s
  have h : ∀ x y, zPair S c.v (c.gZ ^ 2, c.gZ ^ 2 * c.sW ^ 2, c.gZ ^ 2 * (c.sW ^ 2) ^ 2) x y =
      ((c.gZ ^ 2 : ℝ) : ℂ) • fun i : Ix4 => zCoup S c x (i.1, i.2.1) * zCoup S c y (i.2.2.1, i.2.2.2) := by
    intro x y
    funext i
    simp only [zPair, zHiggs, zEm, zCoup, Pi.smul_apply, smul_eq_mul]
    push_cast
    ring
  unfold zLag zForm
  simp only [h, mono_smul, List.sum_map_mul_left]
  push_cast
  ring

theorem zDirectLag_form (g2 g1 : ℝ) (Z : ℝ × ℝ) : zDirectLag S v mZ g2 g1 Z =
    zForm S v mZ ((g2 * Z.1 - g1 * Z.2) ^ 2, -((g2 * Z.1 - g1 * Z.2) * (g1 * Z.2)), (g1 * Z.2) ^ 2) := by
  have h : ∀ x y, zPair S v ((g2 * Z.1 - g1 * Z.2) ^ 2, -((g2 * Z.1 - g1 * Z.2) * (g1 * Z.2)), (g1 * Z.2) ^ 2) x y =
      fun i : Ix4 => zDirect S v g2 g1 Z x (i.1, i.2.1) * zDirect S v g2 g1 Z y (i.2.2.1, i.2.2.2) := by
    intro x y
    funext i
    simp only [zPair, zHiggs, zEm, zDirect]
    push_cast
    ring
  unfold zDirectLag zForm
  simp only [h]

end

theorem rotL_smul (V : M3) (c : ℂ) (T : Four) : Four.rotL V (fun p q r s => c * T p q r s) = fun p q r s => c * T.rotL V p q r s := by
  funext p q r s
  unfold Four.rotL
  simp only [Finset.mul_sum]
  refine Finset.sum_congr rfl fun a _ => Finset.sum_congr rfl fun b _ => Finset.sum_congr rfl fun c _ => Finset.sum_congr rfl fun d _ => ?_
  ring

/-! ### The couplings as functions of `phiWB` -/

section

variable (GF mW mZ α : ℝ) (S : JSrc → ℂ)

theorem withWB_v (x : ℝ) : (couplings GF mW mZ α (withWB S x)).v = (couplings GF mW mZ α S).v := by
  simp [couplings, withWB]

theorem withWB_g2 (x : ℝ) : (couplings GF mW mZ α (withWB S x)).g2 = (couplings GF mW mZ α S).g2 := by
  simp [couplings, withWB]

theorem withWB_wLag (x : ℝ) : wLag (withWB S x) (couplings GF mW mZ α (withWB S x)) = wLag (withWB S x) (couplings GF mW mZ α S) := by
  have hv := withWB_v GF mW mZ α S x
  have hg := withWB_g2 GF mW mZ α S x
  have hm : (couplings GF mW mZ α (withWB S x)).mW = (couplings GF mW mZ α S).mW := rfl
  have hw : wCoup (withWB S x) (couplings GF mW mZ α (withWB S x)) = wCoup (withWB S x) (couplings GF mW mZ α S) := by
    funext y i
    match y with
    | (.L, .nu, _) => simp only [wCoup, hv]
    | (.L, .e, _) => simp only [wCoup, hv]
    | (.L, .u, _) => simp only [wCoup, hv]
    | (.L, .d, _) => simp only [wCoup, hv]
    | (.R, _, _) => simp only [wCoup, hv]
  unfold wLag
  rw [hg, hm, hw]

theorem withWB_shift (x : ℝ) (k : Option String) (i : Fin 3 × Fin 3) : shift (withWB S x) k i = shift S k i := by
  cases k <;> simp [shift, withWB]

theorem withWB_zForm (x v : ℝ) (u : ℝ × ℝ × ℝ) : zForm (withWB S x) v mZ u = zForm S v mZ u := by
  have h : zPair (withWB S x) v u = zPair S v u := by
    funext y z i
    simp only [zPair, zHiggs, withWB_shift]
  unfold zForm
  rw [h]

/-- Products of the couplings of the matching. -/
theorem matching_jet {v g e : ℝ} (hv : (couplings GF mW mZ α S).v = v) (hg : (couplings GF mW mZ α S).g2 = g) (he : √(4 * Real.pi * α) = e)
    (e0 : 0 < e) (eg : e < g) : ∃ P1 P2 P3 : ℝ → ℝ, (∀ x, (couplings GF mW mZ α (withWB S x)).gZ ^ 2 = P1 (x * v ^ 2)) ∧
      (∀ x, (couplings GF mW mZ α (withWB S x)).gZ ^ 2 * (couplings GF mW mZ α (withWB S x)).sW ^ 2 = P2 (x * v ^ 2)) ∧
      (∀ x, (couplings GF mW mZ α (withWB S x)).gZ ^ 2 * ((couplings GF mW mZ α (withWB S x)).sW ^ 2) ^ 2 = P3 (x * v ^ 2)) ∧
      Jet P1 (g ^ 4 / √(g ^ 2 - e ^ 2) ^ 2) (2 * e * g ^ 4 / √(g ^ 2 - e ^ 2) ^ 3) ∧
      Jet P2 (e ^ 2 * g ^ 2 / √(g ^ 2 - e ^ 2) ^ 2) (e * g ^ 2 * (g ^ 2 + e ^ 2) / √(g ^ 2 - e ^ 2) ^ 3) ∧
      Jet P3 (e ^ 4 / √(g ^ 2 - e ^ 2) ^ 2) (2 * e ^ 3 * g ^ 2 / √(g ^ 2 - e ^ 2) ^ 3) := by
  have hd : 0 < g ^ 2 - e ^ 2 := by nlinarith
  have hr : 0 < √(g ^ 2 - e ^ 2) := Real.sqrt_pos.2 hd
  have h2 : g ^ 2 = e ^ 2 + √(g ^ 2 - e ^ 2) ^ 2 := by rw [Real.sq_sqrt hd.le]; ring
  obtain ⟨j1, j2, j3⟩ := code_jet e0 hr (e0.trans eg) h2 rfl rfl rfl rfl rfl
  have hgv : g = 2 * mW / v := by rw [← hg, ← hv]; rfl
  have hε : ∀ x : ℝ, (withWB S x ("phiWB", [])).re = x := fun x => by simp [withWB]
  have hc : ∀ x, (couplings GF mW mZ α (withWB S x)).v = v := fun x => (withWB_v GF mW mZ α S x).trans hv
  refine ⟨_, _, _, fun x => ?_, fun x => ?_, fun x => ?_, j1, j2, j3⟩
  all_goals
    have hx := hc x
    unfold couplings at hx ⊢
    dsimp only at hx ⊢
    rw [hx, hε, ← hgv, he]

end

/-! ### C81 -/

/-- The products of couplings of the exact Z boson, near `phiWB = 0`. -/
theorem direct_jet {e g v : ℝ} (e0 : 0 < e) (eg : e < g) {g1 : ℝ → ℝ} {A Z : ℝ → ℝ × ℝ}
    (h : ∀ᶠ x in 𝓝 0, Mixing e g (x * v ^ 2) (g1 x) (A x) (Z x)) : ∃ R1 R2 R3 : ℝ → ℝ,
      (∀ᶠ x in 𝓝 0, ((g * (Z x).1 - g1 x * (Z x).2) ^ 2 = R1 (x * v ^ 2) ∧
        -((g * (Z x).1 - g1 x * (Z x).2) * (g1 x * (Z x).2)) = R2 (x * v ^ 2) ∧ (g1 x * (Z x).2) ^ 2 = R3 (x * v ^ 2))) ∧
      Jet R1 (g ^ 4 / √(g ^ 2 - e ^ 2) ^ 2) (2 * e * g ^ 4 / √(g ^ 2 - e ^ 2) ^ 3) ∧
      Jet R2 (e ^ 2 * g ^ 2 / √(g ^ 2 - e ^ 2) ^ 2) (e * g ^ 2 * (g ^ 2 + e ^ 2) / √(g ^ 2 - e ^ 2) ^ 3) ∧
      Jet R3 (e ^ 4 / √(g ^ 2 - e ^ 2) ^ 2) (2 * e ^ 3 * g ^ 2 / √(g ^ 2 - e ^ 2) ^ 3) := by
  have hd : 0 < g ^ 2 - e ^ 2 := by nlinarith
  have hr : 0 < √(g ^ 2 - e ^ 2) := Real.sqrt_pos.2 hd
  have h2 : √(g ^ 2 - e ^ 2) ^ 2 = g ^ 2 - e ^ 2 := Real.sq_sqrt hd.le
  obtain ⟨j1, j2, j3⟩ := exact_jet e0 hr (e0.trans eg) (by rw [h2]; ring)
  refine ⟨_, _, _, h.mono fun x hx => ?_, j1, j2, j3⟩
  have hg := mixing_g1 hx e0 eg
  obtain ⟨-, -, k1, k2, k3⟩ := mixing_products hx e0 (e0.trans eg)
  have hg' : g1 x = g1x e g (√(g ^ 2 - e ^ 2)) (x * v ^ 2) := by rw [hg, g1x, h2]
  rw [k1, k2, k3, hg']
  exact ⟨rfl, rfl, rfl⟩

/-- The difference of two functions with the same value and derivative. -/
theorem jet_diff {P R : ℝ → ℝ} {a b : ℝ} (hP : Jet P a b) (hR : Jet R a b) (k : ℝ) :
    HasDerivAt (fun x : ℝ => ((P (x * k) - R (x * k) : ℝ) : ℂ)) 0 0 := by
  have h : HasDerivAt (fun y => P y - R y) 0 (0 * k) := by
    rw [zero_mul]
    have := hP.2.sub hR.2
    rwa [sub_self] at this
  have h' := HasDerivAt.comp (h := fun x : ℝ => x * k) 0 h ((hasDerivAt_id (0 : ℝ)).mul_const k)
  have := h'.ofReal_comp
  simpa using this

section

variable {ckm : ℝ → ℝ → ℝ → ℝ → M3} {L : List String} {default : Par} {scale : ℝ} {par : Option Par} {V : M3}
  {GF mW mZ α : ℝ} {S : JSrc → ℂ}

/-- **C81**: the exchange of Z bosons in the matching agrees to first order in `phiWB` with the exchange of the Z boson that results from the
kinetic and mass terms without expansion, for any values of the other coefficients. -/
theorem C81_mixing {d D : ℝ → Dict String ℂ} {J : ℝ → JSrc → ℂ} {g1 : ℝ → ℝ} {A Z : ℝ → ℝ × ℝ}
    (hw : ∀ᶠ x in 𝓝 0, Dict.WF (d x)) (hd : ∀ᶠ x in 𝓝 0, ∀ key ∈ Dict.keys (d x), IsFlat key)
    (hS : ∀ᶠ x in 𝓝 0, SmeftFull (d x) (withWB S x)) (h : ∀ᶠ x in 𝓝 0, warsawUpToJms ckm L default (d x) scale par = .ok (D x))
    (hV : ckmOf ckm (withPar default par) = .ok V)
    (hG : Dict.find (withPar default par) "GF" = some GF) (hW : Dict.find (withPar default par) "m_W" = some mW)
    (hZ : Dict.find (withPar default par) "m_Z" = some mZ) (hA : Dict.find (withPar default par) "alpha_e" = some α)
    (hα : 0 < α) (hg : 0 < (couplings GF mW mZ α S).g2) (hs : 4 * Real.pi * α < (couplings GF mW mZ α S).g2 ^ 2)
    (hL : WetListing L) (hJ : ∀ᶠ x in 𝓝 0, WetFull L (D x) (J x))
    (hM : ∀ᶠ x in 𝓝 0, Mixing (√(4 * Real.pi * α)) (couplings GF mW mZ α S).g2 (x * (couplings GF mW mZ α S).v ^ 2) (g1 x) (A x) (Z x))
    {p q r s : Leg} (hp : p.Phys) (hq : q.Phys) (hr : r.Phys) (hs' : s.Phys) (lp : p.Light) (lq : q.Light) (lr : r.Light) (ls : s.Light) :
    let f := fun x => (wetLag (J x)).anti p q r s -
      (Four.rotL V fun p q r s => directLag (withWB S x) (couplings GF mW mZ α S) (g1 x) (Z x) p q r s -
        treeLag (fun _ => 0) (couplings GF mW mZ α fun _ => 0) p q r s).anti p q r s
    f 0 = 0 ∧ HasDerivAt f 0 0 := by
  intro f
  have hpi := Real.pi_pos
  have e0 : 0 < √(4 * Real.pi * α) := Real.sqrt_pos.2 (by positivity)
  have eg : √(4 * Real.pi * α) < (couplings GF mW mZ α S).g2 := by
    rw [Real.sqrt_lt' hg]; exact hs
  obtain ⟨P1, P2, P3, p1, p2, p3, j1, j2, j3⟩ := matching_jet GF mW mZ α S rfl rfl rfl e0 eg
  obtain ⟨R1, R2, R3, hR, k1, k2, k3⟩ := direct_jet e0 eg hM
  set v := (couplings GF mW mZ α S).v with hv
  have hf : f =ᶠ[𝓝 0] fun x => ((P1 (x * v ^ 2) - R1 (x * v ^ 2) : ℝ) : ℂ) * (Four.rotL V (zForm S v mZ (1, 0, 0))).anti p q r s +
      (((P2 (x * v ^ 2) - R2 (x * v ^ 2) : ℝ) : ℂ) * (Four.rotL V (zForm S v mZ (0, 1, 0))).anti p q r s +
      ((P3 (x * v ^ 2) - R3 (x * v ^ 2) : ℝ) : ℂ) * (Four.rotL V (zForm S v mZ (0, 0, 1))).anti p q r s) := by
    filter_upwards [hw, hd, hS, h, hJ, hR] with x w1 w2 w3 w4 w5 w6
    obtain ⟨r1, r2, r3⟩ := w6
    have hlag := C73_lagrangian_partial w1 w2 w3 w4 hV hG hW hZ hA hL w5 hp hq hr hs' lp lq lr ls
    have hT : (fun p q r s => treeLag (withWB S x) (couplings GF mW mZ α (withWB S x)) p q r s -
          treeLag (fun _ => 0) (couplings GF mW mZ α fun _ => 0) p q r s) = fun p q r s =>
        (directLag (withWB S x) (couplings GF mW mZ α S) (g1 x) (Z x) p q r s -
          treeLag (fun _ => 0) (couplings GF mW mZ α fun _ => 0) p q r s) +
        (((P1 (x * v ^ 2) - R1 (x * v ^ 2) : ℝ) : ℂ) * zForm S v mZ (1, 0, 0) p q r s +
        (((P2 (x * v ^ 2) - R2 (x * v ^ 2) : ℝ) : ℂ) * zForm S v mZ (0, 1, 0) p q r s +
        ((P3 (x * v ^ 2) - R3 (x * v ^ 2) : ℝ) : ℂ) * zForm S v mZ (0, 0, 1) p q r s)) := by
      funext p q r s
      have t : treeLag (withWB S x) (couplings GF mW mZ α (withWB S x)) p q r s = contactLag (withWB S x) p q r s
          + zLag (withWB S x) (couplings GF mW mZ α (withWB S x)) p q r s
          + wLag (withWB S x) (couplings GF mW mZ α (withWB S x)) p q r s := rfl
      have t' : directLag (withWB S x) (couplings GF mW mZ α S) (g1 x) (Z x) p q r s = contactLag (withWB S x) p q r s
          + zDirectLag (withWB S x) v mZ (couplings GF mW mZ α S).g2 (g1 x) (Z x) p q r s
          + wLag (withWB S x) (couplings GF mW mZ α S) p q r s := rfl
      rw [t, t', withWB_wLag, zLag_form (withWB S x) v mZ _ (withWB_v GF mW mZ α S x) rfl, zDirectLag_form, withWB_zForm, withWB_zForm,
        zForm_split S v mZ (_, _, _), zForm_split S v mZ ((_ - _) ^ 2, _, _)]
      dsimp only
      rw [p3, p2, p1, r1, r2, r3]
      push_cast
      ring
    rw [hT] at hlag
    simp only [f]
    rw [hlag, rotL_add, anti_add, rotL_add, anti_add, rotL_add, anti_add, rotL_smul, rotL_smul, rotL_smul, anti_mul, anti_mul, anti_mul]
    ring
  refine ⟨?_, ?_⟩
  · rw [hf.eq_of_nhds]
    simp only [zero_mul]
    rw [j1.1, j2.1, j3.1, k1.1, k2.1, k3.1]
    simp
  · refine HasDerivAt.congr_of_eventuallyEq ?_ hf
    have a1 := (jet_diff j1 k1 (v ^ 2)).mul_const ((Four.rotL V (zForm S v mZ (1, 0, 0))).anti p q r s)
    have a2 := (jet_diff j2 k2 (v ^ 2)).mul_const ((Four.rotL V (zForm S v mZ (0, 1, 0))).anti p q r s)
    have a3 := (jet_diff j3 k3 (v ^ 2)).mul_const ((Four.rotL V (zForm S v mZ (0, 0, 1))).anti p q r s)
    have := a1.add (a2.add a3)
    refine this.congr_deriv ?_
    simp

end

/-! ### Cases -/

/-- There are a photon and a Z boson for every mixing smaller than one. -/
theorem C81_exists {e g ε : ℝ} (he : 0 < e) (hg : e < g) (hε : ε ^ 2 < 1) : ∃ g1 A Z, Mixing e g ε g1 A Z := by
  have g0 := he.trans hg
  have hd : 0 < g ^ 2 - e ^ 2 := by nlinarith
  have hE : 0 < ε ^ 2 * e ^ 2 + (g ^ 2 - e ^ 2) := by positivity
  have hs := Real.sq_sqrt hE.le
  have hlt : |ε * e| < √(ε ^ 2 * e ^ 2 + (g ^ 2 - e ^ 2)) := by
    rw [← Real.sqrt_sq_eq_abs]
    exact Real.sqrt_lt_sqrt (sq_nonneg _) (by nlinarith)
  have hab := neg_abs_le (ε * e)
  set E := √(ε ^ 2 * e ^ 2 + (g ^ 2 - e ^ 2))
  obtain ⟨k, hk⟩ : ∃ k, k = e * g * (ε * e + E) / (g ^ 2 - e ^ 2) := ⟨_, rfl⟩
  have k0 : 0 < k := by rw [hk]; exact div_pos (mul_pos (mul_pos he g0) (by linarith)) hd
  have hkd : k * (g ^ 2 - e ^ 2) = e * g * (ε * e + E) := by rw [hk]; field_simp
  have hN : e ^ 2 * (k ^ 2 + g ^ 2 + 2 * ε * k * g) = k ^ 2 * g ^ 2 := by
    apply mul_right_cancel₀ hd.ne'
    linear_combination (-(k * (g ^ 2 - e ^ 2)) - e * g * (ε * e + E) + 2 * ε * e ^ 2 * g) * hkd - e ^ 2 * g ^ 2 * hs
  have N0 : 0 < k ^ 2 + g ^ 2 + 2 * ε * k * g := by
    have : 0 < e ^ 2 * (k ^ 2 + g ^ 2 + 2 * ε * k * g) := by rw [hN]; positivity
    exact pos_of_mul_pos_right this (by positivity)
  have M0 : 0 < (1 - ε ^ 2) * (k ^ 2 + g ^ 2 + 2 * ε * k * g) := mul_pos (by linarith) N0
  have hm := Real.sq_sqrt M0.le
  have m0 := Real.sqrt_pos.2 M0
  set m := √((1 - ε ^ 2) * (k ^ 2 + g ^ 2 + 2 * ε * k * g))
  refine ⟨k, (e / g, e / k), ((g + ε * k) / m, -(k + ε * g) / m), k0, ?_, ?_, ?_, ?_, ?_⟩
  · simp only [kin]; field_simp; linarith
  · simp only [kin]; field_simp; linarith
  · simp only [kin]; field_simp; ring
  · field_simp; ring
  · field_simp

/-- The quantities are defined for small mixing. -/
theorem ew_ok_eps {p : Par} {mW mZ alpha v : ℝ} (hW : Dict.get p "m_W" = .ok mW) (hZ : Dict.get p "m_Z" = .ok mZ)
    (hA : Dict.get p "alpha_e" = .ok alpha) (mW_pos : 0 < mW) (mZ_pos : 0 < mZ) (alpha_pos : 0 < alpha) (v0 : 0 < v)
    (ha : 4 * Real.pi * alpha < (2 * mW / v) ^ 2) : ∃ δ > 0, ∀ T : Src, vT T p = .ok v → |T.phiWB| < δ → ∃ w, ewOf T p = .ok w := by
  set h := 2 * mW / v with hh
  have h0 : 0 < h := div_pos (mul_pos two_pos mW_pos) v0
  set e := Real.sqrt (4 * Real.pi * alpha) with he
  have epos : 0 < 4 * Real.pi * alpha := by have := Real.pi_pos; positivity
  have e0 : 0 < e := Real.sqrt_pos.2 epos
  have e2 : e ^ 2 = 4 * Real.pi * alpha := Real.sq_sqrt epos.le
  have hd : 0 < h ^ 2 - e ^ 2 := by rw [e2]; linarith
  have r0 : 0 < √(h ^ 2 - e ^ 2) := Real.sqrt_pos.2 hd
  obtain ⟨k, hk⟩ : ∃ k : ℝ → ℝ, k = fun ε => e * h / √(h ^ 2 - e ^ 2) + e ^ 2 * h / (h ^ 2 - e ^ 2) * ε := ⟨_, rfl⟩
  obtain ⟨s, hs⟩ : ∃ s : ℝ → ℝ, s = fun ε => k ε / √(k ε ^ 2 + h ^ 2) * (1 + ε / 2 * h / k ε * ((h ^ 2 - k ε ^ 2) / (k ε ^ 2 + h ^ 2))) := ⟨_, rfl⟩
  obtain ⟨c, hc⟩ : ∃ c : ℝ → ℝ, c = fun ε => h / √(k ε ^ 2 + h ^ 2) * (1 - ε / 2 * k ε / h * ((h ^ 2 - k ε ^ 2) / (k ε ^ 2 + h ^ 2))) := ⟨_, rfl⟩
  have hr2 : h ^ 2 = e ^ 2 + √(h ^ 2 - e ^ 2) ^ 2 := by rw [Real.sq_sqrt hd.le]; ring
  obtain ⟨jk, js, jc⟩ := code_jets e0 r0 h0 hr2 hk hs hc
  have hev : ∀ᶠ ε in 𝓝 (0 : ℝ), k ε ≠ 0 ∧ s ε ≠ 0 ∧ c ε ≠ 0 := by
    refine ((jk.2.continuousAt.eventually_ne ?_).and ((js.2.continuousAt.eventually_ne ?_).and (jc.2.continuousAt.eventually_ne ?_)))
    · rw [jk.1]; positivity
    · rw [js.1]; positivity
    · rw [jc.1]; positivity
  obtain ⟨δ, δ0, hδ⟩ := Metric.eventually_nhds_iff.1 hev
  refine ⟨δ / v ^ 2, by positivity, fun T hT hph => ?_⟩
  obtain ⟨n1, n2, n3⟩ := hδ (y := T.phiWB * v ^ 2) (by
    rw [Real.dist_eq, sub_zero, abs_mul, abs_of_pos (show 0 < v ^ 2 by positivity)]
    exact (lt_div_iff₀ (by positivity)).1 hph)
  have hg2 : g2b T p = .ok h := by
    unfold g2b
    rw [hW, ok_bind, hT, ok_bind, divE_ok v0.ne']
  have heps : eps T p = .ok (T.phiWB * v ^ 2) := by
    unfold eps
    rw [hT, ok_bind]; rfl
  set ε := T.phiWB * v ^ 2
  have hg1 : g1b T p = .ok (k ε) := by
    unfold g1b
    rw [hA, ok_bind, sqrtE_ok epos.le, ok_bind, hg2, ok_bind, sqrtE_ok hd.le, ok_bind, divE_ok r0.ne', ok_bind,
      divE_ok hd.ne', ok_bind, heps, ok_bind, hk]
    rfl
  have q0 : 0 < k ε ^ 2 + h ^ 2 := by positivity
  have s0 : 0 < √(k ε ^ 2 + h ^ 2) := Real.sqrt_pos.2 q0
  have hs' : sb T p = .ok (s ε) := by
    unfold sb
    rw [hg1, ok_bind, hg2, ok_bind, sqrtE_ok q0.le, ok_bind, heps, ok_bind, divE_ok s0.ne', ok_bind, divE_ok n1, ok_bind,
      divE_ok q0.ne', ok_bind, hs]
    rfl
  have hc' : cb T p = .ok (c ε) := by
    unfold cb
    rw [hg1, ok_bind, hg2, ok_bind, sqrtE_ok q0.le, ok_bind, heps, ok_bind, divE_ok s0.ne', ok_bind, divE_ok h0.ne', ok_bind,
      divE_ok q0.ne', ok_bind, hc]
    rfl
  have hgz : ∃ x, gzb T p = .ok x := by
    unfold gzb eb
    rw [hg2, ok_bind, hs', ok_bind, hc', ok_bind, hT, ok_bind]
    simp only [pure, Except.pure, ok_bind, hg1]
    rw [divE_ok (mul_ne_zero n2 n3), ok_bind, divE_ok (mul_ne_zero (mul_ne_zero two_ne_zero n1) h0.ne'), ok_bind]
    exact ⟨_, rfl⟩
  obtain ⟨x, hx'⟩ := hgz
  unfold ewOf
  rw [hT, ok_bind, hg2, ok_bind, hs', ok_bind, hc', ok_bind, hx', ok_bind, hW, ok_bind, hZ, ok_bind,
    divE_ok mW_pos.ne', ok_bind, divE_ok mZ_pos.ne', ok_bind]
  exact ⟨_, rfl⟩

/-- The operator `phiWB` alone. -/
noncomputable def exWB (x : ℝ) : Dict String ℂ := [("phiWB", (x : ℂ))]

theorem phiWB_op : IsOp "phiWB" .boson := by decide +kernel

theorem exWB_wf (x : ℝ) : Dict.WF (exWB x) := by simp [Dict.WF, Dict.keys, exWB]

theorem exWB_flat (x : ℝ) : ∀ key ∈ Dict.keys (exWB x), IsFlat key := by
  intro key hk
  obtain rfl : key = "phiWB" := by simpa [Dict.keys, exWB] using hk
  exact ⟨"phiWB", _, [], phiWB_op, rfl, by decide +kernel⟩

theorem exWB_full (x : ℝ) : SmeftFull (exWB x) (withWB (fun _ => 0) x) := by
  refine ⟨fun k op i ho hi => ?_, fun k ho => ?_, fun k x y c ho hc2 => ?_, fun k x y z w c ho hc4 => ?_⟩
  · have hl : "phiWB" = label "phiWB" [] := by decide +kernel
    unfold Dict.getD exWB
    rw [hl, Dict.find_cons]
    by_cases h : k = "phiWB" ∧ i = []
    · rw [h.1, h.2]; simp [withWB]
    · have hne : ¬ label "phiWB" [] = label k i := fun e => h <| by
        have := label_inj (isOp_plain phiWB_op) (isOp_plain ho) e
        exact ⟨this.1.symm, this.2.symm⟩
      rw [if_neg hne]
      simp only [withWB, Prod.mk.injEq, h, if_false]
      rfl
  · simp only [withWB]; split_ifs <;> simp
  · cases c <;> simp [Rel2, withWB]
  · cases c <;> simp [Rel4, withWB]

/-- The hypotheses of **C81** hold for the default parameters, the operators `allL` and `phiWB` alone. -/
theorem exWB_case : ∃ (D : ℝ → Dict String ℂ) (J : ℝ → JSrc → ℂ) (g1 : ℝ → ℝ) (A Z : ℝ → ℝ × ℝ),
    (∀ᶠ x in 𝓝 0, warsawUpToJms (fun _ _ _ _ => 1) allL defaultPar (exWB x) 91 none = .ok (D x) ∧ WetFull allL (D x) (J x) ∧
      Mixing (√(4 * Real.pi * (1 / 127.9))) (couplings 1.1663787e-5 80.385 91.1876 (1 / 127.9) fun _ => 0).g2
        (x * (couplings 1.1663787e-5 80.385 91.1876 (1 / 127.9) fun _ => 0).v ^ 2) (g1 x) (A x) (Z x)) ∧
    (∀ {p q r s : Leg}, p.Phys → q.Phys → r.Phys → s.Phys → p.Light → q.Light → r.Light → s.Light →
      HasDerivAt (fun x => (wetLag (J x)).anti p q r s -
        (Four.rotL 1 fun p q r s => directLag (withWB (fun _ => 0) x) (couplings 1.1663787e-5 80.385 91.1876 (1 / 127.9) fun _ => 0) (g1 x) (Z x) p q r s -
          treeLag (fun _ => 0) (couplings 1.1663787e-5 80.385 91.1876 (1 / 127.9) fun _ => 0) p q r s).anti p q r s) 0 0) := by
  have hp := default_physical
  have q2 : (0 : ℝ) < √2 := Real.sqrt_pos.2 (by norm_num)
  have hx : (0 : ℝ) < 1 / √2 / 1.1663787e-5 := by positivity
  have hv0 : 0 < √(1 / √2 / 1.1663787e-5) := Real.sqrt_pos.2 hx
  have ha : 4 * Real.pi * (1 / 127.9) < (2 * 80.385 / √(1 / √2 / 1.1663787e-5)) ^ 2 := by
    rw [div_pow, Real.sq_sqrt hx.le]
    have : (2 * 80.385 : ℝ) ^ 2 / (1 / √2 / 1.1663787e-5) = 4 * (√2 * 1.1663787e-5 * 80.385 ^ 2) := by
      field_simp; ring
    rw [this]
    linarith [hp.angle]
  have hvx : ∀ x, vT (flatSrc (exWB x)) defaultPar = .ok (√(1 / √2 / 1.1663787e-5)) := by
    intro x
    refine vT_plain hp ?_ ?_
    · rw [full_tn (exWB_full x) ll_op]; simp [tens, withWB]
    · rw [full_mt (exWB_full x) phil3_op]; simp [withWB]
  have hph : ∀ x, (flatSrc (exWB x)).phiWB = x := by
    intro x
    rw [full_phiWB (exWB_full x)]; simp [withWB]
  have hcv : (couplings 1.1663787e-5 80.385 91.1876 (1 / 127.9) fun _ => 0).v = √(1 / √2 / 1.1663787e-5) := by
    unfold couplings
    norm_num
  have hcg : (couplings 1.1663787e-5 80.385 91.1876 (1 / 127.9) fun _ => 0).g2 = 2 * 80.385 / √(1 / √2 / 1.1663787e-5) := by
    rw [← hcv]; rfl
  obtain ⟨δ, δ0, hδ⟩ := ew_ok_eps (Dict.get_of_find hp.mW_eq) (Dict.get_of_find hp.mZ_eq) (Dict.get_of_find hp.alpha_eq) hp.mW_pos hp.mZ_pos
    hp.alpha_pos hv0 ha
  have hD : ∀ x, |x| < δ → ∃ D J, warsawUpToJms (fun _ _ _ _ => 1) allL defaultPar (exWB x) 91 none = .ok D ∧ WetFull allL D J := by
    intro x hxδ
    obtain ⟨w, e1⟩ := hδ _ (hvx x) (by rw [hph]; exact hxδ)
    obtain ⟨w0, e2, -⟩ := ew_ok hp (noShift_zero (flatSrc (exWB x)))
    have hV : ckmOf (fun _ _ _ _ => (1 : M3)) defaultPar = .ok 1 := rfl
    have h := matchAll_intro allL (exWB_wf x) (exWB_flat x) (par := none) e1 e2 hV
    obtain ⟨J, hJ⟩ := C73_relations (scale := 91) (exWB_wf x) (exWB_flat x) (exWB_full x) h
    exact ⟨_, J, h, hJ⟩
  have hM : ∀ x, (x * (couplings 1.1663787e-5 80.385 91.1876 (1 / 127.9) fun _ => 0).v ^ 2) ^ 2 < 1 → ∃ y : ℝ × (ℝ × ℝ) × (ℝ × ℝ),
      Mixing (√(4 * Real.pi * (1 / 127.9))) (couplings 1.1663787e-5 80.385 91.1876 (1 / 127.9) fun _ => 0).g2
        (x * (couplings 1.1663787e-5 80.385 91.1876 (1 / 127.9) fun _ => 0).v ^ 2) y.1 y.2.1 y.2.2 := by
    intro x hx1
    have hpi := Real.pi_pos
    obtain ⟨a, b, c, h⟩ := C81_exists (e := √(4 * Real.pi * (1 / 127.9))) (Real.sqrt_pos.2 (by positivity))
      (g := (couplings 1.1663787e-5 80.385 91.1876 (1 / 127.9) fun _ => 0).g2) (by
        rw [hcg, Real.sqrt_lt' (by positivity)]; exact ha) hx1
    exact ⟨(a, b, c), h⟩
  classical
  have e1 : ∀ᶠ x in 𝓝 (0 : ℝ), |x| < δ := by
    have := Metric.ball_mem_nhds (0 : ℝ) δ0
    filter_upwards [this] with x hx
    simpa [Real.dist_eq] using hx
  have e2 : ∀ᶠ x in 𝓝 (0 : ℝ), (x * (couplings 1.1663787e-5 80.385 91.1876 (1 / 127.9) fun _ => 0).v ^ 2) ^ 2 < 1 := by
    have hc : ContinuousAt (fun x : ℝ => (x * (couplings 1.1663787e-5 80.385 91.1876 (1 / 127.9) fun _ => 0).v ^ 2) ^ 2) 0 :=
      ((continuous_id.mul continuous_const).pow 2).continuousAt
    exact hc.eventually_lt_const (by norm_num)
  obtain ⟨D, hD'⟩ : ∃ D : ℝ → Dict String ℂ × (JSrc → ℂ), ∀ x, |x| < δ →
      warsawUpToJms (fun _ _ _ _ => 1) allL defaultPar (exWB x) 91 none = .ok (D x).1 ∧ WetFull allL (D x).1 (D x).2 := by
    choose! D J h using hD
    exact ⟨fun x => (D x, J x), h⟩
  choose! y hy using hM
  refine ⟨fun x => (D x).1, fun x => (D x).2, fun x => (y x).1, fun x => (y x).2.1, fun x => (y x).2.2, (e1.and e2).mono fun x hx => ⟨(hD' x hx.1).1, (hD' x hx.1).2, hy x hx.2⟩,
    fun {p q r s} h1 h2 h3 h4 l1 l2 l3 l4 => ?_⟩
  exact (C81_mixing (A := fun x => (y x).2.1) (d := exWB) (D := fun x => (D x).1) (scale := 91) (par := none) (.of_forall exWB_wf) (.of_forall exWB_flat)
    (.of_forall exWB_full) (e1.mono fun x hx => (hD' x hx).1) rfl hp.GF_eq hp.mW_eq hp.mZ_eq hp.alpha_eq hp.alpha_pos
    (by rw [hcg]; positivity) (by rw [hcg]; exact ha) allL_listing (e1.mono fun x hx => (hD' x hx).2) (e2.mono fun x hx => hy x hx)
    h1 h2 h3 h4 l1 l2 l3 l4).2

end Verif
