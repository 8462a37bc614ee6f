import Verif.Props.Full
import Verif.Props.MatchWarsaw
import Verif.Props.SmeftTrans

/-! C92: the three bases of the SMEFT give the same values to the coefficients on whose definition they agree. -/

set_option autoImplicit false

namespace Verif

open Spec

theorem mat_noq (W : M3) {x : Slot} (h : x.fld ≠ .q) : x.mat (qRot W) = 1 := by
  have e : qRot W x.fld = 1 := by
    generalize x.fld = f at h
    cases f <;> simp_all [qRot, Rot.fld]
  funext i j
  unfold Slot.mat
  rw [e]
  by_cases hij : i = j <;> simp [Matrix.one_apply, hij]

theorem rotated_noq {W : M3} {S S' : JSrc → ℂ} (h : Rotated (qRot W) S S') {k : String} {op : Spec.Op} (ho : IsOp k op)
    (hn : NoDoublet op) {i : List (Fin 3)} (hi : i.length = op.rank) : S' (k, i) = S (k, i) := by
  match op, i, hi, hn with
  | .boson, [], _, _ => exact h.zero k ho
  | .two x y, [p, r], _, ⟨h1, h2⟩ =>
    have := h.two k x y ho
    rw [mat_noq W h1, mat_noq W h2, rot2_one] at this
    exact congrFun this (p, r)
  | .four x y z w, [p, r, s, t], _, ⟨h1, h2, h3, h4⟩ =>
    have := h.four k x y z w ho
    rw [mat_noq W h1, mat_noq W h2, mat_noq W h3, mat_noq W h4, rot4_one] at this
    exact congrFun this (p, r, s, t)

theorem rotated_u {W : M3} {S S' : JSrc → ℂ} (h : Rotated (qRot W) S S') {k : String} (ho : IsOp k (.two (b .q) (n .u)))
    (p r : Fin 3) : S' (k, [p, r]) = ∑ s, starRingEnd ℂ (W s p) * S (k, [s, r]) := by
  have := congrFun (h.two k _ _ ho) (p, r)
  rw [mat_noq W (x := n .u) (by decide)] at this
  refine this.trans ?_
  simp [rot2, Matrix.one_apply, Slot.mat, b, qRot, Rot.fld]

theorem up_ops : ∀ name ∈ upNames, IsOp name (.two (b .q) (n .u)) := by decide +kernel

theorem up_indep (p r : Fin 3) : Indep (.two (b .q) (n .u)) [p, r] := by
  intro c hc
  exact absurd hc (by simp [cls2, b, n])

section

variable {ckm : ℝ → ℝ → ℝ → ℝ → M3} {msvd : M3 → Fin 3 → ℝ} {up warsaw : List String} {default : Par} {par : Option Par} {V : M3}
  {C : Dict String ℂ}

/-- Flat names have the shape that `warsaw_to_warsawmass` expects. -/
theorem flat_mass (hd : ∀ key ∈ Dict.keys C, IsFlat key) : ∀ key ∈ Dict.keys C, headPart key ∈ "llphiphi" :: upNames →
    ∃ i, i.length = 2 ∧ key = label (headPart key) i := by
  intro key hk hh
  obtain ⟨k, op, i, ho, hi, rfl⟩ := hd key hk
  rw [headPart_label (isOp_plain ho)] at hh ⊢
  have h2 : ∀ name ∈ "llphiphi" :: upNames, ∃ x y, IsOp name (.two x y) := by
    intro name hn
    rcases List.mem_cons.1 hn with rfl | hn
    · exact ⟨n .l, n .l, by decide +kernel⟩
    · exact ⟨_, _, up_ops name hn⟩
  obtain ⟨x, y, h3⟩ := h2 k hh
  rw [isOp_unique ho h3] at hi
  exact ⟨i, hi, rfl⟩

/-- **C92**: from the same coefficients in the Warsaw basis, `warsaw_to_warsaw_up` and `warsaw_to_warsawmass` compute the same values
of the operators of a quark doublet and a right-handed up quark. All operators without quark doublets (in Warsaw mass except the one of
dimension five) keep the values that they have in the Warsaw basis. -/
theorem C92_agree (hV : ckmOf ckm (withPar default par) = .ok V) (hup : ∀ k op i, IsOp k op → Indep op i → label k i ∈ up)
    (hw : Dict.WF C) (hd : ∀ key ∈ Dict.keys C, IsFlat key) (hreal : ∀ key, RealName key → (Dict.getD C key 0).im = 0) :
    ∃ U M, warsawToWarsawUp ckm up default C par = .ok U ∧ warsawToWarsawmass ckm msvd default C par = .ok M ∧
      (∀ name ∈ ["uphi", "uG", "uW", "uB"], ∀ p r, Dict.getD U (label name [p, r]) 0 = Dict.getD M (label name [p, r]) 0) ∧
      ∀ k op i, IsOp k op → Indep op i → NoDoublet op → Dict.getD U (label k i) 0 = Dict.getD C (label k i) 0 ∧
        (k ≠ "llphiphi" → Dict.getD M (label k i) 0 = Dict.getD C (label k i) 0) := by
  obtain ⟨S, hS⟩ := (C90_smeft C).2 hreal
  obtain ⟨U, S', h1, -, -, h4, h5⟩ := up_full hw hd hS hV hup
  obtain ⟨M, g1, g2, g3, -⟩ := C36_frame ckm msvd default par V hV C hw (flat_mass hd)
  refine ⟨U, M, h1, g1, fun name hn p r => ?_, fun k op i ho hi hnd => ⟨?_, fun hk => ?_⟩⟩
  · have ho := up_ops name hn
    rw [← h4.listed name _ [p, r] ho (up_indep p r), rotated_u h5 ho]
    conv_rhs => rw [Dict.getD, g3 name hn p r]
    refine Finset.sum_congr rfl fun s _ => ?_
    rw [hS.listed name _ [s, r] ho (up_indep s r)]
    simp [Matrix.conjTranspose_apply]
  · rw [← h4.listed k op i ho hi, rotated_noq h5 ho hnd (indep_length hi), hS.listed k op i ho hi]
  · have : headPart (label k i) ∉ "llphiphi" :: upNames := by
      rw [headPart_label (isOp_plain ho)]
      intro hm
      rcases List.mem_cons.1 hm with h | h
      · exact hk h
      · have e := isOp_unique ho (up_ops k h)
        subst e
        exact hnd.1 rfl
    unfold Dict.getD
    rw [g2 _ this]

/-- **C92**: going from Warsaw up to Warsaw and on to Warsaw mass does not change the coefficients of the operators of a quark
doublet and a right-handed up quark, nor those without quark doublets (except the one of dimension five). -/
theorem C92_path (hV : ckmOf ckm (withPar default par) = .ok V) (hu : V.conjTranspose * V = 1)
    (hwarsaw : ∀ k op i, IsOp k op → Indep op i → label k i ∈ warsaw)
    (hw : Dict.WF C) (hd : ∀ key ∈ Dict.keys C, IsFlat key) (hreal : ∀ key, RealName key → (Dict.getD C key 0).im = 0) :
    ∃ W M, warsawUpToWarsaw ckm warsaw default C par = .ok W ∧ warsawToWarsawmass ckm msvd default W par = .ok M ∧
      (∀ name ∈ ["uphi", "uG", "uW", "uB"], ∀ p r, Dict.getD M (label name [p, r]) 0 = Dict.getD C (label name [p, r]) 0) ∧
      ∀ k op i, IsOp k op → Indep op i → NoDoublet op → k ≠ "llphiphi" →
        Dict.getD M (label k i) 0 = Dict.getD C (label k i) 0 := by
  obtain ⟨S, hS⟩ := (C90_smeft C).2 hreal
  obtain ⟨W, S', h1, h2, h3, h4, h5⟩ := rot_full (fun V => V) hw hd hS hV hwarsaw
  obtain ⟨M, g1, g2, g3, -⟩ := C36_frame ckm msvd default par V hV W h2 (flat_mass h3)
  refine ⟨W, M, h1, g1, fun name hn p r => ?_, fun k op i ho hi hnd hk => ?_⟩
  · have ho := up_ops name hn
    have hu' : V * V.conjTranspose = 1 := mul_eq_one_comm.1 hu
    conv_lhs => rw [Dict.getD, g3 name hn p r]
    rw [← hS.listed name _ [p, r] ho (up_indep p r)]
    simp only [← h4.listed name _ [_, r] ho (up_indep _ r), rotated_u h5 ho, Option.getD_some]
    have e : ∀ s, ∑ x, V p x * starRingEnd ℂ (V s x) = if p = s then 1 else 0 := fun s => by
      have := congrFun (congrFun hu' p) s
      rw [Matrix.mul_apply, Matrix.one_apply] at this
      exact this
    simp only [Finset.mul_sum]
    rw [Finset.sum_comm]
    simp only [← mul_assoc, ← Finset.sum_mul, e]
    simp
  · have : headPart (label k i) ∉ "llphiphi" :: upNames := by
      rw [headPart_label (isOp_plain ho)]
      intro hm
      rcases List.mem_cons.1 hm with h | h
      · exact hk h
      · have e := isOp_unique ho (up_ops k h)
        subst e
        exact hnd.1 rfl
    have e : Dict.getD M (label k i) 0 = Dict.getD W (label k i) 0 := by
      unfold Dict.getD
      rw [g2 _ this]
    rw [e, ← h4.listed k op i ho hi, rotated_noq h5 ho hnd (indep_length hi), hS.listed k op i ho hi]

end

/-! Non-trivial instances: a coefficient of up quarks, and one of leptons. -/

theorem exU_flat : ∀ key ∈ Dict.keys ([("uphi_11", 1), ("phie_12", Complex.I)] : Dict String ℂ), IsFlat key := by
  intro key hk
  have h1 : "uphi_11" = label "uphi" [0, 0] := by decide +kernel
  have h2 : "phie_12" = label "phie" [0, 1] := by decide +kernel
  have o1 : IsOp "uphi" (.two (b .q) (n .u)) := by decide +kernel
  have o2 : IsOp "phie" (.two (b .e) (n .e)) := by decide +kernel
  simp only [Dict.keys, List.map_cons, List.map_nil, List.mem_cons, List.not_mem_nil, or_false] at hk
  rcases hk with rfl | rfl
  · exact ⟨_, _, _, o1, rfl, h1⟩
  · exact ⟨_, _, _, o2, rfl, h2⟩

theorem exU_real : ∀ key, RealName key → (Dict.getD ([("uphi_11", 1), ("phie_12", Complex.I)] : Dict String ℂ) key 0).im = 0 := by
  rintro key ⟨k, op, i, ⟨ho, -, rfl⟩, -, hr⟩
  have h2 : "phie_12" = label "phie" [0, 1] := by decide +kernel
  have o2 : IsOp "phie" (.two (b .e) (n .e)) := by decide +kernel
  unfold Dict.getD
  rw [Dict.find_cons]
  split
  · simp
  · rw [Dict.find_cons]
    dsimp only
    split
    · rename_i e
      rw [h2] at e
      obtain ⟨rfl, rfl⟩ := label_inj (isOp_plain o2) (isOp_plain ho) e
      obtain rfl := isOp_unique ho o2
      obtain ⟨c, hc, hr⟩ := hr
      have : cls2 (b .e) (n .e) = some .herm := by decide
      obtain rfl : c = .herm := Option.some.inj (hc.symm.trans this)
      exact absurd hr (by decide)
    · simp [Dict.find]

example (msvd : M3 → Fin 3 → ℝ) : ∃ U M, warsawToWarsawUp (fun _ _ _ _ => exV) allFlat defaultPar [("uphi_11", 1), ("phie_12", Complex.I)] none = .ok U ∧
    warsawToWarsawmass (fun _ _ _ _ => exV) msvd defaultPar [("uphi_11", 1), ("phie_12", Complex.I)] none = .ok M ∧
    Dict.getD U "uphi_21" 0 = 2 / 3 ∧ Dict.getD M "uphi_21" 0 = 2 / 3 ∧
    Dict.getD U "phie_12" 0 = Complex.I ∧ Dict.getD M "phie_12" 0 = Complex.I := by
  have hV : ckmOf (fun _ _ _ _ => exV) (withPar defaultPar none) = .ok exV := rfl
  have hw : Dict.WF ([("uphi_11", 1), ("phie_12", Complex.I)] : Dict String ℂ) := by simp [Dict.WF, Dict.keys]
  obtain ⟨U, M, h1, h2, h3, h4⟩ := C92_agree (msvd := msvd) hV (fun k op i => mem_allFlat) hw exU_flat exU_real
  obtain ⟨M', g1, -, g3, -⟩ := C36_frame (fun _ _ _ _ => exV) msvd defaultPar none exV hV _ hw (flat_mass exU_flat)
  obtain rfl : M' = M := Except.ok.inj (g1.symm.trans h2)
  have l1 : label "uphi" [1, 0] = "uphi_21" := by decide +kernel
  have l2 : label "phie" [0, 1] = "phie_12" := by decide +kernel
  have l3 : label "uphi" [0, 0] = "uphi_11" ∧ label "uphi" [2, 0] = "uphi_31" := by decide +kernel
  have hm : Dict.getD M' "uphi_21" 0 = 2 / 3 := by
    rw [← l1, Dict.getD, g3 "uphi" (by decide) 1 0, Fin.sum_univ_three, l1, l3.1, l3.2]
    simp [Dict.getD, Dict.find, exV]
    norm_num
  have h5 := h3 "uphi" (by decide) 1 0
  rw [l1] at h5
  have o2 : IsOp "phie" (.two (b .e) (n .e)) := by decide +kernel
  obtain ⟨h6, h7⟩ := h4 "phie" _ [0, 1] o2 (fun c _ => by decide) (by simp [NoDoublet, b, n])
  rw [l2] at h6 h7
  have hc : Dict.getD ([("uphi_11", 1), ("phie_12", Complex.I)] : Dict String ℂ) "phie_12" 0 = Complex.I := by
    simp [Dict.getD, Dict.find]
  exact ⟨U, M', h1, h2, h5.trans hm, hm, h6.trans hc, (h7 (by decide)).trans hc⟩

end Verif
