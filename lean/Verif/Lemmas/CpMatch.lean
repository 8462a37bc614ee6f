import Verif.Lemmas.CpSmeft

/-! Complex conjugation of the matching from SMEFT to WET. -/

set_option autoImplicit false

namespace Verif

open Spec

local notation "K" => starRingEnd ℂ

/-- Entrywise conjugate of what the formulas read. -/
noncomputable def Src.cc (C : Src) : Src where
  mt k := fun i => K (C.mt k i)
  tn k := fun i => K (C.tn k i)
  phiWB := C.phiWB
  G := C.G.cc
  Gtilde := C.Gtilde.cc

theorem find_conjArrs (C : Dict String Arr) (k : String) : Dict.find (conjArrs C) k = (Dict.find C k).map Arr.cc :=
  Dict.find_mapVals _ _ _

theorem srcOf_cc (C : Dict String Arr) : srcOf (conjArrs C) = (srcOf C).cc := by
  have h : ∀ {a b : Src}, a.mt = b.mt → a.tn = b.tn → a.phiWB = b.phiWB → a.G = b.G → a.Gtilde = b.Gtilde → a = b := by
    rintro ⟨⟩ ⟨⟩ h1 h2 h3 h4 h5; simp only at h1 h2 h3 h4 h5; subst h1 h2 h3 h4 h5; rfl
  apply h
  · funext k i
    simp only [srcOf, Src.cc, find_conjArrs]
    cases Dict.find C k with
    | none => simp
    | some a => cases a <;> simp [Arr.cc]
  · funext k i
    simp only [srcOf, Src.cc, find_conjArrs]
    cases Dict.find C k with
    | none => simp
    | some a => cases a <;> simp [Arr.cc]
  · simp only [srcOf, Src.cc, find_conjArrs]
    cases Dict.find C "phiWB" with
    | none => rfl
    | some a => cases a <;> simp [Arr.cc]
  · simp only [srcOf, Src.cc, find_conjArrs]
    cases Dict.find C "G" with
    | none => simp [Arr.cc]
    | some a => rfl
  · simp only [srcOf, Src.cc, find_conjArrs]
    cases Dict.find C "Gtilde" with
    | none => simp [Arr.cc]
    | some a => rfl

theorem hasShape_cc (a : Arr) (s : Shape) : a.cc.hasShape s = a.hasShape s := by
  cases a <;> cases s <;> rfl

theorem checkArrays_cc (C : Dict String Arr) : checkArrays (conjArrs C) = checkArrays C := by
  unfold checkArrays
  congr 1
  funext k
  rw [conjArrs, get_mapVals]
  cases Dict.get C k with
  | error e => rfl
  | ok a =>
    change (Dict.get shapeTable k >>= _) = (Dict.get shapeTable k >>= _)
    congr 1
    funext s
    rw [hasShape_cc]

/-- The parameters read by the couplings agree. -/
def SameEw (p p' : Par) : Prop := ∀ k ∈ ["GF", "m_W", "m_Z", "alpha_e"], Dict.get p' k = Dict.get p k

section

variable {p p' : Par} (hp : SameEw p p') (C : Src)

include hp

theorem vT_cc : vT C.cc p' = vT C p := by
  unfold vT
  rw [hp "GF" (by simp)]
  congr 1
  funext GF
  dsimp only
  have : ∀ x y z u : ℂ, ‖(GF : ℂ) - (Real.sqrt 2 / 4 : ℝ) * (-K x - K y + 2 * K z + 2 * K u)‖ =
      ‖(GF : ℂ) - (Real.sqrt 2 / 4 : ℝ) * (-x - y + 2 * z + 2 * u)‖ := by
    intro x y z u
    rw [← Complex.norm_conj]
    congr 1
    simp only [map_sub, map_add, map_mul, map_neg, Complex.conj_conj, Complex.conj_ofReal, map_ofNat]
  simp only [Src.cc]
  rw [this]

theorem eps_cc : eps C.cc p' = eps C p := by unfold eps; rw [vT_cc hp]; rfl

theorem g2b_cc : g2b C.cc p' = g2b C p := by unfold g2b; rw [vT_cc hp, hp "m_W" (by simp)]

theorem g1b_cc : g1b C.cc p' = g1b C p := by
  unfold g1b; rw [g2b_cc hp, eps_cc hp, hp "alpha_e" (by simp)]

theorem sb_cc : sb C.cc p' = sb C p := by unfold sb; rw [g1b_cc hp, g2b_cc hp, eps_cc hp]

theorem cb_cc : cb C.cc p' = cb C p := by unfold cb; rw [g1b_cc hp, g2b_cc hp, eps_cc hp]

theorem eb_cc : eb C.cc p' = eb C p := by unfold eb; rw [g2b_cc hp, sb_cc hp, cb_cc hp, vT_cc hp]; rfl

theorem gzb_cc : gzb C.cc p' = gzb C p := by
  unfold gzb; rw [eb_cc hp, g1b_cc hp, g2b_cc hp, sb_cc hp, cb_cc hp, vT_cc hp]; rfl

theorem ewOf_cc : ewOf C.cc p' = ewOf C p := by
  unfold ewOf
  rw [vT_cc hp, g2b_cc hp, sb_cc hp, cb_cc hp, gzb_cc hp, hp "m_W" (by simp), hp "m_Z" (by simp)]

end

/-- Conjugate of a matrix or tensor. -/
noncomputable def ccF {I : Type} (f : I → ℂ) : I → ℂ := fun i => K (f i)

section

variable {I : Type}

theorem ccF_add (a b : I → ℂ) : ccF (a + b) = ccF a + ccF b := by funext i; simp [ccF]
theorem ccF_sub (a b : I → ℂ) : ccF (a - b) = ccF a - ccF b := by funext i; simp [ccF]
theorem ccF_neg (a : I → ℂ) : ccF (-a) = -ccF a := by funext i; simp [ccF]
theorem ccF_smul (c : ℂ) (a : I → ℂ) : ccF (c • a) = K c • ccF a := by funext i; simp [ccF]
theorem ccF_zero : ccF (0 : I → ℂ) = 0 := by funext i; simp [ccF]

end

theorem ccF_eye (x : ℝ) : ccF (eyeT x) = eyeT x := by
  funext i; simp only [ccF, eyeT]; split_ifs <;> simp
theorem ccF_cj (A : Ix2 → ℂ) : ccF (cj A) = cj (ccF A) := rfl
theorem ccF_pr_st (A B : Ix2 → ℂ) : ccF (epr_st A B) = epr_st (ccF A) (ccF B) := by
  funext ⟨p, r, s, t⟩; simp [ccF, epr_st]
theorem ccF_pt_sr (A B : Ix2 → ℂ) : ccF (ept_sr A B) = ept_sr (ccF A) (ccF B) := by
  funext ⟨p, r, s, t⟩; simp [ccF, ept_sr]
theorem ccF_pt_rs (A B : Ix2 → ℂ) : ccF (ept_rs A B) = ept_rs (ccF A) (ccF B) := by
  funext ⟨p, r, s, t⟩; simp [ccF, ept_rs]
theorem ccF_pr_ts (A B : Ix2 → ℂ) : ccF (epr_ts A B) = epr_ts (ccF A) (ccF B) := by
  funext ⟨p, r, s, t⟩; simp [ccF, epr_ts]
theorem ccF_stpr (T : Ix4 → ℂ) : ccF (estpr T) = estpr (ccF T) := rfl
theorem ccF_ptsr (T : Ix4 → ℂ) : ccF (eptsr T) = eptsr (ccF T) := rfl
theorem ccF_srpt (T : Ix4 → ℂ) : ccF (esrpt T) = esrpt (ccF T) := rfl
theorem ccF_rpst (T : Ix4 → ℂ) : ccF (erpst T) = erpst (ccF T) := rfl

section

variable (C : Src) (w : EW)

theorem mt_cc (k : String) : C.cc.mt k = ccF (C.mt k) := rfl
theorem tn_cc (k : String) : C.cc.tn k = ccF (C.tn k) := rfl
theorem G_cc : C.cc.G = C.G.cc := rfl
theorem Gtilde_cc : C.cc.Gtilde = C.Gtilde.cc := rfl
theorem kz_cc (n : ℝ) : K (w.kz n) = w.kz n := Complex.conj_ofReal _
theorem kw_cc (n : ℝ) : K (w.kw n) = w.kw n := Complex.conj_ofReal _
theorem rt_cc : K w.rt = w.rt := Complex.conj_ofReal _
theorem sc_cc : K w.sc = w.sc := Complex.conj_ofReal _
theorem cc_cc : K w.cc = w.cc := Complex.conj_ofReal _
theorem v2_cc : K w.v2 = w.v2 := Complex.conj_ofReal _
theorem wl_cc : wl C.cc w = ccF (wl C w) := by
  simp only [wl, ccF_add, ccF_eye, ccF_smul, Complex.conj_ofReal, mt_cc]
theorem wq_cc : wq C.cc w = ccF (wq C w) := by
  simp only [wq, ccF_add, ccF_eye, ccF_smul, Complex.conj_ofReal, mt_cc]
theorem wr_cc : wr C.cc w = ccF (wr C w) := by simp only [wr, ccF_smul, v2_cc, mt_cc]
theorem znu_cc : znu C.cc w = ccF (znu C w) := by
  simp only [znu, ccF_add, ccF_sub, ccF_eye, ccF_smul, v2_cc, mt_cc]
theorem zel_cc : zel C.cc w = ccF (zel C w) := by
  simp only [zel, ccF_sub, ccF_eye, ccF_smul, v2_cc, mt_cc]
theorem zer_cc : zer C.cc w = ccF (zer C w) := by
  simp only [zer, ccF_sub, ccF_eye, ccF_smul, v2_cc, mt_cc]
theorem zul_cc : zul C.cc w = ccF (zul C w) := by
  simp only [zul, ccF_add, ccF_sub, ccF_eye, ccF_smul, v2_cc, mt_cc]
theorem zur_cc : zur C.cc w = ccF (zur C w) := by
  simp only [zur, ccF_sub, ccF_eye, ccF_smul, v2_cc, mt_cc]
theorem zdl_cc : zdl C.cc w = ccF (zdl C w) := by
  simp only [zdl, ccF_sub, ccF_eye, ccF_smul, v2_cc, mt_cc]
theorem zdr_cc : zdr C.cc w = ccF (zdr C w) := by
  simp only [zdr, ccF_sub, ccF_eye, ccF_smul, v2_cc, mt_cc]

theorem arrMat_cc (m : Ix2 → ℂ) : (Arr.mat m).cc = .mat (ccF m) := rfl
theorem arrTen_cc (m : Ix4 → ℂ) : (Arr.ten m).cc = .ten (ccF m) := rfl

theorem rules_cc : ∀ r ∈ matchRules, r.2 C.cc w = (r.2 C w).cc := by
  have h : ∀ L ∈ [rulesDipole, rulesLL, rulesRR, rulesLR, rulesScalar, rulesBL], ∀ r ∈ L, r.2 C.cc w = (r.2 C w).cc := by
    simp only [List.forall_mem_cons, List.not_mem_nil, IsEmpty.forall_iff, implies_true, and_true,
      rulesDipole, rulesLL, rulesRR, rulesLR, rulesScalar, rulesBL, arrMat_cc, arrTen_cc, ccF_add, ccF_sub, ccF_neg, ccF_smul, ccF_zero,
      ccF_cj, ccF_pr_st, ccF_pt_sr, ccF_pt_rs, ccF_pr_ts, ccF_stpr, ccF_ptsr, ccF_srpt, ccF_rpst, mt_cc, tn_cc, G_cc, Gtilde_cc,
      kz_cc, kw_cc, rt_cc, sc_cc, cc_cc, wl_cc, wq_cc, wr_cc, znu_cc, zel_cc, zer_cc, zul_cc, zur_cc, zdl_cc, zdr_cc,
      Complex.conj_ofReal, map_ofNat, map_div₀, map_one]
  intro r hr
  simp only [matchRules, List.mem_append, or_assoc] at hr
  rcases hr with hr | hr | hr | hr | hr | hr
  · exact h _ (by simp) r hr
  · exact h _ (by simp) r hr
  · exact h _ (by simp) r hr
  · exact h _ (by simp) r hr
  · exact h _ (by simp) r hr
  · exact h _ (by simp) r hr

end

theorem arrSub_cc (a b : Arr) : a.cc.sub b.cc = (a.sub b).cc := by
  cases a <;> cases b <;> simp only [Arr.cc, Arr.sub, map_sub] <;> first | rfl | (congr 1; funext i; simp)

theorem zeroed_cc (a : Arr) : a.cc.zeroed = a.zeroed.cc := by
  cases a <;> simp [Arr.cc, Arr.zeroed] <;> rfl

theorem matchAllArray_cc {p p' : Par} (hp : SameEw p p') (C : Dict String Arr) :
    matchAllArray (conjArrs C) p' = (matchAllArray C p).map conjArrs := by
  unfold matchAllArray
  have h0 : Dict.mapVals Arr.zeroed (conjArrs C) = conjArrs (Dict.mapVals Arr.zeroed C) := by
    simp only [conjArrs, Dict.mapVals, List.map_map]
    refine List.map_congr_left fun q _ => ?_
    simp only [Function.comp_def, zeroed_cc]
  dsimp only
  rw [h0, checkArrays_cc, srcOf_cc, srcOf_cc, ewOf_cc hp, ewOf_cc hp]
  refine bind_map_same fun _ => bind_map_same fun w => bind_map_same fun w0 => ?_
  refine congrArg Except.ok ?_
  simp only [conjArrs, Dict.mapVals, List.map_map]
  refine List.map_congr_left fun r hr => ?_
  simp only [Function.comp_def, rules_cc _ _ r hr, arrSub_cc]

theorem rotateRule_cc (V : M3) (k : String) (T : Ix4 → ℂ) : rotateRule (conj V) k (ccF T) = ccF (rotateRule V k T) := by
  unfold rotateRule
  split_ifs <;>
    first
    | rfl
    | (funext ⟨a, b, c, d⟩
       simp only [ccF, conj, Matrix.map_apply, map_sum, map_mul])

theorem rotateDown_cc {ckm : ℝ → ℝ → ℝ → ℝ → M3} (hc : PhaseOnly ckm) {default : Par} {par par' : Option Par}
    (hf : FlipsPhase default par par') (C : Dict String Arr) :
    rotateDown ckm (conjArrs C) (withPar default par') = (rotateDown ckm C (withPar default par)).map conjArrs := by
  unfold rotateDown
  rw [ckmOf_cc hc hf]
  refine bind_map_of fun V => ?_
  refine congrArg Except.ok ?_
  simp only [conjArrs, Dict.mapVals, List.map_map]
  refine List.map_congr_left fun kv _ => ?_
  obtain ⟨k, a⟩ := kv
  simp only [Function.comp_def]
  cases a with
  | ten T => simp only [arrTen_cc, rotateRule_cc]
  | num x => rfl
  | one x => rfl
  | mat x => rfl

theorem addMissing_cc (C : Dict String Arr) : addMissing (conjArrs C) = conjArrs (addMissing C) := by
  unfold addMissing
  simp only [conjArrs, has_mapVals]
  simp only [Dict.mapVals, List.map_append, List.map_map, Function.comp_def, zeros_cc]

theorem matchAll_cc {ckm : ℝ → ℝ → ℝ → ℝ → M3} (hc : PhaseOnly ckm) (L : List String) {default : Par} {par par' : Option Par}
    (hf : FlipsPhase default par par') (C : Dict String ℂ) :
    matchAll ckm L default (conjValues C) par' = (matchAll ckm L default C par).map conjValues := by
  unfold matchAll
  dsimp only
  rw [wcxf2arrays_cc]
  refine bind_map_of fun A => ?_
  rw [symmetrize_cc]
  refine bind_map_of fun A => ?_
  have hv : (Arr.num 246.22).cc = Arr.num 246.22 := by
    simp only [Arr.cc]
    congr 1
    rw [show (246.22 : ℂ) = ((246.22 : ℝ) : ℂ) by norm_num]
    exact Complex.conj_ofReal _
  have hput : Dict.put (addMissing (conjArrs A)) "vT" (Arr.num 246.22) = conjArrs (Dict.put (addMissing A) "vT" (Arr.num 246.22)) := by
    rw [addMissing_cc]
    conv_lhs => rw [← hv]
    exact put_mapVals _ _ _ _
  rw [hput, matchAllArray_cc (p := withPar default par)]
  · refine bind_map_of fun CW => ?_
    rw [rotateDown_cc hc hf]
    refine bind_map_of fun CW => ?_
    rw [arrays2wcxf_cc, filt_cc]; rfl
  · intro k hk
    refine get_flip hf ?_
    rintro rfl
    revert hk
    decide

end Verif
