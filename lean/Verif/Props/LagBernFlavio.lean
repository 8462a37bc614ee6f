import Verif.Lemmas.LagBernFlavio
import Verif.Props.LagFlavio
import Verif.Props.WetRound

/-! C89: `Bern_to_flavio` and `flavio_to_Bern` preserve the Lagrangian, except for the tensor operators that the flavio basis
lacks and for the operators `s -> d nu nu` that `flavio_to_Bern` ignores. -/

set_option autoImplicit false

namespace Verif

open Spec

section

variable {E : WEnv} {P : PEnv} {scale : ℝ} {par : Option (Dict String ℝ)} {C D : Dict String ℂ}

/-- Difference of two Lagrangians. -/
theorem adj_minus (S T : Four) : Four.adj (fun p q r s => S p q r s - T p q r s) = fun p q r s => S.adj p q r s - T.adj p q r s := by
  funext p q r s
  simp only [Four.adj, map_sub, mul_sub, Finset.sum_sub_distrib]

theorem anti_minus (S T : Four) (p q r s : Leg) :
    Four.anti (fun p q r s => S p q r s - T p q r s) p q r s = S.anti p q r s - T.anti p q r s := by
  simp only [Four.anti]; ring

/-- **C89**: the Lagrangian of a set of Bern coefficients is the Lagrangian of the coefficients returned by `Bern_to_flavio` plus
the tensor operators of `b -> s l l'` and `b -> d l l'`; for every process of the flavio basis and every spin and colour. -/
theorem C89_lagrangian (hp : penv E scale par = .ok P) (hP : Admissible P) (hB : ∀ k ∈ bernNames, k ∈ E.bern)
    (hD : bernToFlavio E C scale par = .ok D) {p q r s : Leg}
    (h : NCovered (flavioSectors P.p.GF P.p.alpha_e P.p.m_b P.V) p q r s) :
    (bernLag P.p.GF fun k => Dict.getD C k 0).anti p q r s =
      (nLag (flavioSectors P.p.GF P.p.alpha_e P.p.m_b P.V) fun k => Dict.getD D k 0).anti p q r s +
      (nLag (tensorSectors P.p.GF) fun k => Dict.getD C k 0).anti p q r s := by
  rw [bernToFlavio_closed hp hP hB C] at hD
  injection hD with hD
  have hc : ∀ k, Dict.getD D k 0 = ((4 * P.p.GF / Real.sqrt 2 : ℝ) : ℂ) * bat (sval C) (blkBernFlavio P).flatten k := fun k => by
    rw [← hD]
    have := bat_divideBy (sval C) (prefBernv P) (blkBernFlavio P).flatten k
    rw [bat] at this
    rw [this, div_eq_mul_inv, mul_comm]
    congr 1
    rw [← Complex.ofReal_inv]
    congr 1
    have := hP.GF
    have h2 := sqrt2_ne
    unfold prefBernv
    field_simp
  rw [← sub_eq_iff_eq_add, ← anti_minus]
  refine nCovered_ext (by rw [adj_minus, bernLag_adj, nLag_adj]) (fun {p q r s} h => ?_) h
  rw [flavioKeys_eq] at h
  rw [anti_minus, nLag_anti _ (by rw [tensorKeys_eq]; exact tensorKeys_conj _ h),
    nLag_anti _ (by rw [flavioKeys_eq]; exact flavioKeys_conj _ h), bernLag_anti _ _ (flavioKeys_bern _ h), sub_eq_iff_eq_add,
    nSum_smul _ _ _ _ hc]
  refine (bern_flavio_direct hP (sval C) h).trans (congrArg₂ _ ?_ rfl)
  simp only [Four.anti]
  ring

/-- **C89**: the same for the electromagnetic and chromomagnetic dipole operators of `b -> s` and `b -> d`. -/
theorem C89_dipoles (hp : penv E scale par = .ok P) (hP : Admissible P) (hB : ∀ k ∈ bernNames, k ∈ E.bern)
    (hD : bernToFlavio E C scale par = .ok D) (x : Fin 3 × Fin 3) (hx : x ∈ [((1, 2) : Fin 3 × Fin 3), (0, 2)]) (X : Boson) (A : Chir) :
    bernDipole P.p.GF P.p.alpha_e P.p.alpha_s P.p.m_b (fun k => Dict.getD C k 0) X A x.1 x.2 =
      flavioDipole P.p.GF P.p.alpha_e P.p.alpha_s P.p.m_b P.V (fun k => Dict.getD D k 0) X A x := by
  rw [bernToFlavio_closed hp hP hB C] at hD
  injection hD with hD
  have hc : ∀ k, Dict.getD D k 0 = bat (sval C) (blkBernFlavio P).flatten k / prefBernv P := fun k => by
    rw [← hD]; exact bat_divideBy (sval C) (prefBernv P) (blkBernFlavio P).flatten k
  obtain ⟨F, hF, hW⟩ := btable_chrom hP (sval C) x hx
  simp only [scaleBy, bernFierzChromTable, fierzFlavioChromTable, List.map_cons, List.map_nil, List.forall_mem_cons, Ex.val_mul,
    Ex.val_div, Ex.val_src] at hF hW
  obtain ⟨F7, F8, G7, G8, -⟩ := hF
  obtain ⟨W7, W8, V7, V8, -⟩ := hW
  have h0 := hP.GF
  have h1 := ev_ne hP
  have h2 := gv_ne hP
  have h3 := hP.m_b
  have hpi := Real.pi_ne_zero
  have h4 := sqrt2_ne
  have e7 := normXi hP (x := x) (ev P / (16 * Real.pi ^ 2) * P.p.m_b) (k7v P) (by unfold k7v; field_simp)
  have e8 := normXi hP (x := x) (gv P / (16 * Real.pi ^ 2) * P.p.m_b) (k7gv P) (by unfold k7gv; field_simp)
  have n7 : ((4 * P.p.GF / Real.sqrt 2 * (ev P / gv P ^ 2 * P.p.m_b) : ℝ) : ℂ) = ((kgv P : ℂ))⁻¹ * ((prefBernv P : ℂ))⁻¹ := by
    rw [← Complex.ofReal_inv, ← Complex.ofReal_inv, ← Complex.ofReal_mul]
    congr 1
    unfold prefBernv kgv
    field_simp
  have n8 : ((4 * P.p.GF / Real.sqrt 2 * (1 / gv P * P.p.m_b) : ℝ) : ℂ) = ((kgsv P : ℂ))⁻¹ * ((prefBernv P : ℂ))⁻¹ := by
    rw [← Complex.ofReal_inv, ← Complex.ofReal_inv, ← Complex.ofReal_mul]
    congr 1
    unfold prefBernv kgsv
    field_simp
  simp only [ev, gv] at e7 e8 n7 n8
  cases X <;> cases A <;> simp only [bernDipole, flavioDipole, hc]
  · rw [V7, G7, n7]; simp only [sval]
    linear_combination (-(Dict.getD C ("7pgamma" ++ (qname (.d, x.1) ++ qname (.d, x.2))) 0) * (kgv P : ℂ)⁻¹ * (prefBernv P : ℂ)⁻¹) * e7
  · rw [W7, F7, n7]; simp only [sval]
    linear_combination (-(Dict.getD C ("7gamma" ++ (qname (.d, x.1) ++ qname (.d, x.2))) 0) * (kgv P : ℂ)⁻¹ * (prefBernv P : ℂ)⁻¹) * e7
  · rw [V8, G8, n8]; simp only [sval]
    linear_combination (-(Dict.getD C ("8pg" ++ (qname (.d, x.1) ++ qname (.d, x.2))) 0) * (kgsv P : ℂ)⁻¹ * (prefBernv P : ℂ)⁻¹) * e8
  · rw [W8, F8, n8]; simp only [sval]
    linear_combination (-(Dict.getD C ("8g" ++ (qname (.d, x.1) ++ qname (.d, x.2))) 0) * (kgsv P : ℂ)⁻¹ * (prefBernv P : ℂ)⁻¹) * e8

/-- **C89**: the coefficients returned by `flavio_to_Bern` describe the same Lagrangian as the flavio coefficients they are computed
from, without those of `s -> d nu nu`. -/
theorem C89_back (hp : penv E scale par = .ok P) (hP : Admissible P) (hF : ∀ k ∈ flavioNames, k ∈ E.flavio)
    (hB : ∀ k ∈ bernNames, k ∈ E.bern) (hD : flavioToBern E C scale par = .ok D) {p q r s : Leg}
    (h : NCovered (flavioSectors P.p.GF P.p.alpha_e P.p.m_b P.V) p q r s) :
    (nLag (flavioSectors P.p.GF P.p.alpha_e P.p.m_b P.V) fun k => if k ∈ flavioNames then Dict.getD C k 0 else 0).anti p q r s =
      (bernLag P.p.GF fun k => Dict.getD D k 0).anti p q r s := by
  obtain ⟨d, h1, h2, h3⟩ := C41_partial hp hP hF hB hD (fun _ => rfl)
  rw [C89_lagrangian hp hP hB h1 h]
  have e : (fun k => if k ∈ flavioNames then Dict.getD C k 0 else 0) = fun k => Dict.getD d k 0 := by
    funext k
    split
    · next hk => exact (h2 k hk).symm
    · next hk => exact (h3 k hk).symm
  rw [flavioToBern_closed hp hP hF C] at hD
  injection hD with hD
  have z := tensor_none P.p.GF (c := fun k => Dict.getD D k 0) fun x hx l n => by
    have hc : ∀ k, Dict.getD D k 0 = (prefBernv P : ℂ) * bat (sval C) (blkFlavioBern P).flatten k := fun k => by
      rw [← hD]; exact bat_scaleBy (sval C) (prefBernv P) (blkFlavioBern P).flatten k
    obtain ⟨e1, e2⟩ := ftable_tensor hP (sval C) x hx l n
    simp only [hc, e1, e2]
    exact ⟨by ring, by ring⟩
  rw [e, z]
  simp [Four.anti]

/-- **C89**: the same for the dipole operators. -/
theorem C89_dipoles_back (hp : penv E scale par = .ok P) (hP : Admissible P) (hF : ∀ k ∈ flavioNames, k ∈ E.flavio)
    (hB : ∀ k ∈ bernNames, k ∈ E.bern) (hD : flavioToBern E C scale par = .ok D) (x : Fin 3 × Fin 3)
    (hx : x ∈ [((1, 2) : Fin 3 × Fin 3), (0, 2)]) (X : Boson) (A : Chir) :
    flavioDipole P.p.GF P.p.alpha_e P.p.alpha_s P.p.m_b P.V (fun k => Dict.getD C k 0) X A x =
      bernDipole P.p.GF P.p.alpha_e P.p.alpha_s P.p.m_b (fun k => Dict.getD D k 0) X A x.1 x.2 := by
  obtain ⟨d, h1, h2, -⟩ := C41_partial hp hP hF hB hD (fun _ => rfl)
  rw [C89_dipoles hp hP hB h1 x hx]
  have hk : ∀ x ∈ [((1, 2) : Fin 3 × Fin 3), (0, 2)], ∀ k ∈ ["C7_", "C7p_", "C8_", "C8p_"],
      k ++ (qname (.d, x.2) ++ qname (.d, x.1)) ∈ flavioNames := by decide +kernel
  cases X <;> cases A <;> simp only [flavioDipole] <;> rw [h2 _ (hk x hx _ (by simp))]

end

/-! Non-trivial instances: a vector operator of `b -> s mu mu` keeps its component, a tensor operator is lost. -/

theorem getD_single (k x : String) (z : ℂ) : Dict.getD [(k, z)] x 0 = if k = x then z else 0 := by
  unfold Dict.getD Dict.find
  split
  · rfl
  · rfl

/-- The muon operators of `b -> s` with one coefficient. -/
theorem exBern_anti (k : String) (z : ℂ) (GF : ℝ) (a b c d : Fin 4) :
    (bernLag GF fun x => Dict.getD [(k, z)] x 0).anti ⟨.d, 1, a, 0⟩ ⟨.d, 2, b, 0⟩ ⟨.e, 1, c, 0⟩ ⟨.e, 1, d, 0⟩ =
      ((4 * GF / Real.sqrt 2 : ℝ) : ℂ) * ((opsOdd .L .R .R .L).map fun o => (if k = o.pre ++ "sbmumu" then z else 0) *
        (o.dirs.map fun D => D.val a b c d).sum * o.col.val 0 0 0 0).sum := by
  have hk : fl4 ⟨.d, 1, a, 0⟩ ⟨.d, 2, b, 0⟩ ⟨.e, 1, c, 0⟩ ⟨.e, 1, d, 0⟩ = (sector (opsOdd .L .R .R .L) (.d, 1) (.d, 2) (.e, 1) (.e, 1)).key := rfl
  have hb : sector (opsOdd .L .R .R .L) (.d, 1) (.d, 2) (.e, 1) (.e, 1) ∈ bernSectors := by
    rw [bernSectors_eq]; simp only [List.mem_append, List.mem_map, List.mem_flatMap]
    exact Or.inr ⟨(1, 2), by simp [ddPairs], 1, by simp, 1, by simp, by simp⟩
  have hs : ∀ f ∈ [perm2, perm3, perm4], f ((.d, 1), (.d, 2), (.e, 1), (.e, 1)) ∉ sectorKeys := by decide +kernel
  rw [bernLag_anti _ _ (List.mem_map.2 ⟨_, hb, hk.symm⟩), secSum_anti hb _ hk (hs _ (by simp)) (hs _ (by simp)) (hs _ (by simp))]
  have e : (sector (opsOdd .L .R .R .L) (.d, 1) (.d, 2) (.e, 1) (.e, 1)).suffix = "sbmumu" := by decide +kernel
  simp only [Sector.val, e, getD_single]
  rfl

theorem exCovered (GF alpha mb : ℝ) (V : M3) (a b c d : Fin 4) :
    NCovered (flavioSectors GF alpha mb V) ⟨.d, 1, a, 0⟩ ⟨.d, 2, b, 0⟩ ⟨.e, 1, c, 0⟩ ⟨.e, 1, d, 0⟩ := by
  have hk : (((.d, 1), (.d, 2), (.e, 1), (.e, 1)) : F4) ∈ flavioKeys := by decide +kernel
  rw [← flavioKeys_eq GF alpha mb V] at hk
  obtain ⟨x, hx, e⟩ := List.mem_map.1 hk
  simp only [NSector.key, Prod.mk.injEq] at e
  obtain ⟨e1, e2, e3, e4⟩ := e
  exact ⟨x, hx, Or.inl ⟨Or.inl ⟨e1.symm, e3.symm⟩, Or.inl ⟨e2.symm, e4.symm⟩⟩⟩

/-- The tensor operators of `b -> s mu mu` with one coefficient. -/
theorem exTensor_anti (k : String) (z : ℂ) (GF : ℝ) (a b c d : Fin 4) :
    (nLag (tensorSectors GF) fun x => Dict.getD [(k, z)] x 0).anti ⟨.d, 1, a, 0⟩ ⟨.d, 2, b, 0⟩ ⟨.e, 1, c, 0⟩ ⟨.e, 1, d, 0⟩ =
      ((tensorOps ((4 * GF / Real.sqrt 2 : ℝ) : ℂ) "sbmumu").map fun o => o.norm * (if k = o.name then z else 0) *
        (o.dirs.map fun D => (D.1 : ℂ) * D.2.val a b c d).sum).sum * Col.one.val 0 0 0 0 := by
  have hk : fl4 ⟨.d, 1, a, 0⟩ ⟨.d, 2, b, 0⟩ ⟨.e, 1, c, 0⟩ ⟨.e, 1, d, 0⟩ = ((.d, 1), (.d, 2), (.e, 1), (.e, 1)) := rfl
  have e : qname (.d, 1) ++ (qname (.d, 2) ++ (qname (.e, 1) ++ qname (.e, 1))) = "sbmumu" := by decide +kernel
  have hb : NSector.mk (.d, 1) (.d, 2) (.e, 1) (.e, 1) (tensorOps ((4 * GF / Real.sqrt 2 : ℝ) : ℂ) "sbmumu") ∈ tensorSectors GF := by
    unfold tensorSectors
    simp only [List.mem_map, List.mem_flatMap]
    exact ⟨(1, 2), by simp, 1, by simp, 1, by simp, by rw [e]⟩
  have hc : ∀ k' ∈ conjs ((.d, 1), (.d, 2), (.e, 1), (.e, 1)), k' ∉ tensorKeys := by decide +kernel
  have hs : ∀ f ∈ [perm2, perm3, perm4], f ((.d, 1), (.d, 2), (.e, 1), (.e, 1)) ∉ tensorKeys := by decide +kernel
  rw [nLag_anti _ (by rw [tensorKeys_eq]; exact hc), nSum_anti (by rw [tensorKeys_eq]; exact tensorKeys_nodup) hb _ hk
    (by rw [tensorKeys_eq]; exact hs)]
  simp only [NSector.val, getD_single]

theorem col_000 : Col.one.val 0 0 0 0 = 1 := by simp [Col.val]

/-- Components of Dirac structures. -/
theorem exDirs : (Dir.g 1 .L .L).ent 2 0 3 1 = 2 ∧ (Dir.g 1 .L .R).ent 2 0 3 1 = 0 ∧ (Dir.sg .R .R).ent 2 2 2 2 ≠ 0 := by decide +kernel

example : ∃ D, bernToFlavio exEnv [("1sbmumu", 3 * Complex.I)] 160 none = .ok D ∧
    (nLag (flavioSectors exP.p.GF exP.p.alpha_e exP.p.m_b exP.V) fun k => Dict.getD D k 0).anti
      ⟨.d, 1, 2, 0⟩ ⟨.d, 2, 0, 0⟩ ⟨.e, 1, 3, 0⟩ ⟨.e, 1, 1, 0⟩ = ((4 * exP.p.GF / Real.sqrt 2 : ℝ) : ℂ) * (6 * Complex.I) := by
  have h := bernToFlavio_closed exEnv_ok exP_admissible (fun k hk => hk) [("1sbmumu", 3 * Complex.I)]
  refine ⟨_, h, ?_⟩
  have := C89_lagrangian exEnv_ok exP_admissible (fun k hk => hk) h (exCovered _ _ _ _ 2 0 3 1)
  rw [exBern_anti, exTensor_anti] at this
  have n : ∀ o ∈ ["3", "5", "7", "9", "1p", "3p", "5p", "7p", "9p"], "1sbmumu" ≠ o ++ "sbmumu" := by decide +kernel
  have y : "1sbmumu" = "1" ++ "sbmumu" := by decide +kernel
  have t1 : (Dir.g 1 .L .L).val 2 0 3 1 = 2 := by rw [Dir.val, exDirs.1, map_ofNat]
  have t2 : (Dir.g 1 .L .R).val 2 0 3 1 = 0 := by rw [Dir.val, exDirs.2.1, map_zero]
  simp only [opsOdd, tensorOps, List.map_cons, List.map_nil, List.sum_cons, List.sum_nil, if_pos y, if_neg (n "3" (by simp)),
    if_neg (n "5" (by simp)), if_neg (n "7" (by simp)), if_neg (n "9" (by simp)), if_neg (n "1p" (by simp)), if_neg (n "3p" (by simp)),
    if_neg (n "5p" (by simp)), if_neg (n "7p" (by simp)), if_neg (n "9p" (by simp)), t1, t2, col_000] at this
  simp only [zero_mul, mul_zero, add_zero, mul_one] at this
  rw [← this]
  ring

/-- The muon operators of `b -> s` in the flavio basis with one coefficient. -/
theorem exFlavio_anti (z : ℂ) (GF alpha mb : ℝ) (V : M3) :
    (nLag (flavioSectors GF alpha mb V) fun x => if x ∈ flavioNames then Dict.getD [("C9_bsmumu", z)] x 0 else 0).anti
      ⟨.d, 1, 2, 0⟩ ⟨.d, 2, 0, 0⟩ ⟨.e, 1, 3, 0⟩ ⟨.e, 1, 1, 0⟩ = normLoop GF alpha V (1, 2) * (2 * z) := by
  have hk : fl4 ⟨.d, 1, 2, 0⟩ ⟨.d, 2, 0, 0⟩ ⟨.e, 1, 3, 0⟩ ⟨.e, 1, 1, 0⟩ = ((.d, 1), (.d, 2), (.e, 1), (.e, 1)) := rfl
  have e : qname (.d, 2) ++ (qname (.d, 1) ++ (qname (.e, 1) ++ qname (.e, 1))) = "bsmumu" := by decide +kernel
  have hb : NSector.mk (.d, 1) (.d, 2) (.e, 1) (.e, 1) (flavioLep (normLoop GF alpha V (1, 2)) mb "bsmumu") ∈ flavioSectors GF alpha mb V := by
    unfold flavioSectors
    simp only [List.mem_append, List.mem_map, List.mem_flatMap]
    exact Or.inl (Or.inr ⟨(1, 2), by simp, 1, by simp, 1, by simp, by rw [e]⟩)
  have hm : ((.d, 1), (.d, 2), (.e, 1), (.e, 1)) ∈ flavioKeys := by decide +kernel
  have hs : ∀ f ∈ [perm2, perm3, perm4], f ((.d, 1), (.d, 2), (.e, 1), (.e, 1)) ∉ flavioKeys := by decide +kernel
  rw [nLag_anti _ (by rw [flavioKeys_eq]; exact flavioKeys_conj _ hm), nSum_anti (by rw [flavioKeys_eq]; exact flavioKeys_nodup) hb _ hk
    (by rw [flavioKeys_eq]; exact hs)]
  have n : ∀ o ∈ ["C9p_", "C10_", "C10p_", "CS_", "CSp_", "CP_", "CPp_"], "C9_bsmumu" ≠ o ++ "bsmumu" := by decide +kernel
  have y : "C9_bsmumu" = "C9_" ++ "bsmumu" := by decide +kernel
  have hf : "C9_" ++ "bsmumu" ∈ flavioNames := by decide +kernel
  have t1 : (Dir.g 1 .L .L).val 2 0 3 1 = 2 := by rw [Dir.val, exDirs.1, map_ofNat]
  have t2 : (Dir.g 1 .L .R).val 2 0 3 1 = 0 := by rw [Dir.val, exDirs.2.1, map_zero]
  simp only [NSector.val, getD_single, flavioLep, List.map_cons, List.map_nil, List.sum_cons, List.sum_nil, if_pos y,
    if_neg (n "C9p_" (by simp)), if_neg (n "C10_" (by simp)), if_neg (n "C10p_" (by simp)), if_neg (n "CS_" (by simp)),
    if_neg (n "CSp_" (by simp)), if_neg (n "CP_" (by simp)), if_neg (n "CPp_" (by simp)), if_pos hf, ite_self, t1, t2, col_000]
  push_cast
  ring

example : ∃ D, flavioToBern exEnv [("C9_bsmumu", 3 * Complex.I)] 160 none = .ok D ∧
    (bernLag exP.p.GF fun k => Dict.getD D k 0).anti ⟨.d, 1, 2, 0⟩ ⟨.d, 2, 0, 0⟩ ⟨.e, 1, 3, 0⟩ ⟨.e, 1, 1, 0⟩ =
      normLoop exP.p.GF exP.p.alpha_e exP.V (1, 2) * (2 * (3 * Complex.I)) := by
  have h := flavioToBern_closed exEnv_ok exP_admissible (fun k hk => hk) [("C9_bsmumu", 3 * Complex.I)]
  exact ⟨_, h, by rw [← C89_back exEnv_ok exP_admissible (fun k hk => hk) (fun k hk => hk) h (exCovered _ _ _ _ 2 0 3 1), exFlavio_anti]⟩

/-- **C89**, refuted without the exception: a tensor coefficient of the Bern basis has no counterpart. -/
theorem C89_refuted : ¬ ∀ (E : WEnv) (P : PEnv) (scale : ℝ) (par : Option (Dict String ℝ)) (C D : Dict String ℂ),
    penv E scale par = .ok P → Admissible P → (∀ k ∈ bernNames, k ∈ E.bern) → (∀ k ∈ Dict.keys C, k ∈ bernNames) →
    bernToFlavio E C scale par = .ok D → ∀ p q r s : Leg, NCovered (flavioSectors P.p.GF P.p.alpha_e P.p.m_b P.V) p q r s →
    (bernLag P.p.GF fun k => Dict.getD C k 0).anti p q r s =
      (nLag (flavioSectors P.p.GF P.p.alpha_e P.p.m_b P.V) fun k => Dict.getD D k 0).anti p q r s := by
  intro H
  have h := bernToFlavio_closed exEnv_ok exP_admissible (fun k hk => hk) [("7sbmumu", 1)]
  have hm : "7sbmumu" ∈ bernNames := by decide +kernel
  have h1 := H exEnv exP 160 none _ _ exEnv_ok exP_admissible (fun k hk => hk) (by
    intro k hk
    simp only [Dict.keys, List.map_cons, List.map_nil, List.mem_cons, List.not_mem_nil, or_false] at hk
    rw [hk]; exact hm) h _ _ _ _ (exCovered _ _ _ _ 2 2 2 2)
  rw [C89_lagrangian exEnv_ok exP_admissible (fun k hk => hk) h (exCovered _ _ _ _ 2 2 2 2), add_eq_left, exTensor_anti] at h1
  have n : ∀ o ∈ ["9", "7p", "9p"], "7sbmumu" ≠ o ++ "sbmumu" := by decide +kernel
  have y : "7sbmumu" = "7" ++ "sbmumu" := by decide +kernel
  have t : (Dir.sg .R .R).val 2 2 2 2 ≠ 0 := by
    rw [Dir.val, Ne, GaussianInt.toComplex_eq_zero]; exact exDirs.2.2
  have g : ((4 * exP.p.GF / Real.sqrt 2 : ℝ) : ℂ) ≠ 0 := by
    rw [Ne, Complex.ofReal_eq_zero]
    exact div_ne_zero (mul_ne_zero (by norm_num) exP_admissible.GF) sqrt2_ne
  simp only [tensorOps, List.map_cons, List.map_nil, List.sum_cons, List.sum_nil, if_pos y, if_neg (n "9" (by simp)),
    if_neg (n "7p" (by simp)), if_neg (n "9p" (by simp)), col_000] at h1
  simp [t, exP_admissible.GF] at h1

end Verif
