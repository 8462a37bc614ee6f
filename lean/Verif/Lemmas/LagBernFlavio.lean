import Verif.Lemmas.LagFlavio
import Verif.Spec.LagTensor

/-! `Bern_to_flavio` preserves the Lagrangian: tables and operator identities. -/

set_option autoImplicit false
set_option linter.unusedSimpArgs false

namespace Verif

open Spec

/-! ### Tables -/

section

variable {P : PEnv} (hP : Admissible P) (W : String → ℂ)

include hP

theorem blkBernFlavio_nodup : (bkeys (blkBernFlavio P).flatten).Nodup := by rw [bkeys_blkBernFlavio hP]; exact keysFlavio_nodup

theorem btable_I : ∀ x ∈ ddPairs,
    ∀ p ∈ bernFlavioITable (qname (.d, x.1) ++ qname (.d, x.2)) (qname (.d, x.2) ++ qname (.d, x.1)),
      bat W (blkBernFlavio P).flatten p.1 = p.2.val W := by
  intro x hx
  have h : ∀ x ∈ ddPairs, qname (.d, x.1) ++ qname (.d, x.2) ∈ ["sb", "db", "ds"] ∧
      pyRev (qname (.d, x.1) ++ qname (.d, x.2)) = qname (.d, x.2) ++ qname (.d, x.1) := by decide +kernel
  obtain ⟨h1, h4⟩ := h x hx
  have e' := bernFlavioI_eq h1
  rw [h4] at e'
  refine bat_in (blkBernFlavio_nodup hP) W ?_
  have : okOr (bernFlavioI (qname (.d, x.1) ++ qname (.d, x.2))) ∈ blkBernFlavio P := by
    unfold blkBernFlavio
    simp only [List.mem_append, List.mem_map]
    exact Or.inl (Or.inl (Or.inl ⟨_, h1, rfl⟩))
  rw [e'] at this; exact this

theorem btable_II : ∀ u ∈ [0, 1], ∀ d l n : Fin 3,
    ∀ p ∈ scaleBy (prefIIv P u d) (bernFlavioIITable (suf (.u, u) (.d, d) (.e, l) (.nu, n))
      (qname (.d, d) ++ (qname (.u, u) ++ (qname (.e, l) ++ ("nu" ++ qname (.nu, n)))))),
      bat W (blkBernFlavio P).flatten p.1 = p.2.val W := by
  intro u hu d l n
  have h : ∀ u ∈ [(0 : Fin 3), 1], ∀ d l n : Fin 3,
      let x := nameLep (qname (.u, u) ++ qname (.d, d)) (qname (.e, l), qname (.nu, n))
      x ∈ namesII ∧ indII x = suf (.u, u) (.d, d) (.e, l) (.nu, n) ∧ flavII x = .ok (u, d, l, n) ∧
      indIIfl x = qname (.d, d) ++ (qname (.u, u) ++ (qname (.e, l) ++ ("nu" ++ qname (.nu, n)))) := by decide +kernel
  obtain ⟨h1, h2, h3, h4⟩ := h u hu d l n
  have e' := bernFlavioII_eq hP h3
  rw [h2, h4] at e'
  refine bat_in (blkBernFlavio_nodup hP) W ?_
  have : okOr (bernFlavioII P (nameLep (qname (.u, u) ++ qname (.d, d)) (qname (.e, l), qname (.nu, n)))) ∈ blkBernFlavio P := by
    unfold blkBernFlavio
    simp only [List.mem_append, List.mem_map]
    exact Or.inl (Or.inl (Or.inr ⟨_, h1, rfl⟩))
  rw [e'] at this; exact this

/-- Neutrinos for all quark flavours; charged leptons except for `d -> s`. -/
theorem btable_lep : ∀ x ∈ ddPairs, ∀ l n : Fin 3, ∃ F : String → ℂ,
    (∀ p ∈ bernFierzLepTable (suf (.d, x.1) (.d, x.2) (.e, l) (.e, n)), F p.1 = p.2.val W) ∧
    (∀ p ∈ scaleBy (prefXiv P (ckmTop P.V x)) (fierzFlavioNuTable (suf (.d, x.1) (.d, x.2) (.e, l) (.e, n))
      (qname (.d, x.2) ++ (qname (.d, x.1) ++ ("nu" ++ (qname (.nu, l) ++ ("nu" ++ qname (.nu, n)))))) (k8v P)),
      bat W (blkBernFlavio P).flatten p.1 = p.2.val F) ∧
    (x ≠ (0, 1) → ∀ p ∈ scaleBy (prefXiv P (ckmTop P.V x)) (fierzFlavioLepTable (suf (.d, x.1) (.d, x.2) (.e, l) (.e, n))
      (qname (.d, x.2) ++ (qname (.d, x.1) ++ (qname (.e, l) ++ qname (.e, n)))) (k16v P) (kSv P)),
      bat W (blkBernFlavio P).flatten p.1 = p.2.val F) := by
  intro x hx l n
  obtain ⟨h1, h2, h3, h4, h5, h6, h7, h8, h9⟩ := lep_names x hx l n
  have hm := mem_namesLep (qname (.d, x.1) ++ qname (.d, x.2)) h1
  obtain ⟨e1, e2⟩ := fierzFlavioLep_eq hP h2 hm
  generalize hy : nameLep (qname (.d, x.1) ++ qname (.d, x.2)) (qname (.e, l), qname (.e, n)) = y at *
  rw [xiv_eq x hx, h3, h9] at e1 e2
  rw [h8] at e1
  have ej : bernFierzLep y = .ok (bernFierzLepTable (suf (.d, x.1) (.d, x.2) (.e, l) (.e, n))) := by
    unfold bernFierzLep
    rw [h3]
  by_cases hx' : x = (0, 1)
  · have : comp (okOr (bernFierzLep y)) (okOr (fierzFlavioLep P y false)) ∈ blkBernFlavio P := by
      unfold blkBernFlavio
      simp only [List.mem_append, List.mem_flatMap]
      refine Or.inl (Or.inr ⟨_, h1, ?_⟩)
      have h : qname (.d, x.1) ++ qname (.d, x.2) = "ds" := by rw [hx']; decide +kernel
      rw [← hy, h]
      simp
    rw [ej, e2] at this
    obtain ⟨F, hF, hW⟩ := bat_in2 (blkBernFlavio_nodup hP) W this (nodup_bernFierzLep _)
    exact ⟨F, hF, hW, fun h => absurd hx' h⟩
  · have : comp (okOr (bernFierzLep y)) (okOr (fierzFlavioLep P y true)) ∈ blkBernFlavio P := by
      unfold blkBernFlavio
      simp only [List.mem_append, List.mem_flatMap]
      refine Or.inl (Or.inr ⟨_, h1, ?_⟩)
      have h : ∀ x ∈ ddPairs, x ≠ (0, 1) → qname (.d, x.1) ++ qname (.d, x.2) = "sb" ∨ qname (.d, x.1) ++ qname (.d, x.2) = "db" := by
        decide +kernel
      rw [← hy]
      rcases h x hx hx' with h | h <;> rw [h] <;> simp
    rw [ej, e1] at this
    obtain ⟨F, hF, hW⟩ := bat_in2 (blkBernFlavio_nodup hP) W this (nodup_bernFierzLep _)
    refine ⟨F, hF, fun p hp => hW p ?_, fun _ p hp => hW p ?_⟩
    · simp only [okOr, scaleBy, List.map_append]; exact List.mem_append_left _ hp
    · simp only [okOr, scaleBy, List.map_append]; exact List.mem_append_right _ hp

theorem btable_chrom : ∀ x ∈ [((1, 2) : Fin 3 × Fin 3), (0, 2)], ∃ F : String → ℂ,
    (∀ p ∈ bernFierzChromTable (qname (.d, x.1) ++ qname (.d, x.2)) (kgv P) (kgsv P), F p.1 = p.2.val W) ∧
    ∀ p ∈ scaleBy (prefXiv P (ckmTop P.V x)) (fierzFlavioChromTable (qname (.d, x.1) ++ qname (.d, x.2))
      (qname (.d, x.2) ++ qname (.d, x.1)) (k7v P) (k7gv P)), bat W (blkBernFlavio P).flatten p.1 = p.2.val F := by
  intro x hx
  have h : ∀ x ∈ [((1, 2) : Fin 3 × Fin 3), (0, 2)], x ∈ ddPairs ∧ qname (.d, x.1) ++ qname (.d, x.2) ∈ ["sb", "db"] ∧
      pyRev (qname (.d, x.1) ++ qname (.d, x.2)) = qname (.d, x.2) ++ qname (.d, x.1) := by decide +kernel
  obtain ⟨h0, h1, h4⟩ := h x hx
  have h1' : qname (.d, x.1) ++ qname (.d, x.2) ∈ ["sb", "db", "ds"] := by
    simp only [List.mem_cons, List.not_mem_nil, or_false] at h1 ⊢
    tauto
  have e := bernFierzChrom_eq hP (qname (.d, x.1) ++ qname (.d, x.2))
  have e' := fierzFlavioChrom_eq hP h1'
  rw [xiv_eq x h0, h4] at e'
  refine bat_in2 (blkBernFlavio_nodup hP) W ?_ (nodup_suffix (L := ["F7gamma", "F8g", "F7pgamma", "F8pg"]) (by decide +kernel) _)
  have : comp (okOr (bernFierzChrom P (qname (.d, x.1) ++ qname (.d, x.2)))) (okOr (fierzFlavioChrom P (qname (.d, x.1) ++ qname (.d, x.2))))
      ∈ blkBernFlavio P := by
    unfold blkBernFlavio
    refine List.mem_append_right _ ?_
    generalize qname (.d, x.1) ++ qname (.d, x.2) = y at h1
    simp only [List.mem_cons, List.not_mem_nil, or_false] at h1
    rcases h1 with rfl | rfl <;> simp
  rw [e, e'] at this
  exact this

end

/-! ### Operators -/

/-- `Delta F = 2`. -/
theorem bblock_I (W c : String → ℂ) (x y : String) (f1 f2 f3 f4 : Kind × Fin 3) (p q r s : Leg)
    (hc : ∀ t ∈ bernFlavioITable x y, c t.1 = t.2.val W) :
    let B := (Sector.mk f1 f2 f3 f4 (x ++ x) opsI).val W
    let X := (NSector.mk f1 f2 f3 f4 (flavioI y)).val c
    B p q r s - B r q p s - B p s r q + B r s p q = X p q r s - X r q p s - X p s r q + X r s p q := by
  obtain ⟨r4, s4, r3, s3, v, vLR, vRL, sLR, sRL, sS, tT⟩ := dirRules p.spin q.spin r.spin s.spin
  have c1 := col_one2 p.col q.col r.col s.col
  have c2 := col_cross2 p.col q.col r.col s.col
  have c3 := col_one3 p.col q.col r.col s.col
  have c4 := col_cross3 p.col q.col r.col s.col
  have c5 := col_one4 p.col q.col r.col s.col
  have c6 := col_cross4 p.col q.col r.col s.col
  simp only [bernFlavioITable, List.forall_mem_cons, Ex.val_add, Ex.val_sub, Ex.val_neg, Ex.val_mul, Ex.val_div, Ex.val_src,
    Ex.val_cj] at hc
  obtain ⟨e1, e2, e3, e4, e5, e6, e7, e8, -⟩ := hc
  simp only [Sector.val, opsI, NSector.val, flavioI, List.map_cons, List.map_nil, List.sum_cons, List.sum_nil, add_zero]
  simp only [r4, s4, r3, s3]
  simp only [v, vLR, vRL, sLR, sRL, sS, tT]
  simp only [c1, c2, c3, c4, c5, c6]
  rw [e1, e2, e3, e4, e5, e6, e7, e8]
  push_cast
  ring

/-- Charged currents. -/
theorem bblock_II (W c : String → ℂ) (N a : ℂ) (hN : N * a = 1) (x y : String) (f1 f2 f3 f4 : Kind × Fin 3) (p q r s : Leg)
    (hc : ∀ t ∈ scaleBy a (bernFlavioIITable x y), c t.1 = t.2.val W) :
    (Sector.mk f1 f2 f3 f4 x opsII).val W p q r s = (NSector.mk f1 f2 f3 f4 (flavioII N y)).val c p q r s := by
  simp only [scaleBy, bernFlavioIITable, List.map_cons, List.map_nil, List.forall_mem_cons, Ex.val_mul, Ex.val_src] at hc
  obtain ⟨e1, e2, e3, e4, e5, -⟩ := hc
  have m : ∀ z, N * (a * z) = z := fun z => by rw [← mul_assoc, hN, one_mul]
  simp only [Sector.val, opsII, NSector.val, flavioII, List.map_cons, List.map_nil, List.sum_cons, List.sum_nil, add_zero]
  rw [e1, e2, e3, e4, e5]
  simp only [m]
  push_cast
  ring

/-- Down quarks and charged leptons. -/
theorem bblock_e (W F c : String → ℂ) (N a : ℂ) (k16 kS mb : ℝ) (hN : N * (a * k16) = 1) (hN' : N * mb * (a * kS) = 1) (x y : String)
    (f1 f2 f3 f4 : Kind × Fin 3) (p q r s : Leg)
    (hF : ∀ t ∈ bernFierzLepTable x, F t.1 = t.2.val W)
    (hc : ∀ t ∈ scaleBy a (fierzFlavioLepTable x y k16 kS), c t.1 = t.2.val F) :
    (Sector.mk f1 f2 f3 f4 x (opsOdd .L .R .R .L)).val W p q r s =
      (NSector.mk f1 f2 f3 f4 (flavioLep N mb y)).val c p q r s +
      (NSector.mk f1 f2 f3 f4 (tensorOps 1 x)).val W p q r s := by
  simp only [bernFierzLepTable, scaleBy, fierzFlavioLepTable, List.map_cons, List.map_nil, List.forall_mem_cons,
    Ex.val_add, Ex.val_sub, Ex.val_neg, Ex.val_mul, Ex.val_div, Ex.val_src, Ex.val_cj] at hF hc
  obtain ⟨F9, F10, FS, FP, FT, FT5, G9, G10, GS, GP, Fn, Gn, -⟩ := hF
  obtain ⟨c9, c9p, c10, c10p, cS, cSp, cP, cPp, -⟩ := hc
  have m : ∀ z, N * (a * (k16 * z)) = z := fun z => by linear_combination z * hN
  have m' : ∀ z, N * mb * (a * (kS * z)) = z := fun z => by linear_combination z * hN'
  simp only [Sector.val, opsOdd, NSector.val, flavioLep, tensorOps, List.map_cons, List.map_nil, List.sum_cons, List.sum_nil, add_zero,
    val3_same, val3_LR, val3_RL, val4_same, val4_LR, val4_RL, val_sg_LR, val_sg_RL, zero_add]
  rw [c9, c9p, c10, c10p, cS, cSp, cP, cPp]
  simp only [m, m']
  rw [F9, F10, FS, FP, G9, G10, GS, GP]
  push_cast
  ring

/-- Down quarks and neutrinos. -/
theorem bblock_nu (W F c : String → ℂ) (N a : ℂ) (k8 : ℝ) (hN : N * 2 * (a * k8) = 1) (x y : String)
    (f1 f2 f3 f4 : Kind × Fin 3) (p q r s : Leg)
    (hF : ∀ t ∈ bernFierzLepTable x, F t.1 = t.2.val W)
    (hc : ∀ t ∈ scaleBy a (fierzFlavioNuTable x y k8), c t.1 = t.2.val F) :
    (Sector.mk f1 f2 f3 f4 x opsNu).val W p q r s = (NSector.mk f1 f2 f3 f4 (flavioNu N y)).val c p q r s := by
  simp only [bernFierzLepTable, scaleBy, fierzFlavioNuTable, List.map_cons, List.map_nil, List.forall_mem_cons,
    Ex.val_add, Ex.val_sub, Ex.val_neg, Ex.val_mul, Ex.val_div, Ex.val_src, Ex.val_cj] at hF hc
  obtain ⟨F9, F10, FS, FP, FT, FT5, G9, G10, GS, GP, Fn, Gn, -⟩ := hF
  obtain ⟨cL, cR, -⟩ := hc
  simp only [Sector.val, opsNu, NSector.val, flavioNu, List.map_cons, List.map_nil, List.sum_cons, List.sum_nil, add_zero]
  rw [cL, cR, Fn, Gn]
  push_cast
  linear_combination (-(W ("nu1" ++ x) * (Dir.g 1 .L .L).val p.spin q.spin r.spin s.spin +
    W ("nu1p" ++ x) * (Dir.g 1 .R .L).val p.spin q.spin r.spin s.spin) * Col.one.val p.col q.col r.col s.col) * hN

/-! ### Sectors -/

/-- Flavours of the tensor operators. -/
def tensorKeys : List F4 :=
  [((1 : Fin 3), (2 : Fin 3)), (0, 2)].flatMap fun x => [0, 1, 2].flatMap fun l => [0, 1, 2].map fun l' => ((.d, x.1), (.d, x.2), (.e, l), (.e, l'))

theorem tensorKeys_eq (GF : ℝ) : (tensorSectors GF).map NSector.key = tensorKeys := by
  unfold tensorSectors tensorKeys
  simp only [List.map_flatMap, List.map_map, Function.comp_def, NSector.key]

theorem tensorKeys_nodup : tensorKeys.Nodup := by decide +kernel

theorem tensorKeys_conj : ∀ k ∈ flavioKeys, ∀ k' ∈ conjs k, k' ∉ tensorKeys := by decide +kernel

theorem flavioKeys_bern : ∀ k ∈ flavioKeys, k ∈ sectorKeys := by decide +kernel

/-- Rescaled coefficients. -/
theorem nSum_smul (l : List NSector) (a : ℂ) (c d : String → ℂ) (h : ∀ k, d k = a * c k) :
    nSum l d = fun p q r s => a * nSum l c p q r s := by
  funext p q r s
  unfold nSum
  rw [← List.sum_map_mul_left]
  congr 1
  refine List.map_congr_left fun x _ => ?_
  unfold NSector.term
  split
  · rw [← mul_assoc]
    congr 1
    rw [← List.sum_map_mul_left]
    congr 1
    refine List.map_congr_left fun o _ => ?_
    rw [h]; ring
  · rw [mul_zero]

/-- The tensor operators without the overall factor. -/
theorem tensor_val (N : ℂ) (W : String → ℂ) (y : String) (f1 f2 f3 f4 : Kind × Fin 3) (p q r s : Leg) :
    (NSector.mk f1 f2 f3 f4 (tensorOps N y)).val W p q r s = N * (NSector.mk f1 f2 f3 f4 (tensorOps 1 y)).val W p q r s := by
  simp only [NSector.val, tensorOps, List.map_cons, List.map_nil, List.sum_cons, List.sum_nil, add_zero]
  ring

theorem tensor_zero (GF : ℝ) (W : String → ℂ) {p q r s : Leg} (h : ∀ f ∈ [id, perm2, perm3, perm4], f (fl4 p q r s) ∉ tensorKeys) :
    (nSum (tensorSectors GF) W).anti p q r s = 0 := by
  rw [← tensorKeys_eq GF] at h
  simp only [List.forall_mem_cons, List.not_mem_nil, false_implies, implies_true, and_true] at h
  obtain ⟨h1, h2, h3, h4⟩ := h
  rw [Four.anti, nSum_not _ W (p := p) (q := q) (r := r) (s := s) h1, nSum_not _ W (p := r) (q := q) (r := p) (s := s) h2,
    nSum_not _ W (p := p) (q := s) (r := r) (s := q) h3, nSum_not _ W (p := r) (q := s) (r := p) (s := q) h4]
  ring

section

variable {P : PEnv} (hP : Admissible P)

include hP

theorem bern_flavio_direct (W : String → ℂ) {p q r s : Leg} (h : fl4 p q r s ∈ flavioKeys) :
    ((4 * P.p.GF / Real.sqrt 2 : ℝ) : ℂ) * (secSum W).anti p q r s =
      ((4 * P.p.GF / Real.sqrt 2 : ℝ) : ℂ) *
        (nSum (flavioSectors P.p.GF P.p.alpha_e P.p.m_b P.V) (bat W (blkBernFlavio P).flatten)).anti p q r s +
      (nSum (tensorSectors P.p.GF) W).anti p q r s := by
  have hn : ((flavioSectors P.p.GF P.p.alpha_e P.p.m_b P.V).map NSector.key).Nodup := by rw [flavioKeys_eq]; exact flavioKeys_nodup
  have ht : ((tensorSectors P.p.GF).map NSector.key).Nodup := by rw [tensorKeys_eq]; exact tensorKeys_nodup
  have hpi := Real.pi_ne_zero
  have hev := ev_ne hP
  have he := sq_ne (ev_ne hP)
  have h0 := hP.m_b
  rw [← flavioKeys_eq P.p.GF P.p.alpha_e P.p.m_b P.V] at h
  obtain ⟨x, hx, hk⟩ := List.mem_map.1 h
  have hx' := hx
  unfold flavioSectors at hx
  simp only [List.mem_append, List.mem_flatMap, List.mem_map] at hx
  rcases hx with ((hx | hx) | hx) | hx
  · obtain ⟨y, hy, rfl⟩ := hx
    have hb : sector opsI (.d, y.1) (.d, y.2) (.d, y.1) (.d, y.2) ∈ bernSectors := by
      rw [bernSectors_eq]; simp only [List.mem_append, List.mem_map]
      exact Or.inl (Or.inl (Or.inl (Or.inl (Or.inl (Or.inl ⟨y, hy, rfl⟩)))))
    have hz : ∀ y ∈ ddPairs, ∀ f ∈ [id, perm2, perm3, perm4], f ((.d, y.1), (.d, y.2), (.d, y.1), (.d, y.2)) ∉ tensorKeys := by
      decide +kernel
    rw [nSum_antiI hn hx' _ hk.symm rfl rfl rfl, secSum_antiI hb _ hk.symm rfl rfl rfl,
      tensor_zero _ _ (by rw [← hk]; exact hz y hy), add_zero]
    have e : (sector opsI (.d, y.1) (.d, y.2) (.d, y.1) (.d, y.2)) = Sector.mk (.d, y.1) (.d, y.2) (.d, y.1) (.d, y.2)
        ((qname (.d, y.1) ++ qname (.d, y.2)) ++ (qname (.d, y.1) ++ qname (.d, y.2))) opsI := by
      simp only [sector, String.append_assoc]
    rw [e, bblock_I W _ _ _ _ _ _ _ p q r s (btable_I hP W y hy)]
  · obtain ⟨u, hu, d, hd, l, hl, n, hn', rfl⟩ := hx
    have hb : sector opsII (.u, u) (.d, d) (.e, l) (.nu, n) ∈ bernSectors := by
      rw [bernSectors_eq]; simp only [List.mem_append, List.mem_map, List.mem_flatMap]
      exact Or.inl (Or.inl (Or.inl (Or.inl (Or.inl (Or.inr ⟨u, hu, d, hd, l, hl, n, hn', rfl⟩)))))
    have hc : ∀ u ∈ [(0 : Fin 3), 1], ∀ d l n : Fin 3, ∀ f ∈ [perm2, perm3, perm4],
        f ((.u, u), (.d, d), (.e, l), (.nu, n)) ∉ flavioKeys := by decide +kernel
    have hs : ∀ u ∈ [(0 : Fin 3), 1], ∀ d l n : Fin 3, ∀ f ∈ [perm2, perm3, perm4],
        f ((.u, u), (.d, d), (.e, l), (.nu, n)) ∉ sectorKeys := by decide +kernel
    have hz : ∀ u ∈ [(0 : Fin 3), 1], ∀ d l n : Fin 3, ∀ f ∈ [id, perm2, perm3, perm4],
        f ((.u, u), (.d, d), (.e, l), (.nu, n)) ∉ tensorKeys := by decide +kernel
    rw [nSum_anti hn hx' _ hk.symm (by rw [flavioKeys_eq]; exact hc u hu d l n),
      secSum_anti hb _ hk.symm (hs u hu d l n _ (by simp)) (hs u hu d l n _ (by simp)) (hs u hu d l n _ (by simp)),
      tensor_zero _ _ (by rw [← hk]; exact hz u hu d l n), add_zero]
    exact congrArg _ (bblock_II W _ _ _ (normII hP u d) _ _ _ _ _ _ p q r s (btable_II hP W u hu d l n))
  · obtain ⟨y, hy, l, hl, n, hn', rfl⟩ := hx
    have hd : ∀ y ∈ [((1, 2) : Fin 3 × Fin 3), (0, 2)], y ∈ ddPairs ∧ y ≠ (0, 1) := by decide +kernel
    obtain ⟨hy', hy1⟩ := hd y hy
    have hb : sector (opsOdd .L .R .R .L) (.d, y.1) (.d, y.2) (.e, l) (.e, n) ∈ bernSectors := by
      rw [bernSectors_eq]; simp only [List.mem_append, List.mem_map, List.mem_flatMap]
      exact Or.inr ⟨y, hy', l, hl, n, hn', by simp⟩
    have htx : NSector.mk (.d, y.1) (.d, y.2) (.e, l) (.e, n) (tensorOps ((4 * P.p.GF / Real.sqrt 2 : ℝ) : ℂ)
        (qname (.d, y.1) ++ (qname (.d, y.2) ++ (qname (.e, l) ++ qname (.e, n))))) ∈ tensorSectors P.p.GF := by
      unfold tensorSectors
      simp only [List.mem_map, List.mem_flatMap]
      exact ⟨y, hy, l, hl, n, hn', rfl⟩
    have hc : ∀ y ∈ ddPairs, ∀ l n : Fin 3, ∀ f ∈ [perm2, perm3, perm4],
        f ((.d, y.1), (.d, y.2), (.e, l), (.e, n)) ∉ flavioKeys := by decide +kernel
    have hs : ∀ y ∈ ddPairs, ∀ l n : Fin 3, ∀ f ∈ [perm2, perm3, perm4],
        f ((.d, y.1), (.d, y.2), (.e, l), (.e, n)) ∉ sectorKeys := by decide +kernel
    have hz : ∀ y ∈ ddPairs, ∀ l n : Fin 3, ∀ f ∈ [perm2, perm3, perm4],
        f ((.d, y.1), (.d, y.2), (.e, l), (.e, n)) ∉ tensorKeys := by decide +kernel
    rw [nSum_anti hn hx' _ hk.symm (by rw [flavioKeys_eq]; exact hc y hy' l n),
      secSum_anti hb _ hk.symm (hs y hy' l n _ (by simp)) (hs y hy' l n _ (by simp)) (hs y hy' l n _ (by simp)),
      nSum_anti ht htx _ hk.symm (by rw [tensorKeys_eq]; exact hz y hy' l n), tensor_val, ← mul_add]
    obtain ⟨F, hF, -, hc⟩ := btable_lep hP W y hy' l n
    refine congrArg _ (bblock_e W F _ _ _ _ _ _ ?_ ?_ _ _ _ _ _ _ p q r s hF (hc hy1))
    · refine normXi hP _ _ ?_
      rw [← ev_sq hP]; unfold k16v; field_simp
    · have := normXi hP (x := y) (4 * Real.pi * P.p.alpha_e / (16 * Real.pi ^ 2) * P.p.m_b) (kSv P)
        (by rw [← ev_sq hP]; unfold kSv k16v; field_simp)
      rw [← this]; unfold normLoop; push_cast; ring
  · obtain ⟨y, hy, l, hl, n, hn', rfl⟩ := hx
    have hb : sector opsNu (.d, y.1) (.d, y.2) (.nu, l) (.nu, n) ∈ bernSectors := by
      rw [bernSectors_eq]; simp only [List.mem_append, List.mem_map, List.mem_flatMap]
      exact Or.inr ⟨y, hy, l, hl, n, hn', by simp⟩
    have hc : ∀ y ∈ ddPairs, ∀ l n : Fin 3, ∀ f ∈ [perm2, perm3, perm4],
        f ((.d, y.1), (.d, y.2), (.nu, l), (.nu, n)) ∉ flavioKeys := by decide +kernel
    have hs : ∀ y ∈ ddPairs, ∀ l n : Fin 3, ∀ f ∈ [perm2, perm3, perm4],
        f ((.d, y.1), (.d, y.2), (.nu, l), (.nu, n)) ∉ sectorKeys := by decide +kernel
    have hz : ∀ y ∈ ddPairs, ∀ l n : Fin 3, ∀ f ∈ [id, perm2, perm3, perm4],
        f ((.d, y.1), (.d, y.2), (.nu, l), (.nu, n)) ∉ tensorKeys := by decide +kernel
    rw [nSum_anti hn hx' _ hk.symm (by rw [flavioKeys_eq]; exact hc y hy l n),
      secSum_anti hb _ hk.symm (hs y hy l n _ (by simp)) (hs y hy l n _ (by simp)) (hs y hy l n _ (by simp)),
      tensor_zero _ _ (by rw [← hk]; exact hz y hy l n), add_zero]
    obtain ⟨F, hF, hc, -⟩ := btable_lep hP W y hy l n
    have e : (sector opsNu (.d, y.1) (.d, y.2) (.nu, l) (.nu, n)) =
        Sector.mk (.d, y.1) (.d, y.2) (.nu, l) (.nu, n) (suf (.d, y.1) (.d, y.2) (.e, l) (.e, n)) opsNu := by
      have h : ∀ l : Fin 3, qname (.nu, l) = qname (.e, l) := by decide +kernel
      simp only [sector, suf, h]
    rw [e]
    refine congrArg _ (bblock_nu W F _ _ _ _ ?_ _ _ _ _ _ _ p q r s hF hc)
    have := normXi hP (x := y) (4 * Real.pi * P.p.alpha_e / (16 * Real.pi ^ 2) * 2) (k8v P)
      (by rw [← ev_sq hP]; unfold k8v; field_simp; norm_num)
    rw [← this]; unfold normLoop; push_cast; ring

end

/-! ### The way back -/

/-- Sectors whose operators cancel. -/
theorem nLag_zero {l : List NSector} {c : String → ℂ} (h : ∀ x ∈ l, ∀ p q r s, x.val c p q r s = 0) : nLag l c = fun _ _ _ _ => 0 := by
  have z : ∀ p q r s, nSum l c p q r s = 0 := by
    intro p q r s
    apply List.sum_eq_zero
    intro w hw
    obtain ⟨x, hx, rfl⟩ := List.mem_map.1 hw
    rw [nTerm_eq]
    split
    · exact h x hx p q r s
    · rfl
  funext p q r s
  rw [nLag_eq, z, z, map_zero, add_zero]

/-- The coefficients computed by `flavio_to_Bern` have no tensor part. -/
theorem ftable_tensor {P : PEnv} (hP : Admissible P) (w : String → ℂ) : ∀ x ∈ [((1, 2) : Fin 3 × Fin 3), (0, 2)], ∀ l n : Fin 3,
    let y := suf (.d, x.1) (.d, x.2) (.e, l) (.e, n)
    let c := bat w (blkFlavioBern P).flatten
    c ("7" ++ y) = 16 * c ("9" ++ y) ∧ c ("7p" ++ y) = 16 * c ("9p" ++ y) := by
  intro x hx l n
  have hd : ∀ y ∈ [((1, 2) : Fin 3 × Fin 3), (0, 2)], y ∈ ddPairs ∧ y ≠ (0, 1) := by decide +kernel
  obtain ⟨hx1, hx2⟩ := hd x hx
  obtain ⟨h1, h2, h3, -, -, -, -, h8, h9⟩ := lep_names x hx1 l n
  have hm := mem_namesLep (qname (.d, x.1) ++ qname (.d, x.2)) h1
  have e1 := flavioFierzLep_eq hP h2 hm
  have hn : (bkeys (blkFlavioBern P).flatten).Nodup := by rw [bkeys_blkFlavioBern hP]; exact keysFlavioBern_nodup
  generalize hy : nameLep (qname (.d, x.1) ++ qname (.d, x.2)) (qname (.e, l), qname (.e, n)) = y at *
  rw [h3] at e1
  have ej : fierzBernLep y = .ok (fierzBernLepTable (suf (.d, x.1) (.d, x.2) (.e, l) (.e, n))) := by
    unfold fierzBernLep
    rw [h3]
  have : comp (okOr (flavioFierzLep P y)) (okOr (fierzBernLep y)) ∈ blkFlavioBern P := by
    unfold blkFlavioBern
    simp only [List.mem_append, List.mem_flatMap]
    refine Or.inl (Or.inr ⟨_, h1, ?_⟩)
    have h : ∀ x ∈ ddPairs, x ≠ (0, 1) → qname (.d, x.1) ++ qname (.d, x.2) = "sb" ∨ qname (.d, x.1) ++ qname (.d, x.2) = "db" := by
      decide +kernel
    rw [← hy]
    rcases h x hx1 hx2 with h | h <;> rw [h] <;> simp
  rw [ej, e1] at this
  have hb : (bkeys (divideBy (prefXiv P (xiv P (qname (.d, x.1) ++ qname (.d, x.2))))
      (flavioFierzLepTable (suf (.d, x.1) (.d, x.2) (.e, l) (.e, n)) (indLepFl y) (indNuFl y) (k8v P) (k16v P) (kSv P)))).Nodup :=
    nodup_prefix (L := ["9", "9p", "10", "10p", "S", "Sp", "P", "Pp", "nu", "nup", "T", "T5"]) (by decide +kernel)
      ("F" ++ suf (.d, x.1) (.d, x.2) (.e, l) (.e, n))
  obtain ⟨F, hF, hW⟩ := bat_in2 hn w this hb
  simp only [okOr, divideBy, flavioFierzLepTable, fierzBernLepTable, List.map_cons, List.map_nil, List.forall_mem_cons, Ex.val_add,
    Ex.val_sub, Ex.val_neg, Ex.val_mul, Ex.val_div, Ex.val_src, Ex.val_zero, zero_div] at hF hW
  obtain ⟨-, -, -, -, -, -, -, -, -, -, FT, FT5, -⟩ := hF
  obtain ⟨-, -, -, W7, W9, -, -, -, V7, V9, -⟩ := hW
  refine ⟨?_, ?_⟩
  · rw [W7, W9, FT, FT5]; ring
  · rw [V7, V9, FT, FT5]; ring

/-- No tensor operators. -/
theorem tensor_none (GF : ℝ) {c : String → ℂ} (h : ∀ x ∈ [((1, 2) : Fin 3 × Fin 3), (0, 2)], ∀ l n : Fin 3,
    let y := suf (.d, x.1) (.d, x.2) (.e, l) (.e, n)
    c ("7" ++ y) = 16 * c ("9" ++ y) ∧ c ("7p" ++ y) = 16 * c ("9p" ++ y)) : nLag (tensorSectors GF) c = fun _ _ _ _ => 0 := by
  refine nLag_zero fun x hx p q r s => ?_
  unfold tensorSectors at hx
  simp only [List.mem_flatMap, List.mem_map] at hx
  obtain ⟨y, hy, l, -, n, -, rfl⟩ := hx
  obtain ⟨e1, e2⟩ := h y hy l n
  simp only [suf] at e1 e2
  simp only [NSector.val, tensorOps, List.map_cons, List.map_nil, List.sum_cons, List.sum_nil, add_zero]
  rw [e1, e2]
  push_cast
  ring

end Verif
