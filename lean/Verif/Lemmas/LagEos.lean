import Verif.Spec.LagEos
import Verif.Lemmas.LagFormFlavor

/-! `JMS_to_EOS` and the Lagrangian: tables and operator identities. -/

set_option autoImplicit false
set_option linter.unusedSimpArgs false

namespace Verif

open Spec

/-- `JMS_to_EOS` in terms of full tensors. -/
theorem jmsToEos_tensor {E : WEnv} {P : PEnv} {scale : ℝ} {par : Option (Dict String ℝ)} (hp : penv E scale par = .ok P)
    (hP : Admissible P) (hm : P.p.m_b ^ 2 ≠ P.p.m_s ^ 2) (hL : JmsListing E.jms) {C : Dict String ℂ} {J : JSrc → ℂ}
    (hJ : JmsFull E.jms C J) :
    jmsToEos E C scale par = .ok (bval J (Dict.ofPairs (blkEos P).flatten)) := by
  obtain ⟨Ca, h1, h2⟩ := jms_readable hL C
  unfold jmsToEos
  rw [hp, except_ok_bind, h1, except_ok_bind, jobsEos_eq hP hm (v := J) fun s hs => by rw [h2 s hs, jmsTensor_eq hL hJ hs],
    updAll_ofPairs, ofPairs_bval]

/-- Names in the order of assignment. -/
def eosKeys : List String :=
  (["b->uenue", "b->umunumu"].flatMap fun y => ["cVL", "cVR", "cSR", "cSL", "cT"].map fun z => y ++ "::" ++ z) ++
  ["b->s::c1", "b->s::c2", "b->s::c3", "b->s::c4", "b->s::c5", "b->s::c6"] ++
  (["b->see", "b->smumu"].flatMap fun y => ["c9", "c9'", "c10", "c10'", "cS", "cS'", "cP", "cP'", "cT", "cT5"].map fun z => y ++ "::" ++ z) ++
  ["b->s::c7", "b->s::c7'", "b->s::c8", "b->s::c8'"]

theorem eosKeys_nodup : eosKeys.Nodup := by decide +kernel

section

variable {P : PEnv} (hP : Admissible P) (hm : P.p.m_b ^ 2 ≠ P.p.m_s ^ 2)

include hP

theorem fierzEosChrom_full (hm : P.p.m_b ^ 2 ≠ P.p.m_s ^ 2) (dd : String) :
    fierzEosChrom P dd = .ok (scaleBy (prefEosv P) (fierzEosChromTable dd (16 * Real.pi ^ 2 * P.p.m_b / ev P)
      (16 * Real.pi ^ 2 * P.p.m_s / ev P) (16 * Real.pi ^ 2 * P.p.m_b / gv P) (16 * Real.pi ^ 2 * P.p.m_s / gv P)
      (P.p.m_b ^ 2 - P.p.m_s ^ 2))) := by
  have : ((P.p.m_b ^ 2 - P.p.m_s ^ 2 : ℝ) : ℂ) ≠ 0 := by exact_mod_cast sub_ne_zero.2 hm
  unfold fierzEosChrom
  rw [e_ok hP, except_ok_bind, gs_ok hP, except_ok_bind, divE_ok (ev_ne hP), except_ok_bind, divE_ok (ev_ne hP),
    except_ok_bind, divE_ok (gv_ne hP), except_ok_bind, divE_ok (gv_ne hP), except_ok_bind]
  dsimp only
  rw [divC_ok this, except_ok_bind, prefEos_ok hP, except_ok_bind]; rfl

theorem eosII_eq : ∀ l ∈ [(0 : Fin 3), 1], bernEosII P (nameLep "ub" (qname (.e, l), qname (.e, l))) =
    .ok (scaleBy (prefIIv P 0 2) (bernEosIITable (suf (.u, 0) (.d, 2) (.e, l) (.nu, l)) ("u" ++ (qname (.e, l) ++ ("nu" ++ qname (.nu, l)))))) := by
  intro l hl
  have h : ∀ l ∈ [(0 : Fin 3), 1],
      let x := nameLep "ub" (qname (.e, l), qname (.e, l))
      indII x = suf (.u, 0) (.d, 2) (.e, l) (.nu, l) ∧ flavII x = .ok (0, 2, l, l) ∧
      indIIeos x = "u" ++ (qname (.e, l) ++ ("nu" ++ qname (.nu, l))) := by decide +kernel
  obtain ⟨h1, h2, h3⟩ := h l hl
  rw [bernEosII_eq hP h2, h1, h3]

theorem eosLep_eq : ∀ l ∈ [(0 : Fin 3), 1], fierzEosLep P (nameLep "sb" (qname (.e, l), qname (.e, l))) =
    .ok (scaleBy (prefEosv P) (fierzEosLepTable (suf (.d, 1) (.d, 2) (.e, l) (.e, l)) (qname (.e, l) ++ qname (.e, l)) (k16v P))) := by
  intro l hl
  have h : ∀ l ∈ [(0 : Fin 3), 1],
      let x := nameLep "sb" (qname (.e, l), qname (.e, l))
      indLep x = suf (.d, 1) (.d, 2) (.e, l) (.e, l) ∧
      String.ofList ((indLep x).toList.drop 2) = qname (.e, l) ++ qname (.e, l) := by decide +kernel
  obtain ⟨h1, h2⟩ := h l hl
  rw [fierzEosLep_eq hP, h2, h1]

/-- The tables, made explicit. -/
theorem blkEos_eq (hm : P.p.m_b ^ 2 ≠ P.p.m_s ^ 2) : blkEos P =
    ([(0 : Fin 3), 1].map fun l => comp (okOr (jmsBernII (nameLep "ub" (qname (.e, l), qname (.e, l)))))
      (scaleBy (prefIIv P 0 2) (bernEosIITable (suf (.u, 0) (.d, 2) (.e, l) (.nu, l)) ("u" ++ (qname (.e, l) ++ ("nu" ++ qname (.nu, l))))))) ++
    blkEosV P ::
    ([(0 : Fin 3), 1].map fun l => comp (okOr (jmsFierzLep (nameLep "sb" (qname (.e, l), qname (.e, l)))))
      (scaleBy (prefEosv P) (fierzEosLepTable (suf (.d, 1) (.d, 2) (.e, l) (.e, l)) (qname (.e, l) ++ qname (.e, l)) (k16v P)))) ++
    [comp (okOr (jmsFierzChrom "sb")) (scaleBy (prefEosv P) (fierzEosChromTable "sb" (16 * Real.pi ^ 2 * P.p.m_b / ev P)
      (16 * Real.pi ^ 2 * P.p.m_s / ev P) (16 * Real.pi ^ 2 * P.p.m_b / gv P) (16 * Real.pi ^ 2 * P.p.m_s / gv P)
      (P.p.m_b ^ 2 - P.p.m_s ^ 2)))] := by
  have a := eosII_eq hP 0 (by decide)
  have b := eosII_eq hP 1 (by decide)
  have c := eosLep_eq hP 0 (by decide)
  have d := eosLep_eq hP 1 (by decide)
  have e := fierzEosChrom_full hP hm "sb"
  have q0 : qname (.e, 0) = "e" := rfl
  have q1 : qname (.e, 1) = "mu" := rfl
  have n0 : nameLep "sb" (qname (.e, 0), qname (.e, 0)) = "sbl_enu_e" := by decide +kernel
  have n1 : nameLep "sb" (qname (.e, 1), qname (.e, 1)) = "sbl_munu_mu" := by decide +kernel
  unfold blkEos
  simp only [List.map_cons, List.map_nil, n0, n1] at a b c d ⊢
  rw [← q0, ← q1] 
  rw [a, b, c, d, e]
  rfl

theorem eosKeys_eq (hm : P.p.m_b ^ 2 ≠ P.p.m_s ^ 2) : bkeys (blkEos P).flatten = eosKeys := by
  rw [blkEos_eq hP hm]
  have bs : ∀ (a : ℂ) (b : Block String), bkeys (scaleBy a b) = bkeys b := fun a b => by
    simp only [bkeys, scaleBy, List.map_map, Function.comp_def]
  have bv : bkeys (blkEosV P) = ["b->s::c1", "b->s::c2", "b->s::c3", "b->s::c4", "b->s::c5", "b->s::c6"] := by
    unfold blkEosV
    rw [fierzEosV_eq hP, okOr_ok]
    rfl
  have ba : ∀ a b : Block JSrc, bkeys (a ++ b) = bkeys a ++ bkeys b := fun _ _ => List.map_append
  simp only [List.map_cons, List.map_nil, List.flatten_cons, List.flatten_nil, List.cons_append, List.nil_append, ba, bkeys_comp, bs, bv]
  have b1 : ∀ a b, bkeys (bernEosIITable a b) = ["b->" ++ b ++ "::cVL", "b->" ++ b ++ "::cVR", "b->" ++ b ++ "::cSR", "b->" ++ b ++ "::cSL",
    "b->" ++ b ++ "::cT"] := fun _ _ => rfl
  have b2 : ∀ a b k, bkeys (fierzEosLepTable a b k) = ["b->s" ++ b ++ "::c9", "b->s" ++ b ++ "::c9'", "b->s" ++ b ++ "::c10",
    "b->s" ++ b ++ "::c10'", "b->s" ++ b ++ "::cS", "b->s" ++ b ++ "::cS'", "b->s" ++ b ++ "::cP", "b->s" ++ b ++ "::cP'",
    "b->s" ++ b ++ "::cT", "b->s" ++ b ++ "::cT5"] := fun _ _ _ => rfl
  have b3 : ∀ dd a b c d e, bkeys (fierzEosChromTable dd a b c d e) = ["b->s::c7", "b->s::c7'", "b->s::c8", "b->s::c8'"] :=
    fun _ _ _ _ _ _ => rfl
  simp only [b1, b2, b3]
  clear b1 b2 b3 ba bv bs
  decide +kernel

theorem blkEos_nodup (hm : P.p.m_b ^ 2 ≠ P.p.m_s ^ 2) : (bkeys (blkEos P).flatten).Nodup := by
  rw [eosKeys_eq hP hm]; exact eosKeys_nodup

/-! ### Tables -/

variable (J : JSrc → ℂ)

theorem etable_II (hm : P.p.m_b ^ 2 ≠ P.p.m_s ^ 2) : ∀ l ∈ [(0 : Fin 3), 1], ∃ W : String → ℂ,
    (∀ p ∈ jmsBernIITable (suf (.u, 0) (.d, 2) (.e, l) (.nu, l)) 0 2 l l, W p.1 = p.2.val J) ∧
    ∀ p ∈ scaleBy (prefIIv P 0 2) (bernEosIITable (suf (.u, 0) (.d, 2) (.e, l) (.nu, l)) ("u" ++ (qname (.e, l) ++ ("nu" ++ qname (.nu, l))))),
      bat J (blkEos P).flatten p.1 = p.2.val W := by
  intro l hl
  have h : ∀ l ∈ [(0 : Fin 3), 1],
      let x := nameLep "ub" (qname (.e, l), qname (.e, l))
      indII x = suf (.u, 0) (.d, 2) (.e, l) (.nu, l) ∧ flavII x = .ok (0, 2, l, l) := by decide +kernel
  obtain ⟨h1, h2⟩ := h l hl
  refine bat_in2 (blkEos_nodup hP hm) J ?_ ?_
  · have : comp (okOr (jmsBernII (nameLep "ub" (qname (.e, l), qname (.e, l)))))
      (scaleBy (prefIIv P 0 2) (bernEosIITable (suf (.u, 0) (.d, 2) (.e, l) (.nu, l)) ("u" ++ (qname (.e, l) ++ ("nu" ++ qname (.nu, l))))))
        ∈ blkEos P := by
      rw [blkEos_eq hP hm, List.append_assoc]
      exact List.mem_append_left _ (List.mem_map.2 ⟨l, hl, rfl⟩)
    unfold jmsBernII at this
    rw [h2, h1] at this; exact this
  · exact nodup_suffix (L := ["1", "5", "1p", "5p", "7p"]) (by decide +kernel) _

theorem etable_lep (hm : P.p.m_b ^ 2 ≠ P.p.m_s ^ 2) : ∀ l ∈ [(0 : Fin 3), 1], ∃ F : String → ℂ,
    (∀ p ∈ jmsFierzLepTable (suf (.d, 1) (.d, 2) (.e, l) (.e, l)) 1 2 l l, F p.1 = p.2.val J) ∧
    ∀ p ∈ scaleBy (prefEosv P) (fierzEosLepTable (suf (.d, 1) (.d, 2) (.e, l) (.e, l)) (qname (.e, l) ++ qname (.e, l)) (k16v P)),
      bat J (blkEos P).flatten p.1 = p.2.val F := by
  intro l hl
  obtain ⟨h1, h2, h3, h4, h5, h6, h7, -⟩ := lep_names (1, 2) (by decide) l l
  have ej : jmsFierzLep (nameLep "sb" (qname (.e, l), qname (.e, l))) =
      .ok (jmsFierzLepTable (suf (.d, 1) (.d, 2) (.e, l) (.e, l)) 1 2 l l) := by
    have e : qname (.d, 1) ++ qname (.d, 2) = "sb" := by decide +kernel
    simp only [e] at h3 h4 h5 h6 h7
    unfold jmsFierzLep
    rw [h3, h4, h5, h6, h7]; rfl
  refine bat_in2 (blkEos_nodup hP hm) J ?_ (nodup_jmsFierzLep _ _ _ _ _)
  have : comp (okOr (jmsFierzLep (nameLep "sb" (qname (.e, l), qname (.e, l)))))
      (scaleBy (prefEosv P) (fierzEosLepTable (suf (.d, 1) (.d, 2) (.e, l) (.e, l)) (qname (.e, l) ++ qname (.e, l)) (k16v P))) ∈ blkEos P := by
    rw [blkEos_eq hP hm]
    exact List.mem_append_left _ (List.mem_append_right _ (List.mem_cons_of_mem _ (List.mem_map.2 ⟨l, hl, rfl⟩)))
  rw [ej] at this
  exact this

theorem etable_chrom (hm : P.p.m_b ^ 2 ≠ P.p.m_s ^ 2) : ∃ F : String → ℂ,
    (∀ p ∈ jmsFierzChromTable "sb" 1 2, F p.1 = p.2.val J) ∧
    ∀ p ∈ scaleBy (prefEosv P) (fierzEosChromTable "sb" (16 * Real.pi ^ 2 * P.p.m_b / ev P)
      (16 * Real.pi ^ 2 * P.p.m_s / ev P) (16 * Real.pi ^ 2 * P.p.m_b / gv P) (16 * Real.pi ^ 2 * P.p.m_s / gv P)
      (P.p.m_b ^ 2 - P.p.m_s ^ 2)), bat J (blkEos P).flatten p.1 = p.2.val F := by
  have e : jmsFierzChrom "sb" = .ok (jmsFierzChromTable "sb" 1 2) := by
    unfold jmsFierzChrom
    rw [show Dict.get dflav (chr "sb" 0) = .ok 1 by decide +kernel, show Dict.get dflav (chr "sb" 1) = .ok 2 by decide +kernel]; rfl
  refine bat_in2 (blkEos_nodup hP hm) J ?_ (nodup_suffix (L := ["F7gamma", "F8g", "F7pgamma", "F8pg"]) (by decide +kernel) _)
  rw [blkEos_eq hP hm, e]
  exact List.mem_append_right _ (List.mem_singleton.2 rfl)

/-- Coefficients of the four-quark Fierz basis. -/
noncomputable def eosF (s : String × String) : ℂ :=
  (Dict.getD (ν := Ex JSrc) (Dict.getD (ν := Block JSrc) eosDicts s.1 []) s.2 Ex.zero).val J

theorem etable_V (hm : P.p.m_b ^ 2 ≠ P.p.m_s ^ 2) :
    ∀ p ∈ scaleBy (prefEosv P) fierzEosVTable, bat J (blkEos P).flatten p.1 = p.2.val (eosF J) := by
  intro p hp
  have hb : blkEosV P ∈ blkEos P := by
    rw [blkEos_eq hP hm]
    exact List.mem_append_left _ (List.mem_append_right _ List.mem_cons_self)
  have := bat_in (blkEos_nodup hP hm) J hb (p.1, p.2.bind fun s =>
    Dict.getD (ν := Ex JSrc) (Dict.getD (ν := Block JSrc) eosDicts s.1 []) s.2 Ex.zero) (by
      unfold blkEosV
      rw [fierzEosV_eq hP, okOr_ok]
      exact List.mem_map.2 ⟨p, hp, rfl⟩)
  rw [this, Ex.val_bind]
  rfl

end

/-! ### Leptons -/

/-- Charged currents. -/
theorem eblock_II (J W c : _ → ℂ) (N a : ℂ) (hN : N * a = 1) (x y z : String) (hy : "b->" ++ z = y) (f1 f2 f3 f4 : Kind × Fin 3)
    {p q r s : Leg} (hp : p.kind = .u) (hq : q.kind = .d) (hr : r.kind = .e) (hs : s.kind = .nu)
    (hW : ∀ t ∈ jmsBernIITable x p.gen q.gen r.gen s.gen, W t.1 = t.2.val J)
    (hc : ∀ t ∈ scaleBy a (bernEosIITable x z), c t.1 = t.2.val W) :
    (jmsLag J).anti p q r s = (NSector.mk f1 f2 f3 f4 (eosII N y)).val c p q r s := by
  rw [block_II J W x f1 f2 f3 f4 hp hq hr hs hW]
  simp only [scaleBy, bernEosIITable, hy, List.map_cons, List.map_nil, List.forall_mem_cons, Ex.val_mul, Ex.val_src] at hc
  obtain ⟨e1, e2, e3, e4, e5, -⟩ := hc
  have m : ∀ z, N * (a * z) = z := fun z => by rw [← mul_assoc, hN, one_mul]
  simp only [Sector.val, opsII, NSector.val, eosII, List.map_cons, List.map_nil, List.sum_cons, List.sum_nil, add_zero]
  rw [e1, e2, e3, e4, e5]
  simp only [m]
  push_cast
  ring

/-- Down quarks and charged leptons. -/
theorem eblock_e (J F c : _ → ℂ) (N a : ℂ) (k16 : ℝ) (hN : N * (a * k16) = 1) (x z : String)
    (f1 f2 f3 f4 : Kind × Fin 3) {p q r s : Leg} (hp : p.kind = .d) (hq : q.kind = .d) (hr : r.kind = .e) (hs : s.kind = .e)
    (hF : ∀ t ∈ jmsFierzLepTable x p.gen q.gen r.gen s.gen, F t.1 = t.2.val J)
    (hc : ∀ t ∈ scaleBy a (fierzEosLepTable x z k16), c t.1 = t.2.val F) :
    (jmsLag J).anti p q r s = (NSector.mk f1 f2 f3 f4 (eosLep N ("b->s" ++ z))).val c p q r s := by
  have hW : ∀ t ∈ fierzBernLepTable x, bat F (fierzBernLepTable x) t.1 = t.2.val F := fun t ht =>
    bat_mem (nodup_fierzBernLep _) (k := t.1) (e := t.2) ht _
  generalize bat F (fierzBernLepTable x) = W at hW
  rw [block_e J W F x f1 f2 f3 f4 hp hq hr hs hF hW]
  simp only [fierzBernLepTable, scaleBy, fierzEosLepTable, List.map_cons, List.map_nil, List.forall_mem_cons,
    Ex.val_add, Ex.val_sub, Ex.val_neg, Ex.val_mul, Ex.val_div, Ex.val_src, Ex.val_cj] at hW hc
  obtain ⟨W1, W3, W5, W7, W9, V1, V3, V5, V7, V9, Wn, Vn, -⟩ := hW
  obtain ⟨c9, c9p, c10, c10p, cS, cSp, cP, cPp, cT, cT5, -⟩ := hc
  have m : ∀ z, N * (a * (k16 * z)) = z := fun z => by linear_combination z * hN
  simp only [Sector.val, opsOdd, NSector.val, eosLep, List.map_cons, List.map_nil, List.sum_cons, List.sum_nil, add_zero,
    val3_same, val3_LR, val3_RL, val4_same, val4_LR, val4_RL, val_sg_LR, val_sg_RL, zero_add]
  rw [c9, c9p, c10, c10p, cS, cSp, cP, cPp, cT, cT5]
  simp only [m]
  rw [W1, W3, W5, W7, W9, V1, V3, V5, V7, V9]
  push_cast
  ring

def eosLepKeys : List F4 :=
  ([0, 1].map fun l => ((.d, 1), (.d, 2), (.e, l), (.e, l))) ++ ([0, 1].map fun l => ((.u, 0), (.d, 2), (.e, l), (.nu, l)))

theorem eosLepKeys_eq (GF alpha : ℝ) (V : M3) : (eosLepSectors GF alpha V).map NSector.key = eosLepKeys := by
  unfold eosLepSectors eosLepKeys
  simp only [List.map_append, List.map_map, Function.comp_def, NSector.key]

theorem eosLepKeys_nodup : eosLepKeys.Nodup := by decide +kernel

theorem eosLepKeys_conj : ∀ k ∈ eosLepKeys, ∀ k' ∈ conjs k, k' ∉ eosLepKeys := by decide +kernel

theorem eosLepKeys_perm : ∀ k ∈ eosLepKeys, ∀ f ∈ [perm2, perm3, perm4], f k ∉ eosLepKeys := by decide +kernel

section

variable {P : PEnv} (hP : Admissible P) (hm : P.p.m_b ^ 2 ≠ P.p.m_s ^ 2) (J : JSrc → ℂ)

include hP

theorem prefEosv_eq : prefEosv P = prefXiv P (ckmTop P.V (1, 2)) := by
  have h1 : (P.p.GF : ℂ) ≠ 0 := by exact_mod_cast hP.GF
  have h3 := hP.V 2 2
  have h4 : starRingEnd ℂ (P.V 2 1) ≠ 0 := (map_ne_zero _).2 (hP.V 2 1)
  unfold prefEosv prefXiv ckmTop
  push_cast
  field_simp

include hm

theorem eos_direct {p q r s : Leg} (h : fl4 p q r s ∈ eosLepKeys) : (jmsLag J).anti p q r s =
      (nSum (eosLepSectors P.p.GF P.p.alpha_e P.V) (bat J (blkEos P).flatten)).anti p q r s := by
  have hn : ((eosLepSectors P.p.GF P.p.alpha_e P.V).map NSector.key).Nodup := by rw [eosLepKeys_eq]; exact eosLepKeys_nodup
  have hpi := Real.pi_ne_zero
  have hev := ev_ne hP
  have hperm := eosLepKeys_perm _ h
  rw [← eosLepKeys_eq P.p.GF P.p.alpha_e P.V] at h
  obtain ⟨x, hx, hk⟩ := List.mem_map.1 h
  rw [← hk] at hperm
  rw [nSum_anti hn hx _ hk.symm (by rw [eosLepKeys_eq]; exact hperm)]
  unfold eosLepSectors at hx
  simp only [List.mem_append, List.mem_map] at hx
  rcases hx with hx | hx
  · obtain ⟨l, hl, rfl⟩ := hx
    obtain ⟨⟨hp, hp'⟩, ⟨hq, hq'⟩, ⟨hr, hr'⟩, hs, hs'⟩ := fl4_elim (k1 := .d) (k2 := .d) (k3 := .e) (k4 := .e) hk.symm
    obtain ⟨F, hF, hc⟩ := etable_lep hP J hm l hl
    refine eblock_e J F _ _ _ _ ?_ _ _ _ _ _ _ hp hq hr hs (by rw [hp', hq', hr', hs']; exact hF) hc
    rw [prefEosv_eq hP]
    refine normXi hP _ _ ?_
    rw [← ev_sq hP]; unfold k16v; field_simp
  · obtain ⟨l, hl, rfl⟩ := hx
    obtain ⟨⟨hp, hp'⟩, ⟨hq, hq'⟩, ⟨hr, hr'⟩, hs, hs'⟩ := fl4_elim (k1 := .u) (k2 := .d) (k3 := .e) (k4 := .nu) hk.symm
    obtain ⟨W, hW, hc⟩ := etable_II hP J hm l hl
    have hy : ∀ l ∈ [(0 : Fin 3), 1], "b->" ++ ("u" ++ (qname (.e, l) ++ ("nu" ++ qname (.nu, l)))) =
      "b->u" ++ (qname (.e, l) ++ ("nu" ++ qname (.nu, l))) := by decide +kernel
    exact eblock_II J W _ _ _ (normII hP 0 2) _ _ _ (hy l hl) _ _ _ _ hp hq hr hs (by rw [hp', hq', hr', hs']; exact hW) hc

end

/-! ### Four quarks -/

/-- Spinor indices that select a left-handed vector current in the first bilinear. -/
structure LeftSpins (α β γ δ : Fin 4) : Prop where
  v : ∀ B, (Dir.g 1 .R B).val α β γ δ = 0
  s : ∀ A B, (Dir.g 0 A B).val α β γ δ = 0
  t : ∀ A, (Dir.sg A A).val α β γ δ = 0

theorem leftSpins_LL : LeftSpins 3 1 2 0 where
  v B := by
    have h : (Dir.g 1 .R B).ent 3 1 2 0 = 0 := by cases B <;> decide +kernel
    rw [Dir.val, h, map_zero]
  s A B := by
    have h : (Dir.g 0 A B).ent 3 1 2 0 = 0 := by cases A <;> cases B <;> decide +kernel
    rw [Dir.val, h, map_zero]
  t A := by
    have h : (Dir.sg A A).ent 3 1 2 0 = 0 := by cases A <;> decide +kernel
    rw [Dir.val, h, map_zero]

theorem leftSpins_LR : LeftSpins 2 0 0 2 where
  v B := by
    have h : (Dir.g 1 .R B).ent 2 0 0 2 = 0 := by cases B <;> decide +kernel
    rw [Dir.val, h, map_zero]
  s A B := by
    have h : (Dir.g 0 A B).ent 2 0 0 2 = 0 := by cases A <;> cases B <;> decide +kernel
    rw [Dir.val, h, map_zero]
  t A := by
    have h : (Dir.sg A A).ent 2 0 0 2 = 0 := by cases A <;> decide +kernel
    rw [Dir.val, h, map_zero]

theorem left_vals : (Dir.g 1 .L .L).val 3 1 2 0 = 2 ∧ (Dir.g 1 .L .R).val 3 1 2 0 = 0 ∧ (Dir.g 1 .L .L).val 2 0 0 2 = 0 ∧
    (Dir.g 1 .L .R).val 2 0 0 2 = 2 := by
  have h : (Dir.g 1 .L .L).ent 3 1 2 0 = 2 ∧ (Dir.g 1 .L .R).ent 3 1 2 0 = 0 ∧ (Dir.g 1 .L .L).ent 2 0 0 2 = 0 ∧
    (Dir.g 1 .L .R).ent 2 0 0 2 = 2 := by decide +kernel
  obtain ⟨h1, h2, h3, h4⟩ := h
  simp only [Dir.val, h1, h2, h3, h4, map_zero, map_ofNat, and_self]

/-- Left-handed vector currents with given coefficients. -/
noncomputable def leftForm (a b c d : ℂ) (p q r s : Leg) : ℂ :=
  (Dir.g 1 .L .L).val p.spin q.spin r.spin s.spin * (a * Col.one.val p.col q.col r.col s.col + b * Col.cross.val p.col q.col r.col s.col) +
  (Dir.g 1 .L .R).val p.spin q.spin r.spin s.spin * (c * Col.one.val p.col q.col r.col s.col + d * Col.cross.val p.col q.col r.col s.col)

/-- The coefficients are determined by the components. -/
theorem leftForm_inj {a b c d a' b' c' d' : ℂ} (f1 f2 f3 f4 : Kind × Fin 3)
    (h : ∀ p q r s : Leg, p.flav = f1 → q.flav = f2 → r.flav = f3 → s.flav = f4 → LeftSpins p.spin q.spin r.spin s.spin →
      leftForm a b c d p q r s = leftForm a' b' c' d' p q r s) : a = a' ∧ b = b' ∧ c = c' ∧ d = d' := by
  obtain ⟨v1, v2, v3, v4⟩ := left_vals
  have k := fun (x : Fin 4 × Fin 4 × Fin 4 × Fin 4) (y : Fin 3 × Fin 3 × Fin 3 × Fin 3) (hx : LeftSpins x.1 x.2.1 x.2.2.1 x.2.2.2) =>
    h ⟨f1.1, f1.2, x.1, y.1⟩ ⟨f2.1, f2.2, x.2.1, y.2.1⟩ ⟨f3.1, f3.2, x.2.2.1, y.2.2.1⟩ ⟨f4.1, f4.2, x.2.2.2, y.2.2.2⟩ rfl rfl rfl rfl hx
  have k1 := k (3, 1, 2, 0) (0, 0, 1, 1) leftSpins_LL
  have k2 := k (3, 1, 2, 0) (0, 1, 1, 0) leftSpins_LL
  have k3 := k (2, 0, 0, 2) (0, 0, 1, 1) leftSpins_LR
  have k4 := k (2, 0, 0, 2) (0, 1, 1, 0) leftSpins_LR
  simp only [leftForm, v1, v2, v3, v4] at k1 k2 k3 k4
  simp [Col.val] at k1 k2 k3 k4
  exact ⟨k1, k2, k3, k4⟩

/-- Left-handed part of the Lagrangian in the Fierz basis. -/
noncomputable def leftPart (F : String → ℂ) (y : String) (p q r s : Leg) : ℂ :=
  leftForm (F ("F" ++ y ++ "1")) (F ("F" ++ y ++ "2")) (F ("F" ++ y ++ "3")) (F ("F" ++ y ++ "4")) p q r s

section

variable (J : JSrc → ℂ) (F : String → ℂ) (y : String) {p q r s : Leg} (hp : p.kind = .d) (hq : q.kind = .d)
  (hz : LeftSpins p.spin q.spin r.spin s.spin)

include hp hq hz

theorem left_u (hr : r.kind = .u) (hs : s.kind = .u)
    (hF : ∀ t ∈ fierzDDUU y p.gen q.gen r.gen s.gen, F t.1 = t.2.val J) : (jmsLag J).anti p q r s = leftPart F y p q r s := by
  have hW : ∀ t ∈ fierzBernGen y, bat F (fierzBernGen y) t.1 = t.2.val F := fun t ht =>
    bat_mem (b := fierzBernGen y) (nodup_V20 y) (k := t.1) (e := t.2) ht _
  generalize bat F (fierzBernGen y) = W at hW
  rw [block_u J W F y (.d, 0) (.d, 0) (.d, 0) (.d, 0) hp hq hr hs hF hW]
  simp only [Nc, fierzBernGen, List.forall_mem_cons, Ex.val_add, Ex.val_sub, Ex.val_neg, Ex.val_mul, Ex.val_div, Ex.val_src,
    Ex.val_cj] at hW
  obtain ⟨W1, W2, W3, W4, -⟩ := hW
  simp only [leftPart, leftForm, Sector.val, opsOdd, opsEven, List.cons_append, List.nil_append, List.map_cons, List.map_nil,
    List.sum_cons, List.sum_nil, add_zero, val3_same, val3_LR, val3_RL, val4_same, val4_LR, val4_RL, val_sg_LR, val_sg_RL, zero_add,
    hz.v, hz.s, hz.t, mul_zero, zero_mul, sub_zero, col_oct]
  rw [W1, W2, W3, W4]
  ring

variable (hJ : ∀ k ∈ jmsExchange, ∀ p r s t, J (k, [s, t, p, r]) = J (k, [p, r, s, t])) (hr : r.kind = .d) (hs : s.kind = .d)
  (h1 : (p.gen, q.gen) ≠ (r.gen, s.gen)) (h2 : (r.gen, q.gen) ≠ (p.gen, s.gen))
  (hF : ∀ t ∈ fierzDDDD y p.gen q.gen r.gen s.gen, F t.1 = t.2.val J)

include hJ hr hs h1 h2 hF

theorem left_dGen (h3 : s.gen = r.gen) : (jmsLag J).anti p q r s = leftPart F y p q r s := by
  have hW : ∀ t ∈ fierzBernGen y, bat F (fierzBernGen y) t.1 = t.2.val F := fun t ht =>
    bat_mem (b := fierzBernGen y) (nodup_V20 y) (k := t.1) (e := t.2) ht _
  generalize bat F (fierzBernGen y) = W at hW
  rw [block_dGen J W F y (.d, 0) (.d, 0) (.d, 0) (.d, 0) hp hq hr hs hJ h1 h2 h3 hF hW]
  simp only [Nc, fierzBernGen, List.forall_mem_cons, Ex.val_add, Ex.val_sub, Ex.val_neg, Ex.val_mul, Ex.val_div, Ex.val_src,
    Ex.val_cj] at hW
  obtain ⟨W1, W2, W3, W4, -⟩ := hW
  simp only [leftPart, leftForm, Sector.val, opsOdd, opsEven, List.cons_append, List.nil_append, List.map_cons, List.map_nil,
    List.sum_cons, List.sum_nil, add_zero, val3_same, val3_LR, val3_RL, val4_same, val4_LR, val4_RL, val_sg_LR, val_sg_RL, zero_add,
    hz.v, hz.s, hz.t, mul_zero, zero_mul, sub_zero, col_oct]
  rw [W1, W2, W3, W4]
  ring

theorem left_d22 (h3 : s.gen = q.gen) : (jmsLag J).anti p q r s = leftPart F y p q r s := by
  have hW : ∀ t ∈ fierzBern22 y, bat F (fierzBern22 y) t.1 = t.2.val F := fun t ht =>
    bat_mem (b := fierzBern22 y) (nodup_V10 y) (k := t.1) (e := t.2) ht _
  generalize bat F (fierzBern22 y) = W at hW
  rw [block_d22 J W F y (.d, 0) (.d, 0) (.d, 0) (.d, 0) hp hq hr hs hJ h1 h2 h3 hF hW]
  obtain ⟨r4, s4, r3, s3, v, vLR, vRL, sLR, sRL, sS, tT⟩ := dirRules p.spin q.spin r.spin s.spin
  have c3 := col_one3 p.col q.col r.col s.col
  have c4 := col_cross3 p.col q.col r.col s.col
  rw [h3] at hF
  simp only [Nc, fierzDDDD, fierzBern22, List.forall_mem_cons, Ex.val_add, Ex.val_sub, Ex.val_neg, Ex.val_mul, Ex.val_div, Ex.val_src,
    Ex.val_cj] at hF hW
  obtain ⟨F1, F2, F3, F4, F5, F6, F7, F8, F9, F10, G1, G2, G3, G4, G5, G6, G7, G8, G9, G10, -⟩ := hF
  obtain ⟨W1, W3, W5, W7, W9, V1, V3, V5, V7, V9, -⟩ := hW
  simp only [leftPart, leftForm, Sector.val, opsOdd, opsEven, List.cons_append, List.nil_append, List.map_cons, List.map_nil,
    List.sum_cons, List.sum_nil, add_zero, val3_same, val3_LR, val3_RL, val4_same, val4_LR, val4_RL, val_sg_LR, val_sg_RL, zero_add,
    r3, s3, v, vLR, vRL, sLR, sRL, sS, tT, hz.v, hz.s, hz.t, mul_zero, zero_mul, sub_zero, zero_div, c3, c4, neg_zero]
  rw [W1, W3, W5, W9, F1, F2, F3, F4, F5, F7]
  have e := hJ "VddLL" (by decide +kernel) r.gen q.gen p.gen q.gen
  rw [e]
  ring

theorem left_d24 (h3 : r.gen = p.gen) : (jmsLag J).anti p q r s = leftPart F y p q r s := by
  have hW : ∀ t ∈ fierzBern24 y, bat F (fierzBern24 y) t.1 = t.2.val F := fun t ht =>
    bat_mem (b := fierzBern24 y) (nodup_V10 y) (k := t.1) (e := t.2) ht _
  generalize bat F (fierzBern24 y) = W at hW
  rw [block_d24 J W F y (.d, 0) (.d, 0) (.d, 0) (.d, 0) hp hq hr hs hJ h1 h2 h3 hF hW]
  obtain ⟨r4, s4, r3, s3, v, vLR, vRL, sLR, sRL, sS, tT⟩ := dirRules p.spin q.spin r.spin s.spin
  have c3 := col_one2 p.col q.col r.col s.col
  have c4 := col_cross2 p.col q.col r.col s.col
  rw [h3] at hF
  simp only [Nc, fierzDDDD, fierzBern24, List.forall_mem_cons, Ex.val_add, Ex.val_sub, Ex.val_neg, Ex.val_mul, Ex.val_div, Ex.val_src,
    Ex.val_cj] at hF hW
  obtain ⟨F1, F2, F3, F4, F5, F6, F7, F8, F9, F10, G1, G2, G3, G4, G5, G6, G7, G8, G9, G10, -⟩ := hF
  obtain ⟨W1, W3, W5, W7, W9, V1, V3, V5, V7, V9, -⟩ := hW
  simp only [leftPart, leftForm, Sector.val, opsOdd, opsEven, List.cons_append, List.nil_append, List.map_cons, List.map_nil,
    List.sum_cons, List.sum_nil, add_zero, val3_same, val3_LR, val3_RL, val4_same, val4_LR, val4_RL, val_sg_LR, val_sg_RL, zero_add,
    r3, s3, v, vLR, vRL, sLR, sRL, sS, tT, hz.v, hz.s, hz.t, mul_zero, zero_mul, sub_zero, zero_div, c3, c4, neg_zero]
  rw [W1, W3, W5, W9, F1, F2, F3, F4, G5, G7]
  ring

end

/-- Value of the operators of a sector. -/
noncomputable def qVal (c : String → ℂ) (ops : List QOp) (p q r s : Leg) : ℂ :=
  (ops.map fun o => o.norm * c o.name * (o.dirs.map fun D => D.val p.spin q.spin r.spin s.spin).sum *
    o.col.val p.col q.col r.col s.col).sum

theorem qTerm_eq (c : String → ℂ) (x : QSector) (p q r s : Leg) : x.term c p q r s =
    if p.flav = x.f1 ∧ q.flav = x.f2 ∧ r.flav = x.f3 ∧ s.flav = x.f4 then qVal c x.ops p q r s else 0 := rfl

theorem fl_flav (p : Leg) : p.fl.flav = p.flav := rfl

section

variable (GF : ℝ) (V : M3) (wu wc : ℂ) (c : String → ℂ) {p q r s : Leg} (hp : p.flav = (.d, 1)) (hq : q.flav = (.d, 2))

include hp hq

/-- Common normalisation. -/
noncomputable def eosN (GF : ℝ) (V : M3) : ℂ := ((4 * GF / Real.sqrt 2 : ℝ) : ℂ) * ckmTop V (1, 2)

theorem eosQ_u (hr : r.flav = (.u, 0)) (hs : s.flav = (.u, 0)) : (qLag (eosQuark GF V wu wc) c).anti p q r s =
    qVal c (eosPenguin (eosN GF V)) p q r s - qVal c (eosCurrent (eosN GF V * wu)) p s r q := by
  simp only [Four.anti, qLag, eosQuark, List.map_cons, List.map_nil, List.sum_cons, List.sum_nil, qTerm_eq, adj_eq, fl_flav, hp, hq, hr, hs,
    Prod.mk.injEq, reduceCtorEq, and_true, true_and, and_false, false_and, if_true, if_false, map_zero, add_zero, zero_add, eosN, Fin.reduceEq]
  ring

theorem eosQ_c (hr : r.flav = (.u, 1)) (hs : s.flav = (.u, 1)) : (qLag (eosQuark GF V wu wc) c).anti p q r s =
    qVal c (eosPenguin (eosN GF V)) p q r s - qVal c (eosCurrent (eosN GF V * wc)) p s r q := by
  simp only [Four.anti, qLag, eosQuark, List.map_cons, List.map_nil, List.sum_cons, List.sum_nil, qTerm_eq, adj_eq, fl_flav, hp, hq, hr, hs,
    Prod.mk.injEq, reduceCtorEq, and_true, true_and, and_false, false_and, if_true, if_false, map_zero, add_zero, zero_add, eosN, Fin.reduceEq]
  ring

theorem eosQ_d (hr : r.flav = (.d, 0)) (hs : s.flav = (.d, 0)) : (qLag (eosQuark GF V wu wc) c).anti p q r s =
    qVal c (eosPenguin (eosN GF V)) p q r s := by
  simp only [Four.anti, qLag, eosQuark, List.map_cons, List.map_nil, List.sum_cons, List.sum_nil, qTerm_eq, adj_eq, fl_flav, hp, hq, hr, hs,
    Prod.mk.injEq, reduceCtorEq, and_true, true_and, and_false, false_and, if_true, if_false, map_zero, add_zero, zero_add, eosN, Fin.reduceEq]
  ring

theorem eosQ_s (hr : r.flav = (.d, 1)) (hs : s.flav = (.d, 1)) : (qLag (eosQuark GF V wu wc) c).anti p q r s =
    qVal c (eosPenguin (eosN GF V)) p q r s - qVal c (eosPenguin (eosN GF V)) r q p s := by
  simp only [Four.anti, qLag, eosQuark, List.map_cons, List.map_nil, List.sum_cons, List.sum_nil, qTerm_eq, adj_eq, fl_flav, hp, hq, hr, hs,
    Prod.mk.injEq, reduceCtorEq, and_true, true_and, and_false, false_and, if_true, if_false, map_zero, add_zero, zero_add, eosN, Fin.reduceEq]
  ring

theorem eosQ_b (hr : r.flav = (.d, 2)) (hs : s.flav = (.d, 2)) : (qLag (eosQuark GF V wu wc) c).anti p q r s =
    qVal c (eosPenguin (eosN GF V)) p q r s - qVal c (eosPenguin (eosN GF V)) p s r q := by
  simp only [Four.anti, qLag, eosQuark, List.map_cons, List.map_nil, List.sum_cons, List.sum_nil, qTerm_eq, adj_eq, fl_flav, hp, hq, hr, hs,
    Prod.mk.injEq, reduceCtorEq, and_true, true_and, and_false, false_and, if_true, if_false, map_zero, add_zero, zero_add, eosN, Fin.reduceEq]
  ring

end

section

variable (N : ℂ) (c : String → ℂ) {p q r s : Leg} (hz : LeftSpins p.spin q.spin r.spin s.spin)

/-- Coefficients of `(sbar gamma P_L b) (qbar gamma P_A q)` with singlet and octet currents. -/
noncomputable def penL (c : String → ℂ) (k : ℂ) : ℂ × ℂ := (c "b->s::c3" + k * c "b->s::c5", c "b->s::c4" + k * c "b->s::c6")

theorem qVal_pen : qVal c (eosPenguin N) p q r s =
    leftForm (N * ((penL c 16).1 - (penL c 16).2 / 6)) (N * (penL c 16).2 / 2)
      (N * ((penL c 4).1 - (penL c 4).2 / 6)) (N * (penL c 4).2 / 2) p q r s := by
  simp only [qVal, eosPenguin, leftForm, penL, List.map_cons, List.map_nil, List.sum_cons, List.sum_nil, add_zero, val3_same, val3_LR,
    col_oct]
  ring

theorem qVal_cur : qVal c (eosCurrent N) p s r q =
    -leftForm (N * c "b->s::c1" / 2) (N * (c "b->s::c2" - c "b->s::c1" / 6)) 0 0 p q r s := by
  obtain ⟨r4, s4, r3, s3, v, vLR, vRL, sLR, sRL, sS, tT⟩ := dirRules p.spin q.spin r.spin s.spin
  have c3 := col_one3 p.col q.col r.col s.col
  have c4 := col_cross3 p.col q.col r.col s.col
  simp only [qVal, eosCurrent, leftForm, List.map_cons, List.map_nil, List.sum_cons, List.sum_nil, add_zero, col_oct, r3, v, c3, c4]
  ring

omit hz in
theorem leftForm_sub (a b d e a' b' d' e' : ℂ) : leftForm a b d e p q r s - -leftForm a' b' d' e' p q r s =
    leftForm (a + a') (b + b') (d + d') (e + e') p q r s := by
  simp only [leftForm]; ring

include hz

theorem leftForm_perm2 (a b d e : ℂ) : leftForm a b d e r q p s = -leftForm b a 0 0 p q r s := by
  obtain ⟨r4, s4, r3, s3, v, vLR, vRL, sLR, sRL, sS, tT⟩ := dirRules p.spin q.spin r.spin s.spin
  have c1 := col_one2 p.col q.col r.col s.col
  have c2 := col_cross2 p.col q.col r.col s.col
  simp only [leftForm, v, vLR, c1, c2, hz.s]
  ring

theorem leftForm_perm3 (a b d e : ℂ) : leftForm a b d e p s r q = -leftForm b a 0 0 p q r s := by
  obtain ⟨r4, s4, r3, s3, v, vLR, vRL, sLR, sRL, sS, tT⟩ := dirRules p.spin q.spin r.spin s.spin
  have c1 := col_one3 p.col q.col r.col s.col
  have c2 := col_cross3 p.col q.col r.col s.col
  simp only [leftForm, r3, v, vRL, c1, c2, hz.s]
  ring

end

section

variable (J : JSrc → ℂ)

theorem eosF_eq {y : String} {b : Block JSrc} (hd : Dict.find eosDicts ("F" ++ y) = some (okOr (jmsFierzV y)))
    (hb : jmsFierzV y = .ok b) (k : String) : eosF J ("F" ++ y, k) = bat J b k := by
  have : Dict.getD (ν := Block JSrc) eosDicts ("F" ++ y) [] = b := by
    unfold Dict.getD; rw [hd, hb]; rfl
  unfold eosF
  rw [this, bat, getD_bval]

theorem eosDicts_find : Dict.find eosDicts ("F" ++ "sbuu") = some (okOr (jmsFierzV "sbuu")) ∧
    Dict.find eosDicts ("F" ++ "sbcc") = some (okOr (jmsFierzV "sbcc")) ∧
    Dict.find eosDicts ("F" ++ "sbdd") = some (okOr (jmsFierzV "sbdd")) ∧
    Dict.find eosDicts ("F" ++ "sbss") = some (okOr (jmsFierzV "sbss")) ∧
    Dict.find eosDicts ("F" ++ "sbbb") = some (okOr (jmsFierzV "sbbb")) := by
  have h : "F" ++ "sbuu" = "Fsbuu" ∧ "F" ++ "sbcc" = "Fsbcc" ∧ "F" ++ "sbdd" = "Fsbdd" ∧ "F" ++ "sbss" = "Fsbss" ∧ "F" ++ "sbbb" = "Fsbbb" := by
    decide +kernel
  obtain ⟨h1, h2, h3, h4, h5⟩ := h
  rw [h1, h2, h3, h4, h5]
  unfold eosDicts
  simp [Dict.find]

theorem eosFierz_u : ∀ g ∈ [(0 : Fin 3), 1], jmsFierzV ("sb" ++ (qname (.u, g) ++ qname (.u, g))) =
    .ok (fierzDDUU ("sb" ++ (qname (.u, g) ++ qname (.u, g))) 1 2 g g) := by
  intro g hg
  have h : ∀ g ∈ [(0 : Fin 3), 1], flav4 dflav uflav ("sb" ++ (qname (.u, g) ++ qname (.u, g))) = .ok (1, 2, g, g) ∧
      ("sb" ++ (qname (.u, g) ++ qname (.u, g))) ∈
        ["sbuc", "sbcu", "dbuc", "dbcu", "dsuc", "dscu", "sbuu", "dbuu", "dsuu", "sbcc", "dbcc", "dscc"] := by decide +kernel
  obtain ⟨h1, h2⟩ := h g hg
  generalize "sb" ++ (qname (.u, g) ++ qname (.u, g)) = y at *
  unfold jmsFierzV; rw [if_pos h2, h1]; rfl

theorem eosFierz_d : ∀ g : Fin 3, jmsFierzV ("sb" ++ (qname (.d, g) ++ qname (.d, g))) =
    .ok (fierzDDDD ("sb" ++ (qname (.d, g) ++ qname (.d, g))) 1 2 g g) := by
  intro g
  have h : ∀ g : Fin 3, flav4 dflav dflav ("sb" ++ (qname (.d, g) ++ qname (.d, g))) = .ok (1, 2, g, g) ∧
      ("sb" ++ (qname (.d, g) ++ qname (.d, g))) ∉
        ["sbuc", "sbcu", "dbuc", "dbcu", "dsuc", "dscu", "sbuu", "dbuu", "dsuu", "sbcc", "dbcc", "dscc"] ∧
      ("sb" ++ (qname (.d, g) ++ qname (.d, g))) ∈
        ["sbsd", "dbds", "bsbd", "sbss", "dbdd", "dsdd", "sbbb", "dbbb", "dsss", "sbdd", "dsbb", "dbss"] := by decide +kernel
  obtain ⟨h1, h2, h3⟩ := h g
  generalize "sb" ++ (qname (.d, g) ++ qname (.d, g)) = y at *
  unfold jmsFierzV; rw [if_neg h2, if_pos h3, h1]; rfl

/-- Coefficients in the Fierz basis of a Lagrangian of the EOS form; up quarks. -/
theorem eosF_up (g : Fin 3) {y : String} {a b d e : ℂ}
    (h : ∀ p q r s : Leg, p.flav = (.d, 1) → q.flav = (.d, 2) → r.flav = (.u, g) → s.flav = (.u, g) →
      LeftSpins p.spin q.spin r.spin s.spin → (jmsLag J).anti p q r s = leftForm a b d e p q r s) {F : String → ℂ}
    (hF : F = bat J (fierzDDUU y 1 2 g g)) :
    F ("F" ++ y ++ "1") = a ∧ F ("F" ++ y ++ "2") = b ∧ F ("F" ++ y ++ "3") = d ∧ F ("F" ++ y ++ "4") = e := by
  refine leftForm_inj (.d, 1) (.d, 2) (.u, g) (.u, g) fun p q r s hp hq hr hs hz => ?_
  rw [← h p q r s hp hq hr hs hz]
  simp only [Leg.flav, Prod.mk.injEq] at hp hq hr hs
  refine (left_u J F y hp.1 hq.1 hz hr.1 hs.1 ?_).symm
  rw [hp.2, hq.2, hr.2, hs.2, hF]
  exact fun t ht => bat_mem (b := fierzDDUU y 1 2 g g) (nodup_fierzDDUU _ _ _ _ _) (k := t.1) (e := t.2) ht _

theorem sb_gen : ∀ g : Fin 3, ((1 : Fin 3), (2 : Fin 3)) ≠ (g, g) ∧ (g, (2 : Fin 3)) ≠ (1, g) := by decide

/-- The same for down quarks. -/
theorem eosF_down (hJ : ∀ k ∈ jmsExchange, ∀ p r s t, J (k, [s, t, p, r]) = J (k, [p, r, s, t])) (g : Fin 3) {y : String} {a b d e : ℂ}
    (h : ∀ p q r s : Leg, p.flav = (.d, 1) → q.flav = (.d, 2) → r.flav = (.d, g) → s.flav = (.d, g) →
      LeftSpins p.spin q.spin r.spin s.spin → (jmsLag J).anti p q r s = leftForm a b d e p q r s) {F : String → ℂ}
    (hF : F = bat J (fierzDDDD y 1 2 g g)) :
    F ("F" ++ y ++ "1") = a ∧ F ("F" ++ y ++ "2") = b ∧ F ("F" ++ y ++ "3") = d ∧ F ("F" ++ y ++ "4") = e := by
  refine leftForm_inj (.d, 1) (.d, 2) (.d, g) (.d, g) fun p q r s hp hq hr hs hz => ?_
  rw [← h p q r s hp hq hr hs hz]
  simp only [Leg.flav, Prod.mk.injEq] at hp hq hr hs
  have hF' : ∀ t ∈ fierzDDDD y p.gen q.gen r.gen s.gen, F t.1 = t.2.val J := by
    rw [hp.2, hq.2, hr.2, hs.2, hF]
    exact fun t ht => bat_mem (b := fierzDDDD y 1 2 g g) (nodup_fierzDDDD _ _ _ _ _) (k := t.1) (e := t.2) ht _
  have g1 : (p.gen, q.gen) ≠ (r.gen, s.gen) := by
    rw [hp.2, hq.2, hr.2, hs.2]; exact (sb_gen g).1
  have g2 : (r.gen, q.gen) ≠ (p.gen, s.gen) := by
    rw [hp.2, hq.2, hr.2, hs.2]; exact (sb_gen g).2
  have hg : ∀ g : Fin 3, g = 0 ∨ g = 1 ∨ g = 2 := by decide
  symm
  rcases hg g with h0 | h0 | h0
  · exact left_dGen J _ _ hp.1 hq.1 hz hJ hr.1 hs.1 g1 g2 hF' (by rw [hr.2, hs.2])
  · exact left_d24 J _ _ hp.1 hq.1 hz hJ hr.1 hs.1 g1 g2 hF' (by rw [hr.2, hp.2, h0])
  · exact left_d22 J _ _ hp.1 hq.1 hz hJ hr.1 hs.1 g1 g2 hF' (by rw [hs.2, hq.2, h0])

end

/-- Four-quark coefficients of a Lagrangian of the EOS form. -/
theorem eos_recovery {P : PEnv} (hP : Admissible P) (hm : P.p.m_b ^ 2 ≠ P.p.m_s ^ 2) (J : JSrc → ℂ)
    (hJ : ∀ k ∈ jmsExchange, ∀ p r s t, J (k, [s, t, p, r]) = J (k, [p, r, s, t])) (wu wc : ℂ) (c : String → ℂ)
    (h : ∀ x ∈ [((.u, 0) : Kind × Fin 3), (.u, 1), (.d, 0), (.d, 1), (.d, 2)], ∀ p q r s : Leg,
      p.flav = (.d, 1) → q.flav = (.d, 2) → r.flav = x → s.flav = x →
        (jmsLag J).anti p q r s = (qLag (eosQuark P.p.GF P.V wu wc) c).anti p q r s) :
    let D := bat J (blkEos P).flatten
    D "b->s::c1" = (wu + wc) / 2 * c "b->s::c1" ∧ D "b->s::c2" = (wu + wc) / 2 * c "b->s::c2" ∧ D "b->s::c3" = c "b->s::c3" ∧
      D "b->s::c4" = c "b->s::c4" ∧ D "b->s::c5" = c "b->s::c5" ∧ D "b->s::c6" = c "b->s::c6" := by
  have names : "F" ++ "sbuu" = "Fsbuu" ∧ "F" ++ "sbcc" = "Fsbcc" ∧ "F" ++ "sbdd" = "Fsbdd" ∧ "F" ++ "sbss" = "Fsbss" ∧
      "F" ++ "sbbb" = "Fsbbb" := by decide +kernel
  obtain ⟨d1, d2, d3, d4, d5⟩ := eosDicts_find
  have t1 : jmsFierzV "sbuu" = .ok (fierzDDUU "sbuu" 1 2 0 0) := by
    have := eosFierz_u 0 (by decide); rwa [show "sb" ++ (qname (.u, 0) ++ qname (.u, 0)) = "sbuu" by decide +kernel] at this
  have t2 : jmsFierzV "sbcc" = .ok (fierzDDUU "sbcc" 1 2 1 1) := by
    have := eosFierz_u 1 (by decide); rwa [show "sb" ++ (qname (.u, 1) ++ qname (.u, 1)) = "sbcc" by decide +kernel] at this
  have t3 : jmsFierzV "sbdd" = .ok (fierzDDDD "sbdd" 1 2 0 0) := by
    have := eosFierz_d 0; rwa [show "sb" ++ (qname (.d, 0) ++ qname (.d, 0)) = "sbdd" by decide +kernel] at this
  have t4 : jmsFierzV "sbss" = .ok (fierzDDDD "sbss" 1 2 1 1) := by
    have := eosFierz_d 1; rwa [show "sb" ++ (qname (.d, 1) ++ qname (.d, 1)) = "sbss" by decide +kernel] at this
  have t5 : jmsFierzV "sbbb" = .ok (fierzDDDD "sbbb" 1 2 2 2) := by
    have := eosFierz_d 2; rwa [show "sb" ++ (qname (.d, 2) ++ qname (.d, 2)) = "sbbb" by decide +kernel] at this
  have Hu := eosF_up J 0 (y := "sbuu") (F := fun k => eosF J ("F" ++ "sbuu", k)) (fun p q r s hp hq hr hs hz =>
    (h (.u, 0) (by simp) p q r s hp hq hr hs).trans (by rw [eosQ_u _ _ _ _ _ hp hq hr hs, qVal_pen, qVal_cur, leftForm_sub])) (funext fun k => eosF_eq J d1 t1 k)
  have Hc' := eosF_up J 1 (y := "sbcc") (F := fun k => eosF J ("F" ++ "sbcc", k)) (fun p q r s hp hq hr hs hz =>
    (h (.u, 1) (by simp) p q r s hp hq hr hs).trans (by rw [eosQ_c _ _ _ _ _ hp hq hr hs, qVal_pen, qVal_cur, leftForm_sub])) (funext fun k => eosF_eq J d2 t2 k)
  have Hd := eosF_down J hJ 0 (y := "sbdd") (F := fun k => eosF J ("F" ++ "sbdd", k)) (fun p q r s hp hq hr hs hz =>
    (h (.d, 0) (by simp) p q r s hp hq hr hs).trans (by rw [eosQ_d _ _ _ _ _ hp hq hr hs, qVal_pen])) (funext fun k => eosF_eq J d3 t3 k)
  have Hs' := eosF_down J hJ 1 (y := "sbss") (F := fun k => eosF J ("F" ++ "sbss", k)) (fun p q r s hp hq hr hs hz =>
    (h (.d, 1) (by simp) p q r s hp hq hr hs).trans (by rw [eosQ_s _ _ _ _ _ hp hq hr hs, qVal_pen, qVal_pen, leftForm_perm2 hz, leftForm_sub])) (funext fun k => eosF_eq J d4 t4 k)
  have Hb := eosF_down J hJ 2 (y := "sbbb") (F := fun k => eosF J ("F" ++ "sbbb", k)) (fun p q r s hp hq hr hs hz =>
    (h (.d, 2) (by simp) p q r s hp hq hr hs).trans (by rw [eosQ_b _ _ _ _ _ hp hq hr hs, qVal_pen, qVal_pen, leftForm_perm3 hz, leftForm_sub])) (funext fun k => eosF_eq J d5 t5 k)
  obtain ⟨n1, n2, n3, n4, n5⟩ := names
  have m : "Fsbuu" ++ "1" = "Fsbuu1" ∧ "Fsbuu" ++ "2" = "Fsbuu2" ∧ "Fsbuu" ++ "3" = "Fsbuu3" ∧ "Fsbuu" ++ "4" = "Fsbuu4" ∧
      "Fsbcc" ++ "1" = "Fsbcc1" ∧ "Fsbcc" ++ "2" = "Fsbcc2" ∧ "Fsbcc" ++ "3" = "Fsbcc3" ∧ "Fsbcc" ++ "4" = "Fsbcc4" ∧
      "Fsbdd" ++ "1" = "Fsbdd1" ∧ "Fsbdd" ++ "2" = "Fsbdd2" ∧ "Fsbdd" ++ "3" = "Fsbdd3" ∧ "Fsbdd" ++ "4" = "Fsbdd4" ∧
      "Fsbss" ++ "1" = "Fsbss1" ∧ "Fsbss" ++ "2" = "Fsbss2" ∧ "Fsbss" ++ "3" = "Fsbss3" ∧ "Fsbss" ++ "4" = "Fsbss4" ∧
      "Fsbbb" ++ "1" = "Fsbbb1" ∧ "Fsbbb" ++ "2" = "Fsbbb2" ∧ "Fsbbb" ++ "3" = "Fsbbb3" ∧ "Fsbbb" ++ "4" = "Fsbbb4" := by decide +kernel
  simp only [n1, n2, n3, n4, n5, m] at Hu Hc' Hd Hs' Hb
  have hN : prefEosv P * eosN P.p.GF P.V = 1 := by
    have h1 : (P.p.GF : ℂ) ≠ 0 := by exact_mod_cast hP.GF
    have h2 : ((Real.sqrt 2 : ℝ) : ℂ) ≠ 0 := by exact_mod_cast (Real.sqrt_pos.2 (by norm_num)).ne'
    have h3 := hP.V 2 2
    have h4 : starRingEnd ℂ (P.V 2 1) ≠ 0 := (map_ne_zero _).2 (hP.V 2 1)
    unfold prefEosv eosN ckmTop
    push_cast
    field_simp
  have hV := etable_V hP J hm
  simp only [scaleBy, fierzEosVTable, List.map_cons, List.map_nil, List.forall_mem_cons, Ex.val_add, Ex.val_sub, Ex.val_neg, Ex.val_mul,
    Ex.val_div, Ex.val_src, key2, penL] at hV Hu Hc' Hd Hs' Hb
  obtain ⟨V1, V2, V3, V4, V5, V6, -⟩ := hV
  obtain ⟨u1, u2, u3, u4⟩ := Hu
  obtain ⟨c1, c2, c3, c4⟩ := Hc'
  obtain ⟨d1, d2, d3, d4⟩ := Hd
  obtain ⟨s1, s2, s3, s4⟩ := Hs'
  obtain ⟨b1, b2, b3, b4⟩ := Hb
  intro D
  refine ⟨?_, ?_, ?_, ?_, ?_, ?_⟩
  · rw [show D "b->s::c1" = _ from V1, u1, c1, d1, d2, s1, b1]; linear_combination ((wu + wc) / 2 * c "b->s::c1") * hN
  · rw [show D "b->s::c2" = _ from V2, u1, c1, d1, d2, s1, b1, u2, c2]; linear_combination ((wu + wc) / 2 * c "b->s::c2") * hN
  · rw [show D "b->s::c3" = _ from V3, u3, u4, c3, c4, d1, d2, d3, d4, s1, s3, s4, b1, b3, b4]; linear_combination c "b->s::c3" * hN
  · rw [show D "b->s::c4" = _ from V4, u4, c4, d1, d2, d4, s1, s4, b1, b4]; linear_combination c "b->s::c4" * hN
  · rw [show D "b->s::c5" = _ from V5, u3, u4, c3, c4, d1, d2, d3, d4, s1, s3, s4, b1, b3, b4]; linear_combination c "b->s::c5" * hN
  · rw [show D "b->s::c6" = _ from V6, u4, c4, d1, d2, d4, s1, s4, b1, b4]; linear_combination c "b->s::c6" * hN

end Verif
