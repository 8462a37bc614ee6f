import Verif.Lemmas.LagMain

/-! `JMS_to_flavio` preserves the Lagrangian: tables and operator identities. -/

set_option autoImplicit false
set_option linter.unusedSimpArgs false

namespace Verif

open Spec

section

variable {S : Type} {bs : List (Block S)} (hn : (bkeys bs.flatten).Nodup) (J : S → ℂ)

include hn

theorem nodup_block {b : Block S} (hb : b ∈ bs) : (bkeys b).Nodup := by
  refine List.Nodup.sublist ?_ hn
  unfold bkeys
  exact (List.sublist_flatten_of_mem hb).map _

theorem bat_in {b : Block S} (hb : b ∈ bs) : ∀ p ∈ b, bat J bs.flatten p.1 = p.2.val J := by
  intro p hp
  rw [bat_flatten hn hb (List.mem_map.2 ⟨p, hp, rfl⟩) J]
  exact bat_mem (nodup_block hn hb) (k := p.1) (e := p.2) hp J

theorem bat_in2 {b : Block S} {b' : Block String} (hb : comp b b' ∈ bs) (hb' : (bkeys b).Nodup) : ∃ F : String → ℂ,
    (∀ p ∈ b, F p.1 = p.2.val J) ∧ ∀ p ∈ b', bat J bs.flatten p.1 = p.2.val F := by
  have h := nodup_block hn hb
  rw [bkeys_comp] at h
  refine ⟨bat J b, fun p hp => bat_mem hb' (k := p.1) (e := p.2) hp J, fun p hp => ?_⟩
  rw [bat_flatten hn hb (by rw [bkeys_comp]; exact List.mem_map.2 ⟨p, hp, rfl⟩) J, bat_comp]
  exact bat_mem h (k := p.1) (e := p.2) hp _

end

/-- `JMS_to_flavio` in terms of full tensors. -/
theorem jmsToFlavio_tensor {E : WEnv} {P : PEnv} {scale : ℝ} {par : Option (Dict String ℝ)} (hp : penv E scale par = .ok P)
    (hP : Admissible P) (hL : JmsListing E.jms) {C : Dict String ℂ} {J : JSrc → ℂ} (hJ : JmsFull E.jms C J) :
    jmsToFlavio E C scale par = .ok (bval J (blkJmsFlavio P).flatten) := by
  obtain ⟨Ca, h1, h2⟩ := jms_readable hL C
  unfold jmsToFlavio
  rw [hp, except_ok_bind, h1, except_ok_bind, jobsJmsFlavio_eq hP (v := J) fun s hs => by rw [h2 s hs, jmsTensor_eq hL hJ hs],
    updAll_ofPairs, Dict.ofPairs_of_nodup]
  apply WF_bval
  rw [bkeys_blkJmsFlavio hP]; exact keysFlavio_nodup

section

variable {P : PEnv} (hP : Admissible P) (J : JSrc → ℂ)

include hP

theorem blkJmsFlavio_nodup : (bkeys (blkJmsFlavio P).flatten).Nodup := by rw [bkeys_blkJmsFlavio hP]; exact keysFlavio_nodup

theorem ftable_I : ∀ x ∈ ddPairs, ∃ W : String → ℂ,
    (∀ p ∈ jmsBernIDown (qname (.d, x.1) ++ qname (.d, x.2)) [x.1, x.2] [x.2, x.1], W p.1 = p.2.val J) ∧
    ∀ p ∈ bernFlavioITable (qname (.d, x.1) ++ qname (.d, x.2)) (qname (.d, x.2) ++ qname (.d, x.1)),
      bat J (blkJmsFlavio P).flatten p.1 = p.2.val W := by
  intro x hx
  have h : ∀ x ∈ ddPairs, qname (.d, x.1) ++ qname (.d, x.2) ∈ ["sb", "db", "ds"] ∧
      Dict.get dflav (chr (qname (.d, x.1) ++ qname (.d, x.2)) 0) = .ok x.1 ∧
      Dict.get dflav (chr (qname (.d, x.1) ++ qname (.d, x.2)) 1) = .ok x.2 ∧
      pyRev (qname (.d, x.1) ++ qname (.d, x.2)) = qname (.d, x.2) ++ qname (.d, x.1) := by decide +kernel
  obtain ⟨h1, h2, h3, h4⟩ := h x hx
  have e : jmsBernI (qname (.d, x.1) ++ qname (.d, x.2)) =
      .ok (jmsBernIDown (qname (.d, x.1) ++ qname (.d, x.2)) [x.1, x.2] [x.2, x.1]) := by
    unfold jmsBernI; rw [if_pos h1, h2, h3]; rfl
  have e' := bernFlavioI_eq h1
  rw [h4] at e'
  refine bat_in2 (blkJmsFlavio_nodup hP) J ?_ ?_
  · have : comp (okOr (jmsBernI (qname (.d, x.1) ++ qname (.d, x.2)))) (okOr (bernFlavioI (qname (.d, x.1) ++ qname (.d, x.2))))
        ∈ blkJmsFlavio P := by
      unfold blkJmsFlavio
      simp only [List.mem_append, List.mem_map]
      exact Or.inl (Or.inl (Or.inl ⟨_, h1, rfl⟩))
    rw [e, e'] at this; exact this
  · exact nodup_suffix (L := ["1", "2", "3", "4", "5", "1p", "2p", "3p"]) (by decide +kernel) _

theorem ftable_II : ∀ u ∈ [0, 1], ∀ d l n : Fin 3, ∃ W : String → ℂ,
    (∀ p ∈ jmsBernIITable (suf (.u, u) (.d, d) (.e, l) (.nu, n)) u d l n, W p.1 = p.2.val J) ∧
    ∀ p ∈ scaleBy (prefIIv P u d) (bernFlavioIITable (suf (.u, u) (.d, d) (.e, l) (.nu, n))
      (qname (.d, d) ++ (qname (.u, u) ++ (qname (.e, l) ++ ("nu" ++ qname (.nu, n)))))),
      bat J (blkJmsFlavio P).flatten p.1 = p.2.val W := by
  intro u hu d l n
  have h : ∀ u ∈ [(0 : Fin 3), 1], ∀ d l n : Fin 3,
      let x := nameLep (qname (.u, u) ++ qname (.d, d)) (qname (.e, l), qname (.nu, n))
      x ∈ namesII ∧ indII x = suf (.u, u) (.d, d) (.e, l) (.nu, n) ∧ flavII x = .ok (u, d, l, n) ∧
      indIIfl x = qname (.d, d) ++ (qname (.u, u) ++ (qname (.e, l) ++ ("nu" ++ qname (.nu, n)))) := by decide +kernel
  obtain ⟨h1, h2, h3, h4⟩ := h u hu d l n
  have e' := bernFlavioII_eq hP h3
  rw [h2, h4] at e'
  refine bat_in2 (blkJmsFlavio_nodup hP) J ?_ ?_
  · have : comp (okOr (jmsBernII (nameLep (qname (.u, u) ++ qname (.d, d)) (qname (.e, l), qname (.nu, n)))))
        (okOr (bernFlavioII P (nameLep (qname (.u, u) ++ qname (.d, d)) (qname (.e, l), qname (.nu, n))))) ∈ blkJmsFlavio P := by
      unfold blkJmsFlavio
      simp only [List.mem_append, List.mem_map]
      exact Or.inl (Or.inl (Or.inr ⟨_, h1, rfl⟩))
    rw [e'] at this
    unfold jmsBernII at this
    rw [h3, h2] at this; exact this
  · exact nodup_suffix (L := ["1", "5", "1p", "5p", "7p"]) (by decide +kernel) _

omit hP in
/-- The names of the lepton sectors. -/
theorem lep_names : ∀ x ∈ ddPairs, ∀ l n : Fin 3,
    (qname (.e, l), qname (.e, n)) ∈ leptonPairs ∧ qname (.d, x.1) ++ qname (.d, x.2) ∈ ["sb", "db", "ds"] ∧
    let y := nameLep (qname (.d, x.1) ++ qname (.d, x.2)) (qname (.e, l), qname (.e, n))
    indLep y = suf (.d, x.1) (.d, x.2) (.e, l) (.e, n) ∧ Dict.get dflav (chr y 0) = .ok x.1 ∧
    Dict.get dflav (chr y 1) = .ok x.2 ∧ Dict.get lflav (lepPart y) = .ok l ∧ Dict.get lflav (nuPart y) = .ok n ∧
    indLepFl y = qname (.d, x.2) ++ (qname (.d, x.1) ++ (qname (.e, l) ++ qname (.e, n))) ∧
    indNuFl y = qname (.d, x.2) ++ (qname (.d, x.1) ++ ("nu" ++ (qname (.nu, l) ++ ("nu" ++ qname (.nu, n))))) := by
  decide +kernel

omit hP in
theorem xiv_eq : ∀ x ∈ ddPairs, xiv P (qname (.d, x.1) ++ qname (.d, x.2)) = ckmTop P.V x := by
  intro x hx
  simp only [ddPairs, List.mem_cons, List.not_mem_nil, or_false] at hx
  rcases hx with rfl | rfl | rfl
  · have : qname (.d, 1) ++ qname (.d, 2) = "sb" := by decide +kernel
    simp only [this]; rfl
  · have : qname (.d, 0) ++ qname (.d, 2) = "db" := by decide +kernel
    simp only [this]; rfl
  · have : qname (.d, 0) ++ qname (.d, 1) = "ds" := by decide +kernel
    simp only [this]; rfl

/-- Neutrinos for all quark flavours; charged leptons except for `d -> s`. -/
theorem ftable_lep : ∀ x ∈ ddPairs, ∀ l n : Fin 3, ∃ F : String → ℂ,
    (∀ p ∈ jmsFierzLepTable (suf (.d, x.1) (.d, x.2) (.e, l) (.e, n)) x.1 x.2 l n, F p.1 = p.2.val J) ∧
    (∀ p ∈ scaleBy (prefXiv P (ckmTop P.V x)) (fierzFlavioNuTable (suf (.d, x.1) (.d, x.2) (.e, l) (.e, n))
      (qname (.d, x.2) ++ (qname (.d, x.1) ++ ("nu" ++ (qname (.nu, l) ++ ("nu" ++ qname (.nu, n)))))) (k8v P)),
      bat J (blkJmsFlavio P).flatten p.1 = p.2.val F) ∧
    (x ≠ (0, 1) → ∀ p ∈ scaleBy (prefXiv P (ckmTop P.V x)) (fierzFlavioLepTable (suf (.d, x.1) (.d, x.2) (.e, l) (.e, n))
      (qname (.d, x.2) ++ (qname (.d, x.1) ++ (qname (.e, l) ++ qname (.e, n)))) (k16v P) (kSv P)),
      bat J (blkJmsFlavio P).flatten p.1 = p.2.val F) := by
  intro x hx l n
  obtain ⟨h1, h2, h3, h4, h5, h6, h7, h8, h9⟩ := lep_names x hx l n
  have hm := mem_namesLep (qname (.d, x.1) ++ qname (.d, x.2)) h1
  obtain ⟨e1, e2⟩ := fierzFlavioLep_eq hP h2 hm
  generalize hy : nameLep (qname (.d, x.1) ++ qname (.d, x.2)) (qname (.e, l), qname (.e, n)) = y at *
  rw [xiv_eq x hx, h3, h9] at e1 e2
  rw [h8] at e1
  have ej : jmsFierzLep y = .ok (jmsFierzLepTable (suf (.d, x.1) (.d, x.2) (.e, l) (.e, n)) x.1 x.2 l n) := by
    unfold jmsFierzLep
    rw [h3, h4, h5, h6, h7]; rfl
  by_cases hx' : x = (0, 1)
  · have : comp (okOr (jmsFierzLep y)) (okOr (fierzFlavioLep P y false)) ∈ blkJmsFlavio P := by
      unfold blkJmsFlavio
      simp only [List.mem_append, List.mem_flatMap]
      refine Or.inl (Or.inr ⟨_, h1, ?_⟩)
      have h : qname (.d, x.1) ++ qname (.d, x.2) = "ds" := by rw [hx']; decide +kernel
      rw [← hy, h]
      simp
    rw [ej, e2] at this
    obtain ⟨F, hF, hW⟩ := bat_in2 (blkJmsFlavio_nodup hP) J this (nodup_jmsFierzLep _ _ _ _ _)
    exact ⟨F, hF, hW, fun h => absurd hx' h⟩
  · have : comp (okOr (jmsFierzLep y)) (okOr (fierzFlavioLep P y true)) ∈ blkJmsFlavio P := by
      unfold blkJmsFlavio
      simp only [List.mem_append, List.mem_flatMap]
      refine Or.inl (Or.inr ⟨_, h1, ?_⟩)
      have h : ∀ x ∈ ddPairs, x ≠ (0, 1) → qname (.d, x.1) ++ qname (.d, x.2) = "sb" ∨ qname (.d, x.1) ++ qname (.d, x.2) = "db" := by
        decide +kernel
      rw [← hy]
      rcases h x hx hx' with h | h <;> rw [h] <;> simp
    rw [ej, e1] at this
    obtain ⟨F, hF, hW⟩ := bat_in2 (blkJmsFlavio_nodup hP) J this (nodup_jmsFierzLep _ _ _ _ _)
    refine ⟨F, hF, fun p hp => hW p ?_, fun _ p hp => hW p ?_⟩
    · simp only [okOr, scaleBy, List.map_append]; exact List.mem_append_left _ hp
    · simp only [okOr, scaleBy, List.map_append]; exact List.mem_append_right _ hp

theorem ftable_chrom : ∀ x ∈ [((1, 2) : Fin 3 × Fin 3), (0, 2)], ∃ F : String → ℂ,
    (∀ p ∈ jmsFierzChromTable (qname (.d, x.1) ++ qname (.d, x.2)) x.1 x.2, F p.1 = p.2.val J) ∧
    ∀ p ∈ scaleBy (prefXiv P (ckmTop P.V x)) (fierzFlavioChromTable (qname (.d, x.1) ++ qname (.d, x.2))
      (qname (.d, x.2) ++ qname (.d, x.1)) (k7v P) (k7gv P)), bat J (blkJmsFlavio P).flatten p.1 = p.2.val F := by
  intro x hx
  have h : ∀ x ∈ [((1, 2) : Fin 3 × Fin 3), (0, 2)], x ∈ ddPairs ∧ qname (.d, x.1) ++ qname (.d, x.2) ∈ ["sb", "db"] ∧
      Dict.get dflav (chr (qname (.d, x.1) ++ qname (.d, x.2)) 0) = .ok x.1 ∧
      Dict.get dflav (chr (qname (.d, x.1) ++ qname (.d, x.2)) 1) = .ok x.2 ∧
      pyRev (qname (.d, x.1) ++ qname (.d, x.2)) = qname (.d, x.2) ++ qname (.d, x.1) := by decide +kernel
  obtain ⟨h0, h1, h2, h3, h4⟩ := h x hx
  have h1' : qname (.d, x.1) ++ qname (.d, x.2) ∈ ["sb", "db", "ds"] := by
    simp only [List.mem_cons, List.not_mem_nil, or_false] at h1 ⊢
    tauto
  have e : jmsFierzChrom (qname (.d, x.1) ++ qname (.d, x.2)) = .ok (jmsFierzChromTable (qname (.d, x.1) ++ qname (.d, x.2)) x.1 x.2) := by
    unfold jmsFierzChrom; rw [h2, h3]; rfl
  have e' := fierzFlavioChrom_eq hP h1'
  rw [xiv_eq x h0, h4] at e'
  refine bat_in2 (blkJmsFlavio_nodup hP) J ?_ (nodup_suffix (L := ["F7gamma", "F8g", "F7pgamma", "F8pg"]) (by decide +kernel) _)
  have : comp (okOr (jmsFierzChrom (qname (.d, x.1) ++ qname (.d, x.2)))) (okOr (fierzFlavioChrom P (qname (.d, x.1) ++ qname (.d, x.2))))
      ∈ blkJmsFlavio P := by
    unfold blkJmsFlavio
    refine List.mem_append_right _ ?_
    generalize qname (.d, x.1) ++ qname (.d, x.2) = y at h1
    simp only [List.mem_cons, List.not_mem_nil, or_false] at h1
    rcases h1 with rfl | rfl <;> simp
  rw [e, e'] at this
  exact this

end

/-! ### Operators -/

theorem dropOp_ne {k k' : String} (h : k' ≠ k) (J : JSrc → ℂ) (i : List (Fin 3)) : dropOp k J (k', i) = J (k', i) := if_neg h

theorem dropOp_eq (k : String) (J : JSrc → ℂ) (i : List (Fin 3)) : dropOp k J (k, i) = 0 := if_pos rfl

/-- `Delta F = 2`. -/
theorem fblock_I (J W c : _ → ℂ) (x y : String) (f1 f2 f3 f4 : Kind × Fin 3) {p q r s : Leg} (hp : p.kind = .d)
    (hq : q.kind = .d) (hr : r.kind = .d) (hs : s.kind = .d) (h1 : r.gen = p.gen) (h2 : s.gen = q.gen)
    (hW : ∀ t ∈ jmsBernIDown x [p.gen, q.gen] [q.gen, p.gen], W t.1 = t.2.val J)
    (hc : ∀ t ∈ bernFlavioITable x y, c t.1 = t.2.val W) :
    let X := (NSector.mk f1 f2 f3 f4 (flavioI y)).val c
    (jmsLag J).anti p q r s = X p q r s - X r q p s - X p s r q + X r s p q := by
  rw [block_I J W x f1 f2 f3 f4 hp hq hr hs h1 h2 hW]
  obtain ⟨r4, s4, r3, s3, v, vLR, vRL, sLR, sRL, sS, tT⟩ := dirRules p.spin q.spin r.spin s.spin
  have c1 := col_one2 p.col q.col r.col s.col
  have c2 := col_cross2 p.col q.col r.col s.col
  have c3 := col_one3 p.col q.col r.col s.col
  have c4 := col_cross3 p.col q.col r.col s.col
  have c5 := col_one4 p.col q.col r.col s.col
  have c6 := col_cross4 p.col q.col r.col s.col
  simp only [bernFlavioITable, List.forall_mem_cons, Ex.val_add, Ex.val_sub, Ex.val_neg, Ex.val_mul, Ex.val_div, Ex.val_src,
    Ex.val_cj] at hc
  obtain ⟨e1, e2, e3, e4, e5, e6, e7, e8, -⟩ := hc
  simp only [Sector.val, opsI, NSector.val, flavioI, List.map_cons, List.map_nil, List.sum_cons, List.sum_nil, add_zero]
  simp only [r4, s4, r3, s3]
  simp only [v, vLR, vRL, sLR, sRL, sS, tT]
  simp only [c1, c2, c3, c4, c5, c6]
  rw [e1, e2, e3, e4, e5, e6, e7, e8]
  push_cast
  ring

/-- Charged currents. -/
theorem fblock_II (J W c : _ → ℂ) (N a : ℂ) (hN : N * a = 1) (x y : String) (f1 f2 f3 f4 : Kind × Fin 3) {p q r s : Leg}
    (hp : p.kind = .u) (hq : q.kind = .d) (hr : r.kind = .e) (hs : s.kind = .nu)
    (hW : ∀ t ∈ jmsBernIITable x p.gen q.gen r.gen s.gen, W t.1 = t.2.val J)
    (hc : ∀ t ∈ scaleBy a (bernFlavioIITable x y), c t.1 = t.2.val W) :
    (jmsLag J).anti p q r s = (NSector.mk f1 f2 f3 f4 (flavioII N y)).val c p q r s := by
  rw [block_II J W x f1 f2 f3 f4 hp hq hr hs hW]
  simp only [scaleBy, bernFlavioIITable, List.map_cons, List.map_nil, List.forall_mem_cons, Ex.val_mul, Ex.val_src] at hc
  obtain ⟨e1, e2, e3, e4, e5, -⟩ := hc
  have m : ∀ z, N * (a * z) = z := fun z => by rw [← mul_assoc, hN, one_mul]
  simp only [Sector.val, opsII, NSector.val, flavioII, List.map_cons, List.map_nil, List.sum_cons, List.sum_nil, add_zero]
  rw [e1, e2, e3, e4, e5]
  simp only [m]
  push_cast
  ring

/-- Down quarks and charged leptons; no tensor operators. -/
theorem fblock_e (J F c : _ → ℂ) (N a : ℂ) (k16 kS mb : ℝ) (hN : N * (a * k16) = 1) (hN' : N * mb * (a * kS) = 1) (x y : String)
    (f1 f2 f3 f4 : Kind × Fin 3) {p q r s : Leg} (hp : p.kind = .d) (hq : q.kind = .d) (hr : r.kind = .e) (hs : s.kind = .e)
    (hF : ∀ t ∈ jmsFierzLepTable x p.gen q.gen r.gen s.gen, F t.1 = t.2.val J)
    (hc : ∀ t ∈ scaleBy a (fierzFlavioLepTable x y k16 kS), c t.1 = t.2.val F) :
    (jmsLag (dropOp "TedRR" J)).anti p q r s = (NSector.mk f1 f2 f3 f4 (flavioLep N mb y)).val c p q r s := by
  have hF' : ∀ t ∈ jmsFierzLepTable x p.gen q.gen r.gen s.gen, bat (dropOp "TedRR" J) (jmsFierzLepTable x p.gen q.gen r.gen s.gen) t.1
      = t.2.val (dropOp "TedRR" J) := fun t ht => bat_mem (nodup_jmsFierzLep _ _ _ _ _) (k := t.1) (e := t.2) ht _
  generalize bat (dropOp "TedRR" J) (jmsFierzLepTable x p.gen q.gen r.gen s.gen) = F' at hF'
  have hW : ∀ t ∈ fierzBernLepTable x, bat F' (fierzBernLepTable x) t.1 = t.2.val F' := fun t ht =>
    bat_mem (nodup_fierzBernLep _) (k := t.1) (e := t.2) ht _
  generalize bat F' (fierzBernLepTable x) = W at hW
  rw [block_e (dropOp "TedRR" J) W F' x f1 f2 f3 f4 hp hq hr hs hF' hW]
  simp only [jmsFierzLepTable, fierzBernLepTable, scaleBy, fierzFlavioLepTable, List.map_cons, List.map_nil, List.forall_mem_cons,
    Ex.val_add, Ex.val_sub, Ex.val_neg, Ex.val_mul, Ex.val_div, Ex.val_src, Ex.val_cj] at hF hF' hW hc
  simp (disch := decide +kernel) only [dropOp_ne, dropOp_eq] at hF'
  obtain ⟨F9, F10, FS, FP, FT, FT5, G9, G10, GS, GP, Fn, Gn, -⟩ := hF
  obtain ⟨F9', F10', FS', FP', FT', FT5', G9', G10', GS', GP', Fn', Gn', -⟩ := hF'
  obtain ⟨W1, W3, W5, W7, W9, V1, V3, V5, V7, V9, Wn, Vn, -⟩ := hW
  obtain ⟨c9, c9p, c10, c10p, cS, cSp, cP, cPp, -⟩ := hc
  have m : ∀ z, N * (a * (k16 * z)) = z := fun z => by linear_combination z * hN
  have m' : ∀ z, N * mb * (a * (kS * z)) = z := fun z => by linear_combination z * hN'
  simp only [Sector.val, opsOdd, NSector.val, flavioLep, List.map_cons, List.map_nil, List.sum_cons, List.sum_nil, add_zero,
    val3_same, val3_LR, val3_RL, val4_same, val4_LR, val4_RL, val_sg_LR, val_sg_RL, zero_add]
  rw [c9, c9p, c10, c10p, cS, cSp, cP, cPp]
  simp only [m, m']
  rw [W1, W3, W5, W7, W9, V1, V3, V5, V7, V9, F9, F10, FS, FP, G9, G10, GS, GP, F9', F10', FS', FP', FT', FT5', G9', G10', GS', GP']
  simp only [map_zero]
  push_cast
  ring

/-- Down quarks and neutrinos. -/
theorem fblock_nu0 (J F c : _ → ℂ) (N a : ℂ) (k8 : ℝ) (hN : N * 2 * (a * k8) = 1) (x y : String)
    (f1 f2 f3 f4 : Kind × Fin 3) {p q r s : Leg} (hp : p.kind = .d) (hq : q.kind = .d) (hr : r.kind = .nu) (hs : s.kind = .nu)
    (hF : ∀ t ∈ jmsFierzLepTable x p.gen q.gen r.gen s.gen, F t.1 = t.2.val J)
    (hc : ∀ t ∈ scaleBy a (fierzFlavioNuTable x y k8), c t.1 = t.2.val F) :
    (jmsLag J).anti p q r s = (NSector.mk f1 f2 f3 f4 (flavioNu N y)).val c p q r s := by
  have hW : ∀ t ∈ fierzBernLepTable x, bat F (fierzBernLepTable x) t.1 = t.2.val F := fun t ht =>
    bat_mem (nodup_fierzBernLep _) (k := t.1) (e := t.2) ht _
  generalize bat F (fierzBernLepTable x) = W at hW
  rw [block_nu J W F x f1 f2 f3 f4 hp hq hr hs hF hW]
  simp only [fierzBernLepTable, scaleBy, fierzFlavioNuTable, List.map_cons, List.map_nil, List.forall_mem_cons,
    Ex.val_add, Ex.val_sub, Ex.val_neg, Ex.val_mul, Ex.val_div, Ex.val_src, Ex.val_cj] at hW hc
  obtain ⟨W1, W3, W5, W7, W9, V1, V3, V5, V7, V9, Wn, Vn, -⟩ := hW
  obtain ⟨cL, cR, -⟩ := hc
  simp only [Sector.val, opsNu, NSector.val, flavioNu, List.map_cons, List.map_nil, List.sum_cons, List.sum_nil, add_zero]
  rw [cL, cR, Wn, Vn]
  push_cast
  linear_combination (-(F ("F" ++ x ++ "nu") * (Dir.g 1 .L .L).val p.spin q.spin r.spin s.spin +
    F ("F" ++ x ++ "nup") * (Dir.g 1 .R .L).val p.spin q.spin r.spin s.spin) * Col.one.val p.col q.col r.col s.col) * hN

theorem fblock_nu (J F c : _ → ℂ) (N a : ℂ) (k8 : ℝ) (hN : N * 2 * (a * k8) = 1) (x y : String)
    (f1 f2 f3 f4 : Kind × Fin 3) {p q r s : Leg} (hp : p.kind = .d) (hq : q.kind = .d) (hr : r.kind = .nu) (hs : s.kind = .nu)
    (hF : ∀ t ∈ jmsFierzLepTable x p.gen q.gen r.gen s.gen, F t.1 = t.2.val J)
    (hc : ∀ t ∈ scaleBy a (fierzFlavioNuTable x y k8), c t.1 = t.2.val F) :
    (jmsLag (dropOp "TedRR" J)).anti p q r s = (NSector.mk f1 f2 f3 f4 (flavioNu N y)).val c p q r s := by
  have hF' : ∀ t ∈ jmsFierzLepTable x p.gen q.gen r.gen s.gen, bat (dropOp "TedRR" J) (jmsFierzLepTable x p.gen q.gen r.gen s.gen) t.1
      = t.2.val (dropOp "TedRR" J) := fun t ht => bat_mem (nodup_jmsFierzLep _ _ _ _ _) (k := t.1) (e := t.2) ht _
  refine fblock_nu0 (dropOp "TedRR" J) _ c N a k8 hN x y f1 f2 f3 f4 hp hq hr hs hF' ?_
  generalize bat (dropOp "TedRR" J) (jmsFierzLepTable x p.gen q.gen r.gen s.gen) = F' at hF'
  simp only [jmsFierzLepTable, scaleBy, fierzFlavioNuTable, List.map_cons, List.map_nil, List.forall_mem_cons,
    Ex.val_add, Ex.val_sub, Ex.val_neg, Ex.val_mul, Ex.val_div, Ex.val_src, Ex.val_cj, List.not_mem_nil, false_implies,
    implies_true, and_true] at hF hF' hc ⊢
  simp (disch := decide +kernel) only [dropOp_ne, dropOp_eq] at hF'
  obtain ⟨F9, F10, FS, FP, FT, FT5, G9, G10, GS, GP, Fn, Gn⟩ := hF
  obtain ⟨F9', F10', FS', FP', FT', FT5', G9', G10', GS', GP', Fn', Gn'⟩ := hF'
  rw [Fn', Gn', ← Fn, ← Gn]
  exact hc

theorem drop_I (J W : _ → ℂ) (x : String) (a b : Fin 3) (h : ∀ t ∈ jmsBernIDown x [a, b] [b, a], W t.1 = t.2.val J) :
    ∀ t ∈ jmsBernIDown x [a, b] [b, a], W t.1 = t.2.val (dropOp "TedRR" J) := by
  simp only [jmsBernIDown, List.forall_mem_cons,
    Ex.val_add, Ex.val_sub, Ex.val_neg, Ex.val_mul, Ex.val_div, Ex.val_src, Ex.val_cj, List.not_mem_nil, false_implies,
    implies_true, and_true] at h ⊢
  simp (disch := decide +kernel) only [dropOp_ne]
  exact h

theorem drop_II (J W : _ → ℂ) (x : String) (a b c d : Fin 3) (h : ∀ t ∈ jmsBernIITable x a b c d, W t.1 = t.2.val J) :
    ∀ t ∈ jmsBernIITable x a b c d, W t.1 = t.2.val (dropOp "TedRR" J) := by
  simp only [jmsBernIITable, List.forall_mem_cons,
    Ex.val_add, Ex.val_sub, Ex.val_neg, Ex.val_mul, Ex.val_div, Ex.val_src, Ex.val_cj, List.not_mem_nil, false_implies,
    implies_true, and_true] at h ⊢
  simp (disch := decide +kernel) only [dropOp_ne]
  exact h

theorem dropOp_full {L : List String} {C : Dict String ℂ} {J : JSrc → ℂ} (hJ : JmsFull L C J) :
    JmsFull [] [] (dropOp "TedRR" J) where
  listed _ _ h := absurd h List.not_mem_nil
  herm k hk p r s t := by
    have h : ∀ k ∈ jmsHermitian, k ≠ "TedRR" := by decide +kernel
    rw [dropOp_ne (h k hk), dropOp_ne (h k hk), hJ.herm k hk]
  exch k hk p r s t := by
    have h : ∀ k ∈ jmsExchange, k ≠ "TedRR" := by decide +kernel
    rw [dropOp_ne (h k hk), dropOp_ne (h k hk), hJ.exch k hk]

/-! ### Sectors -/

/-- Flavours of the sectors. -/
def flavioKeys : List F4 :=
  (ddPairs.map fun x => ((.d, x.1), (.d, x.2), (.d, x.1), (.d, x.2))) ++
  ([0, 1].flatMap fun u => [0, 1, 2].flatMap fun d => [0, 1, 2].flatMap fun l => [0, 1, 2].map fun n => ((.u, u), (.d, d), (.e, l), (.nu, n))) ++
  ([(1, 2), (0, 2)].flatMap fun x => [0, 1, 2].flatMap fun l => [0, 1, 2].map fun l' => ((.d, x.1), (.d, x.2), (.e, l), (.e, l'))) ++
  (ddPairs.flatMap fun x => [0, 1, 2].flatMap fun l => [0, 1, 2].map fun l' => ((.d, x.1), (.d, x.2), (.nu, l), (.nu, l')))

theorem flavioKeys_eq (GF alpha mb : ℝ) (V : M3) : (flavioSectors GF alpha mb V).map NSector.key = flavioKeys := by
  unfold flavioSectors flavioKeys
  simp only [List.map_append, List.map_flatMap, List.map_map, Function.comp_def, NSector.key]

theorem flavioKeys_nodup : flavioKeys.Nodup := by decide +kernel

theorem flavioKeys_conj : ∀ k ∈ flavioKeys, ∀ k' ∈ conjs k, k' ∉ flavioKeys := by decide +kernel

section

variable {P : PEnv} (hP : Admissible P)

include hP

theorem normII (u d : Fin 3) : -((4 * P.p.GF / Real.sqrt 2 : ℝ) : ℂ) * P.V u d * prefIIv P u d = 1 := by
  have h1 : (P.p.GF : ℂ) ≠ 0 := by exact_mod_cast hP.GF
  have h2 : ((Real.sqrt 2 : ℝ) : ℂ) ≠ 0 := by exact_mod_cast sqrt2_ne
  have h3 := hP.V u d
  unfold prefIIv
  push_cast
  field_simp

theorem normXi {x : Fin 3 × Fin 3} (g k : ℝ) (hg : g * k = 1) :
    ((4 * P.p.GF / Real.sqrt 2 : ℝ) : ℂ) * ckmTop P.V x * (g : ℂ) * (prefXiv P (ckmTop P.V x) * k) = 1 := by
  have h1 : (P.p.GF : ℂ) ≠ 0 := by exact_mod_cast hP.GF
  have h2 : ((Real.sqrt 2 : ℝ) : ℂ) ≠ 0 := by exact_mod_cast sqrt2_ne
  have h3 : ckmTop P.V x ≠ 0 := mul_ne_zero (hP.V _ _) ((map_ne_zero _).2 (hP.V _ _))
  have h4 : (g : ℂ) * k = 1 := by exact_mod_cast hg
  unfold prefXiv
  push_cast
  field_simp
  linear_combination h4

theorem ev_sq : ev P ^ 2 = 4 * Real.pi * P.p.alpha_e := by
  unfold ev
  exact Real.sq_sqrt (by have := hP.alpha_e; have := Real.pi_pos; positivity)

theorem flavio_direct (J : JSrc → ℂ) {p q r s : Leg}
    (h : fl4 p q r s ∈ flavioKeys) : (jmsLag (dropOp "TedRR" J)).anti p q r s =
      (nSum (flavioSectors P.p.GF P.p.alpha_e P.p.m_b P.V) (bat J (blkJmsFlavio P).flatten)).anti p q r s := by
  have hn : ((flavioSectors P.p.GF P.p.alpha_e P.p.m_b P.V).map NSector.key).Nodup := by rw [flavioKeys_eq]; exact flavioKeys_nodup
  have hpi := Real.pi_ne_zero
  have hev := ev_ne hP
  have he := sq_ne (ev_ne hP)
  have h0 := hP.m_b
  have hk := h
  rw [← flavioKeys_eq P.p.GF P.p.alpha_e P.p.m_b P.V] at h
  obtain ⟨x, hx, hk⟩ := List.mem_map.1 h
  have hx' := hx
  unfold flavioSectors at hx
  simp only [List.mem_append, List.mem_flatMap, List.mem_map] at hx
  rcases hx with ((hx | hx) | hx) | hx
  · obtain ⟨y, hy, rfl⟩ := hx
    rw [nSum_antiI hn hx' _ hk.symm rfl rfl rfl]
    obtain ⟨⟨hp, hp'⟩, ⟨hq, hq'⟩, ⟨hr, hr'⟩, hs, hs'⟩ := fl4_elim (k1 := .d) (k2 := .d) (k3 := .d) (k4 := .d) hk.symm
    obtain ⟨W, hW, hc⟩ := ftable_I hP J y hy
    exact fblock_I (dropOp "TedRR" J) W _ _ _ _ _ _ _ hp hq hr hs (hr'.trans hp'.symm) (hs'.trans hq'.symm)
      (by rw [hp', hq']; exact drop_I _ _ _ _ _ hW) hc
  · obtain ⟨u, hu, d, -, l, -, n, -, rfl⟩ := hx
    have hc : ∀ u ∈ [(0 : Fin 3), 1], ∀ d l n : Fin 3, ∀ f ∈ [perm2, perm3, perm4],
        f ((.u, u), (.d, d), (.e, l), (.nu, n)) ∉ flavioKeys := by decide +kernel
    rw [nSum_anti hn hx' _ hk.symm (by rw [flavioKeys_eq]; exact hc u hu d l n)]
    obtain ⟨⟨hp, hp'⟩, ⟨hq, hq'⟩, ⟨hr, hr'⟩, hs, hs'⟩ := fl4_elim (k1 := .u) (k2 := .d) (k3 := .e) (k4 := .nu) hk.symm
    obtain ⟨W, hW, hc⟩ := ftable_II hP J u hu d l n
    exact fblock_II (dropOp "TedRR" J) W _ _ _ (normII hP u d) _ _ _ _ _ _ hp hq hr hs
      (by rw [hp', hq', hr', hs']; exact drop_II _ _ _ _ _ _ _ hW) hc
  · obtain ⟨y, hy, l, -, n, -, rfl⟩ := hx
    have hd : ∀ y ∈ [((1, 2) : Fin 3 × Fin 3), (0, 2)], y ∈ ddPairs ∧ y ≠ (0, 1) := by decide +kernel
    obtain ⟨hy', hy1⟩ := hd y hy
    have hc : ∀ y ∈ ddPairs, ∀ l n : Fin 3, ∀ f ∈ [perm2, perm3, perm4],
        f ((.d, y.1), (.d, y.2), (.e, l), (.e, n)) ∉ flavioKeys := by decide +kernel
    rw [nSum_anti hn hx' _ hk.symm (by rw [flavioKeys_eq]; exact hc y hy' l n)]
    obtain ⟨⟨hp, hp'⟩, ⟨hq, hq'⟩, ⟨hr, hr'⟩, hs, hs'⟩ := fl4_elim (k1 := .d) (k2 := .d) (k3 := .e) (k4 := .e) hk.symm
    obtain ⟨F, hF, -, hc⟩ := ftable_lep hP J y hy' l n
    refine fblock_e J F _ _ _ _ _ _ ?_ ?_ _ _ _ _ _ _ hp hq hr hs (by rw [hp', hq', hr', hs']; exact hF) (hc hy1)
    · refine normXi hP _ _ ?_
      rw [← ev_sq hP]; unfold k16v; field_simp
    · have := normXi hP (x := y) (4 * Real.pi * P.p.alpha_e / (16 * Real.pi ^ 2) * P.p.m_b) (kSv P)
        (by rw [← ev_sq hP]; unfold kSv k16v; field_simp)
      rw [← this]; unfold normLoop; push_cast; ring
  · obtain ⟨y, hy, l, -, n, -, rfl⟩ := hx
    have hc : ∀ y ∈ ddPairs, ∀ l n : Fin 3, ∀ f ∈ [perm2, perm3, perm4],
        f ((.d, y.1), (.d, y.2), (.nu, l), (.nu, n)) ∉ flavioKeys := by decide +kernel
    rw [nSum_anti hn hx' _ hk.symm (by rw [flavioKeys_eq]; exact hc y hy l n)]
    obtain ⟨⟨hp, hp'⟩, ⟨hq, hq'⟩, ⟨hr, hr'⟩, hs, hs'⟩ := fl4_elim (k1 := .d) (k2 := .d) (k3 := .nu) (k4 := .nu) hk.symm
    obtain ⟨F, hF, hc, -⟩ := ftable_lep hP J y hy l n
    refine fblock_nu J F _ _ _ _ ?_ _ _ _ _ _ _ hp hq hr hs (by rw [hp', hq', hr', hs']; exact hF) hc
    have := normXi hP (x := y) (4 * Real.pi * P.p.alpha_e / (16 * Real.pi ^ 2) * 2) (k8v P)
      (by rw [← ev_sq hP]; unfold k8v; field_simp; norm_num)
    rw [← this]; unfold normLoop; push_cast; ring

end

end Verif
