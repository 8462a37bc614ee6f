import Verif.Props.MatchLag
import Verif.Props.LagFlavio

/-! C74 and C75: the effective Lagrangian in the matching from SMEFT to WET followed by the translation to the Bern basis or to
flavio. -/

set_option autoImplicit false

namespace Verif

open Spec

/-! ### The two normalisations of the JMS Lagrangian -/

theorem jmsLag_anti (J : JSrc → ℂ) (p q r s : Leg) : (jmsLag J).anti p q r s =
    (jmsOps.map fun o => am o.k1 o.k2 o.k3 o.k4 o.dir o.col
        (fun i => once o.name (i.1, i.2.1) (i.2.2.1, i.2.2.2) * tens J o.name i) p q r s +
      if o.herm then 0 else ah o.k1 o.k2 o.k3 o.k4 o.dir o.col
        (fun i => once o.name (i.1, i.2.1) (i.2.2.1, i.2.2.2) * tens J o.name i) p q r s).sum := by
  have e : jmsLag J = fun p q r s => (jmsOps.map fun o =>
      (fun p q r s => o.term J p q r s + (if o.herm then (fun _ _ _ _ => 0 : Four) else (o.term J).adj) p q r s : Four) p q r s).sum := by
    funext p q r s
    unfold jmsLag
    refine congrArg List.sum ?_
    exact List.map_congr_left fun o _ => by cases o.herm <;> rfl
  rw [e, anti_sum]
  congr 1
  refine List.map_congr_left fun o _ => ?_
  rw [anti_add]
  cases o.herm
  · rfl
  · simp only [if_true, add_zero, am]
    have : Four.anti (fun _ _ _ _ => 0) p q r s = 0 := by simp [Four.anti]
    rw [this, add_zero]
    rfl

section

variable {k1 k2 k3 k4 : Kind} {D : Dir} {c : Col} {f g : Ix4 → ℂ} {p q r s : Leg}

theorem am_none (x : Kind) (h1 : k1 ≠ x) (h2 : k2 ≠ x) (h3 : k3 ≠ x) (h4 : k4 ≠ x) (h : ∃ y ∈ [p, q, r, s], y.kind = x) :
    am k1 k2 k3 k4 D c f p q r s = 0 ∧ ah k1 k2 k3 k4 D c f p q r s = 0 := by
  have key : ∀ p q r s : Leg, (∃ y ∈ [p, q, r, s], y.kind = x) → mono k1 k2 k3 k4 D c f p q r s = 0 := by
    intro p q r s h
    unfold mono
    rw [if_neg]
    rintro ⟨e1, e2, e3, e4⟩
    simp only [List.mem_cons, List.not_mem_nil, or_false, exists_eq_or_imp, exists_eq_left] at h
    rcases h with h | h | h | h
    · exact h1 (e1.symm.trans h)
    · exact h2 (e2.symm.trans h)
    · exact h3 (e3.symm.trans h)
    · exact h4 (e4.symm.trans h)
  have key2 : ∀ p q r s : Leg, (∃ y ∈ [p, q, r, s], y.kind = x) → (mono k1 k2 k3 k4 D c f).adj p q r s = 0 := by
    intro p q r s h
    unfold Four.adj
    refine Finset.sum_eq_zero fun _ _ => Finset.sum_eq_zero fun _ _ => Finset.sum_eq_zero fun _ _ => Finset.sum_eq_zero fun _ _ => ?_
    rw [key, map_zero, mul_zero]
    simp only [List.mem_cons, List.not_mem_nil, or_false, exists_eq_or_imp, exists_eq_left] at h ⊢
    tauto
  have a1 : ∃ y ∈ [r, q, p, s], y.kind = x := by simp at h ⊢; tauto
  have a2 : ∃ y ∈ [p, s, r, q], y.kind = x := by simp at h ⊢; tauto
  have a3 : ∃ y ∈ [r, s, p, q], y.kind = x := by simp at h ⊢; tauto
  constructor
  · simp [am, Four.anti, key _ _ _ _ h, key _ _ _ _ a1, key _ _ _ _ a2, key _ _ _ _ a3]
  · simp [ah, Four.anti, key2 _ _ _ _ h, key2 _ _ _ _ a1, key2 _ _ _ _ a2, key2 _ _ _ _ a3]

theorem am_diag (h : ∀ a b : Fin 3, f (a, b, a, b) = g (a, b, a, b)) (h1 : p.gen = r.gen) (h2 : q.gen = s.gen) :
    am k1 k2 k3 k4 D c f p q r s = am k1 k2 k3 k4 D c g p q r s ∧ ah k1 k2 k3 k4 D c f p q r s = ah k1 k2 k3 k4 D c g p q r s := by
  have key : ∀ p q r s : Leg, p.gen = r.gen → q.gen = s.gen → mono k1 k2 k3 k4 D c f p q r s = mono k1 k2 k3 k4 D c g p q r s := by
    intro p q r s h1 h2
    unfold mono
    rw [← h1, ← h2, h]
  have key2 : ∀ p q r s : Leg, p.gen = r.gen → q.gen = s.gen →
      (mono k1 k2 k3 k4 D c f).adj p q r s = (mono k1 k2 k3 k4 D c g).adj p q r s := by
    intro p q r s h1 h2
    unfold Four.adj
    refine Finset.sum_congr rfl fun _ _ => Finset.sum_congr rfl fun _ _ => Finset.sum_congr rfl fun _ _ => Finset.sum_congr rfl fun _ _ => ?_
    congr 2
    exact key _ _ _ _ h2 h1
  constructor
  · unfold am Four.anti
    rw [key p q r s h1 h2, key r q p s h1.symm h2, key p s r q h1 h2.symm, key r s p q h1.symm h2.symm]
  · unfold ah Four.anti
    rw [key2 p q r s h1 h2, key2 r q p s h1.symm h2, key2 p s r q h1 h2.symm, key2 r s p q h1.symm h2.symm]

/-- The two normalisations agree on processes with down quarks that are not affected. -/
theorem jms_wet (J : JSrc → ℂ) (hd : ∃ y ∈ [p, q, r, s], y.kind = .d) (h : Unweighted p q r s) :
    (jmsLag J).anti p q r s = (wetLag J).anti p q r s := by
  have hrest : ∀ o ∈ wetOps.drop jmsOps.length, o.k1 ≠ .d ∧ o.k2 ≠ .d ∧ o.k3 ≠ .d ∧ o.k4 ≠ .d := by
    have h2 : ((wetOps.drop jmsOps.length).all fun o => decide (o.k1 ≠ .d ∧ o.k2 ≠ .d ∧ o.k3 ≠ .d ∧ o.k4 ≠ .d)) = true := by decide +kernel
    exact fun o ho => of_decide_eq_true (List.all_eq_true.mp h2 o ho)
  have hex : ∀ o ∈ jmsOps, o.name ∈ jmsExchange → o.k2 = o.k1 ∧ o.k3 = o.k1 ∧ o.k4 = o.k1 := by
    have h2 : (jmsOps.all fun o => decide (o.name ∈ jmsExchange → o.k2 = o.k1 ∧ o.k3 = o.k1 ∧ o.k4 = o.k1)) = true := by decide +kernel
    exact fun o ho => of_decide_eq_true (List.all_eq_true.mp h2 o ho)
  have hw : wetOps = jmsOps ++ wetOps.drop jmsOps.length := by
    conv_lhs => unfold wetOps
    unfold wetOps
    rw [List.drop_left]
  rw [jmsLag_anti, wetLag_anti, hw, List.map_append, List.sum_append]
  have z : ((wetOps.drop jmsOps.length).map fun o => am o.k1 o.k2 o.k3 o.k4 o.dir o.col (tens J o.name) p q r s +
      if o.herm then 0 else ah o.k1 o.k2 o.k3 o.k4 o.dir o.col (tens J o.name) p q r s).sum = 0 := by
    refine List.sum_eq_zero fun x hx => ?_
    obtain ⟨o, ho, rfl⟩ := List.mem_map.1 hx
    obtain ⟨h1, h2, h3, h4⟩ := hrest o ho
    obtain ⟨e1, e2⟩ := am_none (D := o.dir) (c := o.col) (f := tens J o.name) .d h1 h2 h3 h4 hd
    rw [e1, e2]; simp
  rw [z, add_zero]
  refine congrArg List.sum (List.map_congr_left fun o ho => ?_)
  have key : am o.k1 o.k2 o.k3 o.k4 o.dir o.col (fun i => once o.name (i.1, i.2.1) (i.2.2.1, i.2.2.2) * tens J o.name i) p q r s =
        am o.k1 o.k2 o.k3 o.k4 o.dir o.col (tens J o.name) p q r s ∧
      ah o.k1 o.k2 o.k3 o.k4 o.dir o.col (fun i => once o.name (i.1, i.2.1) (i.2.2.1, i.2.2.2) * tens J o.name i) p q r s =
        ah o.k1 o.k2 o.k3 o.k4 o.dir o.col (tens J o.name) p q r s := by
    by_cases hn : o.name ∈ jmsExchange
    · obtain ⟨e2, e3, e4⟩ := hex o ho hn
      have zero : ∀ x, o.k1 ≠ x → (∃ y ∈ [p, q, r, s], y.kind = x) → ∀ f : Ix4 → ℂ, am o.k1 o.k2 o.k3 o.k4 o.dir o.col f p q r s = 0 ∧
          ah o.k1 o.k2 o.k3 o.k4 o.dir o.col f p q r s = 0 := by
        intro x hx hy f
        exact am_none x hx (e2 ▸ hx) (e3 ▸ hx) (e4 ▸ hx) hy
      by_cases h1 : o.k1 = .d
      · rcases h with ⟨y, hy, hk⟩ | ⟨hg, hg'⟩
        · have := zero y.kind (fun e => hk (e.symm.trans h1)) ⟨y, hy, rfl⟩
          rw [(this _).1, (this _).2, (this _).1, (this _).2]
          exact ⟨rfl, rfl⟩
        · exact am_diag (fun a b => by simp [once]) hg hg'
      · have := zero .d h1 hd
        rw [(this _).1, (this _).2, (this _).1, (this _).2]
        exact ⟨rfl, rfl⟩
    · have : (fun i : Ix4 => once o.name (i.1, i.2.1) (i.2.2.1, i.2.2.2) * tens J o.name i) = tens J o.name := by
        funext i; simp [once, hn]
      rw [this]; exact ⟨rfl, rfl⟩
  rw [key.1, key.2]

/-- All sectors of the Bern basis have down quarks. -/
theorem covered_d (h : Covered p q r s) : ∃ y ∈ [p, q, r, s], y.kind = .d := by
  have hs : ∀ x ∈ bernSectors, x.f2.1 = .d := by
    have h2 : (bernSectors.all fun x => decide (x.f2.1 = .d)) = true := by decide +kernel
    exact fun o ho => of_decide_eq_true (List.all_eq_true.mp h2 o ho)
  obtain ⟨x, hx, ⟨-, ⟨h, -⟩ | ⟨-, h⟩⟩ | ⟨-, ⟨h, -⟩ | ⟨-, h⟩⟩⟩ := h
  · exact ⟨q, by simp, (congrArg Prod.fst h).trans (hs x hx)⟩
  · exact ⟨s, by simp, (congrArg Prod.fst h).trans (hs x hx)⟩
  · exact ⟨p, by simp, (congrArg Prod.fst h).trans (hs x hx)⟩
  · exact ⟨r, by simp, (congrArg Prod.fst h).trans (hs x hx)⟩

end

/-- Tensors for the WET operators, coefficients for all others. -/
noncomputable def joinJ (D : Dict String ℂ) (J : JSrc → ℂ) : JSrc → ℂ := fun x =>
  if x.1 ∈ wetOps.map JOp.name ∧ x.2.length = 4 then J x else Dict.getD D (label x.1 x.2) 0

theorem joinJ_full {L : List String} {D : Dict String ℂ} {J : JSrc → ℂ} (h : WetFull L D J) : JmsFull L D (joinJ D J) := by
  have h1 : ∀ k ∈ jmsHermitian, ∃ o ∈ wetOps, o.name = k ∧ o.herm = true := by decide +kernel
  have h2 : ∀ k ∈ jmsExchange, ∃ o ∈ wetOps, o.name = k ∧ o.same = true := by decide +kernel
  have hj : ∀ o ∈ wetOps, ∀ p r s t, joinJ D J (o.name, [p, r, s, t]) = J (o.name, [p, r, s, t]) := fun o ho p r s t =>
    if_pos ⟨List.mem_map_of_mem ho, rfl⟩
  refine ⟨fun k i hl => ?_, fun k hk p r s t => ?_, fun k hk p r s t => ?_⟩
  · by_cases hc : k ∈ wetOps.map JOp.name ∧ i.length = 4
    · obtain ⟨hk, hi⟩ := hc
      obtain ⟨o, ho, rfl⟩ := List.mem_map.1 hk
      match i, hi with
      | [p, r, s, t], _ => rw [hj o ho, h.listed o ho p r s t hl]
    · exact if_neg hc
  · obtain ⟨o, ho, rfl, hh⟩ := h1 k hk
    rw [hj o ho, hj o ho, h.herm o ho hh]
  · obtain ⟨o, ho, rfl, hh⟩ := h2 k hk
    rw [hj o ho, hj o ho, h.exch o ho hh]

theorem joinJ_lag {D : Dict String ℂ} {J : JSrc → ℂ} : wetLag (joinJ D J) = wetLag J :=
  wetLag_congr fun o ho => by funext i; exact if_pos ⟨List.mem_map_of_mem ho, rfl⟩

section

variable {ckm : ℝ → ℝ → ℝ → ℝ → M3} {default : Par} {d D D' : Dict String ℂ} {scale scale' : ℝ} {par par' : Option Par} {V : M3}
  {GF mW mZ α : ℝ} {S : JSrc → ℂ} {E : WEnv} {P : PEnv}

/-- **C74** for processes with other fields than down quarks and for processes in which both bilinears have the same flavours: matching from
SMEFT to WET in the JMS basis and translation to the Bern basis gives the tree-level effective Lagrangian without that of the Standard
Model. What is missing: operators with four down quarks and different bilinears. -/
theorem C74_lagrangian_partial (hw : Dict.WF d) (hd : ∀ key ∈ Dict.keys d, IsFlat key) (hS : SmeftFull d S)
    (h : warsawUpToJms ckm E.jms default d scale par = .ok D) (hV : ckmOf ckm (withPar default par) = .ok V)
    (hG : Dict.find (withPar default par) "GF" = some GF) (hW : Dict.find (withPar default par) "m_W" = some mW)
    (hZ : Dict.find (withPar default par) "m_Z" = some mZ) (hA : Dict.find (withPar default par) "alpha_e" = some α)
    (hp : penv E scale' par' = .ok P) (hP : Admissible P) (hL : JmsListing E.jms) (hD : jmsToBern E D scale' par' = .ok D')
    {p q r s : Leg} (pp : p.Phys) (pq : q.Phys) (pr : r.Phys) (ps : s.Phys) (hc : Covered p q r s) (hu : Unweighted p q r s) :
    (bernLag P.p.GF fun k => Dict.getD D' k 0).anti p q r s =
      (Four.rotL V fun p q r s => treeLag S (couplings GF mW mZ α S) p q r s -
        treeLag (fun _ => 0) (couplings GF mW mZ α fun _ => 0) p q r s).anti p q r s := by
  obtain ⟨J, hJ, -, hlag⟩ := match_tree hw hd hS h hV hG hW hZ hA
  rw [← C69_lagrangian hp hP hL (joinJ_full hJ) hD hc, jms_wet _ (covered_d hc) hu, joinJ_lag, hlag pp pq pr ps]

/-- The processes of flavio have down quarks and are not affected by the normalisation. -/
theorem ncovered_d {GF α mb : ℝ} {V : M3} {p q r s : Leg} (h : NCovered (flavioSectors GF α mb V) p q r s) :
    (∃ y ∈ [p, q, r, s], y.kind = .d) ∧ Unweighted p q r s := by
  have hs : ∀ x ∈ flavioSectors GF α mb V, x.f2.1 = .d ∧ (x.f3.1 ≠ .d ∨ x.f1 = x.f3 ∧ x.f2 = x.f4) := by
    intro x hx
    simp only [flavioSectors, List.mem_append, List.mem_map, List.mem_flatMap] at hx
    rcases hx with ((⟨y, -, rfl⟩ | ⟨u, -, d, -, l, -, m, -, rfl⟩) | ⟨y, -, l, -, m, -, rfl⟩) | ⟨y, -, l, -, m, -, rfl⟩
    · exact ⟨rfl, .inr ⟨rfl, rfl⟩⟩
    all_goals exact ⟨rfl, .inl (by simp)⟩
  have key : ∀ {p q r s : Leg} {x : NSector}, x ∈ flavioSectors GF α mb V → x.Has p q r s →
      (∃ y ∈ [p, q, r, s], y.kind = .d) ∧ Unweighted p q r s := by
    intro p q r s x hx ⟨h1, h2⟩
    obtain ⟨k1, k2⟩ := hs x hx
    constructor
    · rcases h2 with ⟨h, -⟩ | ⟨-, h⟩
      · exact ⟨q, by simp, (congrArg Prod.fst h).trans k1⟩
      · exact ⟨s, by simp, (congrArg Prod.fst h).trans k1⟩
    · rcases k2 with k | ⟨k, k'⟩
      · left
        rcases h1 with ⟨-, h⟩ | ⟨h, -⟩
        · exact ⟨r, by simp, fun e => k ((congrArg Prod.fst h).symm.trans e)⟩
        · exact ⟨p, by simp, fun e => k ((congrArg Prod.fst h).symm.trans e)⟩
      · right
        rw [← k] at h1
        rw [← k'] at h2
        have a1 : p.flav = r.flav := by rcases h1 with ⟨a, c⟩ | ⟨a, c⟩ <;> exact a.trans c.symm
        have a2 : q.flav = s.flav := by rcases h2 with ⟨a, c⟩ | ⟨a, c⟩ <;> exact a.trans c.symm
        exact ⟨congrArg Prod.snd a1, congrArg Prod.snd a2⟩
  obtain ⟨x, hx, h | h⟩ := h
  · exact key hx h
  · obtain ⟨⟨y, hy, e⟩, h2⟩ := key hx h
    have hm : ∀ y : Leg, y ∈ [q, p, s, r] → y ∈ [p, q, r, s] := fun y hy => by
      simp only [List.mem_cons, List.not_mem_nil, or_false] at hy ⊢; tauto
    refine ⟨⟨y, hm y hy, e⟩, h2.imp (fun ⟨z, hz, e⟩ => ⟨z, hm z hz, e⟩) And.symm⟩

theorem jmsLag_congr {J J' : JSrc → ℂ} (h : ∀ o ∈ jmsOps, tens J o.name = tens J' o.name) : jmsLag J = jmsLag J' := by
  funext p q r s
  unfold jmsLag
  refine congrArg List.sum (List.map_congr_left fun o ho => ?_)
  have : o.term J = o.term J' := by
    funext p q r s
    have e : J (o.name, [p.gen, q.gen, r.gen, s.gen]) = J' (o.name, [p.gen, q.gen, r.gen, s.gen]) :=
      congrFun (h o ho) (p.gen, q.gen, r.gen, s.gen)
    unfold JOp.term
    rw [e]
  rw [this]

/-- **C75**: matching from SMEFT to WET in the JMS basis and translation to flavio gives the tree-level effective Lagrangian of the SMEFT
without that of the Standard Model, in the mass basis of the down quarks, for every four-fermion process of the flavio basis. -/
theorem C75_lagrangian (hw : Dict.WF d) (hd : ∀ key ∈ Dict.keys d, IsFlat key) (hS : SmeftFull d S)
    (h : warsawUpToJms ckm E.jms default d scale par = .ok D) (hV : ckmOf ckm (withPar default par) = .ok V)
    (hG : Dict.find (withPar default par) "GF" = some GF) (hW : Dict.find (withPar default par) "m_W" = some mW)
    (hZ : Dict.find (withPar default par) "m_Z" = some mZ) (hA : Dict.find (withPar default par) "alpha_e" = some α)
    (hp : penv E scale' par' = .ok P) (hP : Admissible P) (hL : JmsListing E.jms) (hD : jmsToFlavio E D scale' par' = .ok D')
    {p q r s : Leg} (pp : p.Phys) (pq : q.Phys) (pr : r.Phys) (ps : s.Phys)
    (hc : NCovered (flavioSectors P.p.GF P.p.alpha_e P.p.m_b P.V) p q r s) :
    (nLag (flavioSectors P.p.GF P.p.alpha_e P.p.m_b P.V) fun k => Dict.getD D' k 0).anti p q r s =
      (Four.rotL V fun p q r s => treeLag S (couplings GF mW mZ α S) p q r s -
        treeLag (fun _ => 0) (couplings GF mW mZ α fun _ => 0) p q r s).anti p q r s := by
  obtain ⟨J, hJ, hT, hlag⟩ := match_tree hw hd hS h hV hG hW hZ hA
  obtain ⟨c1, c2⟩ := ncovered_d hc
  have e : jmsLag (dropOp "TedRR" (joinJ D J)) = jmsLag (joinJ D J) := jmsLag_congr fun o ho => by
    funext i
    unfold tens dropOp
    by_cases hn : o.name = "TedRR"
    · rw [if_pos hn, hn]
      have hm : "TedRR" ∈ wetOps.map JOp.name := by decide +kernel
      exact ((if_pos ⟨hm, rfl⟩ : joinJ D J ("TedRR", [i.1, i.2.1, i.2.2.1, i.2.2.2]) = _).trans (congrFun hT i)).symm
    · rw [if_neg hn]
  rw [← C70_lagrangian hp hP hL (joinJ_full hJ) hD hc, e, jms_wet _ c1 c2, joinJ_lag, hlag pp pq pr ps]

end

/-! ### Refutation: operators with equal bilinears -/

/-- Flavours 1, 1, 2, 3 and 1, 2, 1, 2 and those related to them. -/
def ddIdx : List Ix4 := [(0, 0, 1, 2), (0, 0, 2, 1), (1, 2, 0, 0), (2, 1, 0, 0), (0, 1, 0, 1), (1, 0, 1, 0)]

/-- Tensor of the coefficients with flavours 1, 1, 2, 3 and 1, 2, 1, 2. -/
noncomputable def ddT : Ix4 → ℂ := fun i =>
  if i ∈ ddIdx then 1 else 0

/-- The input. -/
noncomputable def exDD : Dict String ℂ := [("dd_1123", 1), ("dd_1212", 1)]

theorem dd_op : IsOp "dd" (.four (b .d) (n .d) (b .d) (n .d)) := by decide +kernel

theorem exDD_wf : Dict.WF exDD := by simp [Dict.WF, Dict.keys, exDD]

theorem exDD_flat : ∀ key ∈ Dict.keys exDD, IsFlat key := by
  intro key hk
  have hk : key = "dd_1123" ∨ key = "dd_1212" := by simpa [Dict.keys, exDD] using hk
  rcases hk with rfl | rfl
  · exact ⟨"dd", _, [0, 0, 1, 2], dd_op, rfl, by decide +kernel⟩
  · exact ⟨"dd", _, [0, 1, 0, 1], dd_op, rfl, by decide +kernel⟩

theorem exDD_entries {k : String} (hk : Plain k) (i : List (Fin 3)) :
    entries exDD k i = if k = "dd" ∧ i ∈ [[0, 0, 1, 2], [0, 1, 0, 1]] then 1 else 0 := by
  have hl : "dd_1123" = label "dd" [0, 0, 1, 2] := by decide +kernel
  have hl' : "dd_1212" = label "dd" [0, 1, 0, 1] := by decide +kernel
  unfold entries Dict.getD exDD
  rw [hl, hl', Dict.find_cons, Dict.find_cons]
  have inj : ∀ j, label "dd" j = label k i ↔ k = "dd" ∧ i = j := fun j =>
    ⟨fun e => by have := label_inj (isOp_plain dd_op) hk e; exact ⟨this.1.symm, this.2.symm⟩, by rintro ⟨rfl, rfl⟩; rfl⟩
  simp only [inj, List.mem_cons, List.not_mem_nil, or_false]
  by_cases h1 : k = "dd" ∧ i = [0, 0, 1, 2]
  · rw [if_pos h1, if_pos ⟨h1.1, .inl h1.2⟩]; rfl
  · rw [if_neg h1]
    by_cases h2 : k = "dd" ∧ i = [0, 1, 0, 1]
    · rw [if_pos h2, if_pos ⟨h2.1, .inr h2.2⟩]; rfl
    · rw [if_neg h2, if_neg (by tauto)]; rfl

theorem exDD_full : SmeftFull exDD (oneS "dd" ddT) := by
  refine one_full (by decide) dd_op ?_ fun k i hk hi => ?_
  · have a1 : ∀ p r s t : Fin 3, ((r, p, t, s) : Ix4) ∈ ddIdx ↔ ((p, r, s, t) : Ix4) ∈ ddIdx := by decide +kernel
    have a2 : ∀ p r s t : Fin 3, ((s, t, p, r) : Ix4) ∈ ddIdx ↔ ((p, r, s, t) : Ix4) ∈ ddIdx := by decide +kernel
    intro p r s t
    unfold ddT
    simp only [a1 p r s t, a2 p r s t]
    constructor
    · split_ifs <;> simp
    · trivial
  · change entries exDD k i = _
    rw [exDD_entries hk]
    unfold oneS
    by_cases h : k = "dd"
    · simp only [h, true_and, if_true]
      match i with
      | [p, r, s, t] =>
        have hI := hi p r s t rfl h
        have : ∀ p r s t : Fin 3, Indep4 .twoIdentical (p, r, s, t) →
            ([p, r, s, t] ∈ [[(0 : Fin 3), 0, 1, 2], [0, 1, 0, 1]] ↔ ((p, r, s, t) : Ix4) ∈
              ddIdx) := by decide +kernel
        simp only [ddT, this p r s t hI]
      | [] => rfl
      | [_] => simp
      | [_, _] => simp
      | [_, _, _] => simp
      | _ :: _ :: _ :: _ :: _ :: _ => simp
    · simp [h]

theorem exDD_rules : (∀ o ∈ wetOps, o.name ≠ "VddRR" → ruleT (flatSrc exDD) noEx o.name = 0) ∧
    ruleT (flatSrc exDD) noEx "VddRR" = ddT := by
  have t := one_tn exDD_full
  simp only [warsawOps, List.forall_mem_cons] at t
  obtain ⟨t1, t2, t3, t4, t5, t6, t7, t8, t9, t10, t11, t12, t13, t14, t15, t16, t17, t18, t19, t20, t21, t22, t23, t24, t25, -⟩ := t
  have hJ := fun x hx => (ruleT_eq (flatSrc exDD) noEx x hx).symm
  simp only [fourRules, rulesLL, rulesRR, rulesLR, rulesScalar, List.forall_mem_append, List.forall_mem_cons, Arr.ten.injEq] at hJ
  obtain ⟨⟨⟨⟨a1, a2, a3, a4, a5, a6, a7, a8, a9, a10, a11, a12, -⟩, ⟨b1, b2, b3, b4, b5, b6, b7, -⟩⟩,
    ⟨c1, c2, c3, c4, c5, c6, c7, c8, c9, c10, c11, c12, c13, c14, c15, c16, c17, c18, c19, -⟩⟩,
    ⟨d1, d2, d3, d4, d5, d6, d7, d8, d9, d10, d11, d12, d13, d14, d15, d16, d17, d18, -, -⟩⟩ := hJ
  have f1 : estpr 0 = 0 := rfl
  have f2 : eptsr 0 = 0 := rfl
  have f3 : esrpt 0 = 0 := rfl
  constructor
  · simp [wetOps, jmsOps, a1, a2, a3, a4, a5, a6, a7, a8, a9, a10, a11, a12, b1, b2, b3, b4, b5, b6, b7, c1, c2, c3, c4, c5, c6, c7, c8, c9, c10,
      c11, c12, c13, c14, c15, c16, c17, c18, c19, d1, d2, d3, d4, d5, d6, d7, d8, d9, d10, d11, d12, d13, d14, d15, d16, d17, d18,
      t1, t2, t3, t4, t5, t6, t7, t8, t9, t10, t11, t12, t13, t14, t15, t16, t17, t18, t19, t20, t21, t22, t23, t24, t25, noEx_kz, noEx_kw, f1, f2, f3]
  · simp [b5, t8, noEx_kz]

/-- A down quark. -/
def ddLeg (g : Fin 3) (a : Fin 4) (c : Fin 3) : Leg := ⟨.d, g, a, c⟩

/-- A Lagrangian with one operator. -/
theorem one_lag {J : JSrc → ℂ} (h0 : ∀ o ∈ wetOps, o.name ≠ "VddRR" → tens J o.name = 0) (p q r s : Leg) :
    (wetLag J).anti p q r s = am .d .d .d .d (.g 1 .R .R) .one (tens J "VddRR") p q r s ∧
    (jmsLag J).anti p q r s = am .d .d .d .d (.g 1 .R .R) .one
      (fun i => once "VddRR" (i.1, i.2.1) (i.2.2.1, i.2.2.2) * tens J "VddRR" i) p q r s := by
  have hh : ∀ o ∈ wetOps, o.name = "VddRR" → o.herm = true := by
    have h2 : (wetOps.all fun o => decide (o.name = "VddRR" → o.herm = true)) = true := by decide +kernel
    exact fun o ho => of_decide_eq_true (List.all_eq_true.mp h2 o ho)
  constructor
  · rw [wetLag_anti, List.map_congr_left (g := fun o => if o.name = "VddRR" then am o.k1 o.k2 o.k3 o.k4 o.dir o.col (tens J "VddRR") p q r s else 0)]
    · simp [wetOps, jmsOps]
    · intro o ho
      by_cases h : o.name = "VddRR"
      · rw [if_pos h, hh o ho h, h]; simp
      · rw [if_neg h, h0 o ho h, am_zero, ah_zero]; simp
  · rw [jmsLag_anti, List.map_congr_left (g := fun o => if o.name = "VddRR" then am o.k1 o.k2 o.k3 o.k4 o.dir o.col
        (fun i => once "VddRR" (i.1, i.2.1) (i.2.2.1, i.2.2.2) * tens J "VddRR" i) p q r s else 0)]
    · simp [jmsOps]
    · intro o ho'
      have ho : o ∈ wetOps := List.mem_append_left _ ho'
      by_cases h : o.name = "VddRR"
      · rw [if_pos h, hh o ho h, h]; simp
      · have e : (fun i : Ix4 => once o.name (i.1, i.2.1) (i.2.2.1, i.2.2.2) * tens J o.name i) = 0 := by
          rw [h0 o ho h]; funext i; simp
        rw [if_neg h, e, am_zero, ah_zero]; simp

theorem ddLeg_phys (g : Fin 3) (a : Fin 4) (c : Fin 3) : (ddLeg g a c).Phys := fun h => by rcases h with h | h <;> cases h

/-- Matching and translation of the input, on down quarks. -/
theorem exDD_run : ∃ D D', warsawUpToJms exEnv.ckm exEnv.jms exEnv.default exDD 91 none = .ok D ∧ jmsToBern exEnv D 160 none = .ok D' ∧
    ∀ g1 a1 c1 g2 a2 c2 g3 a3 c3 g4 a4 c4, Covered (ddLeg g1 a1 c1) (ddLeg g2 a2 c2) (ddLeg g3 a3 c3) (ddLeg g4 a4 c4) →
      (bernLag 1.1663787e-5 fun k => Dict.getD D' k 0).anti (ddLeg g1 a1 c1) (ddLeg g2 a2 c2) (ddLeg g3 a3 c3) (ddLeg g4 a4 c4) =
        am .d .d .d .d (.g 1 .R .R) .one (fun i => once "VddRR" (i.1, i.2.1) (i.2.2.1, i.2.2.2) * ddT i) (ddLeg g1 a1 c1) (ddLeg g2 a2 c2)
          (ddLeg g3 a3 c3) (ddLeg g4 a4 c4) ∧
      (Four.rotL exV fun p q r s => treeLag (oneS "dd" ddT) (couplings 1.1663787e-5 80.385 91.1876 (1 / 127.9) (oneS "dd" ddT)) p q r s -
        treeLag (fun _ => 0) (couplings 1.1663787e-5 80.385 91.1876 (1 / 127.9) fun _ => 0) p q r s).anti
          (ddLeg g1 a1 c1) (ddLeg g2 a2 c2) (ddLeg g3 a3 c3) (ddLeg g4 a4 c4) =
        am .d .d .d .d (.g 1 .R .R) .one ddT (ddLeg g1 a1 c1) (ddLeg g2 a2 c2) (ddLeg g3 a3 c3) (ddLeg g4 a4 c4) := by
  have hns := one_noShift exDD_full fun h => by simp at h
  obtain ⟨J, hJ, t⟩ := one_match_all exV exDD_wf exDD_flat exDD_full hns
  obtain ⟨D, h, f⟩ := hJ exEnv.jms
  obtain ⟨D1, h1, f1⟩ := hJ allL
  obtain ⟨z, zd⟩ := exDD_rules
  have h0 : ∀ o ∈ wetOps, o.name ≠ "VddRR" → tens J o.name = 0 := fun o ho hn => by rw [t o ho, z o ho hn, rotateRule_zero]
  obtain ⟨o1, ho1, e1⟩ : ∃ o ∈ wetOps, o.name = "VddRR" := by decide +kernel
  have hdd : tens J "VddRR" = ddT := by
    rw [← e1, t o1 ho1, e1, zd]
    rfl
  obtain ⟨D', hD'⟩ : ∃ D', jmsToBern exEnv D 160 none = .ok D' := ⟨_, jmsToBern_tensor exEnv_ok exP_admissible allJms_listing (joinJ_full f)⟩
  have hph := ddLeg_phys
  have hl : ∀ g a c, (ddLeg g a c).Light := fun _ _ _ h => nomatch h
  have hjt : ∀ o ∈ wetOps, tens (joinJ D J) o.name = tens J o.name := fun o ho => by
    funext i; exact if_pos ⟨List.mem_map_of_mem ho, rfl⟩
  have hjd : tens (joinJ D J) "VddRR" = ddT := by rw [← e1, hjt o1 ho1, e1, hdd]
  refine ⟨D, D', h, hD', fun g1 a1 c1 g2 a2 c2 g3 a3 c3 g4 a4 c4 hc => ?_⟩
  have e2 := C69_lagrangian exEnv_ok exP_admissible allJms_listing (joinJ_full f) hD' hc
  rw [show exP.p.GF = 1.1663787e-5 from rfl] at e2
  constructor
  · rw [← e2, (one_lag (fun o ho hn => (hjt o ho).trans (h0 o ho hn)) _ _ _ _).2, hjd]
  · rw [← C73_lagrangian_partial (V := exV) exDD_wf exDD_flat exDD_full h1 rfl default_physical.GF_eq default_physical.mW_eq
      default_physical.mZ_eq default_physical.alpha_eq allL_listing f1 (hph _ _ _) (hph _ _ _) (hph _ _ _) (hph _ _ _)
      (hl _ _ _) (hl _ _ _) (hl _ _ _) (hl _ _ _), (one_lag h0 _ _ _ _).1, hdd]

/-- The operators `(dbar d) (sbar b)` and `(dbar s) (dbar s)`. -/
theorem exDD_covered : Covered (ddLeg 0 0 0) (ddLeg 0 2 0) (ddLeg 1 1 1) (ddLeg 2 3 1) ∧
    Covered (ddLeg 0 0 0) (ddLeg 1 2 0) (ddLeg 0 1 1) (ddLeg 1 3 1) :=
  ⟨⟨sector (opsOdd .L .R .R .L ++ opsEven) (.d, 1) (.d, 2) (.d, 0) (.d, 0),
    by simp [bernSectors], .inl (by simp [Sector.Has, sector, Leg.flav, ddLeg])⟩,
   ⟨sector opsI (.d, 0) (.d, 1) (.d, 0) (.d, 1),
    by simp [bernSectors, ddPairs], .inl (by simp [Sector.Has, sector, Leg.flav, ddLeg])⟩⟩

theorem exDD_values :
    am .d .d .d .d (.g 1 .R .R) .one (fun i => once "VddRR" (i.1, i.2.1) (i.2.2.1, i.2.2.2) * ddT i)
      (ddLeg 0 0 0) (ddLeg 0 2 0) (ddLeg 1 1 1) (ddLeg 2 3 1) = 2 ∧
    am .d .d .d .d (.g 1 .R .R) .one ddT (ddLeg 0 0 0) (ddLeg 0 2 0) (ddLeg 1 1 1) (ddLeg 2 3 1) = 4 ∧
    am .d .d .d .d (.g 1 .R .R) .one (fun i => once "VddRR" (i.1, i.2.1) (i.2.2.1, i.2.2.2) * ddT i)
      (ddLeg 0 0 0) (ddLeg 1 2 0) (ddLeg 0 1 1) (ddLeg 1 3 1) = 4 ∧
    am .d .d .d .d (.g 1 .R .R) .one ddT (ddLeg 0 0 0) (ddLeg 1 2 0) (ddLeg 0 1 1) (ddLeg 1 3 1) = 4 := by
  have v1 : (Dir.g 1 .R .R).val 0 2 1 3 = 2 := by
    rw [val_g, show fastG 1 .R .R 0 2 1 3 = 2 by decide +kernel]; simp [map_ofNat]
  have v2 : (Dir.g 1 .R .R).val 1 3 0 2 = 2 := by
    rw [val_g, show fastG 1 .R .R 1 3 0 2 = 2 by decide +kernel]; simp [map_ofNat]
  refine ⟨?_, ?_, ?_, ?_⟩ <;> simp [am, Four.anti, mono, ddLeg, ddT, ddIdx, v1, v2, Col.val, once, jmsExchange] <;> norm_num

/-- **C74** fails for every normalisation `x`: of the operators `(dbar d) (sbar b)` and `(dbar s) (dbar s)` with equal coefficients, the first one
is translated with half of its strength. -/
theorem C74_refuted : ∃ (d D D' : Dict String ℂ) (S : JSrc → ℂ), Dict.WF d ∧ (∀ key ∈ Dict.keys d, IsFlat key) ∧ SmeftFull d S ∧
    warsawUpToJms exEnv.ckm exEnv.jms exEnv.default d 91 none = .ok D ∧ jmsToBern exEnv D 160 none = .ok D' ∧
    ∀ x : ℂ, ∃ p q r s : Leg, Covered p q r s ∧ p.Phys ∧ q.Phys ∧ r.Phys ∧ s.Phys ∧
      (bernLag 1.1663787e-5 fun k => Dict.getD D' k 0).anti p q r s ≠
        x * (Four.rotL exV fun p q r s => treeLag S (couplings 1.1663787e-5 80.385 91.1876 (1 / 127.9) S) p q r s -
          treeLag (fun _ => 0) (couplings 1.1663787e-5 80.385 91.1876 (1 / 127.9) fun _ => 0) p q r s).anti p q r s := by
  obtain ⟨D, D', h, hD', key⟩ := exDD_run
  refine ⟨exDD, D, D', oneS "dd" ddT, exDD_wf, exDD_flat, exDD_full, h, hD', fun x => ?_⟩
  by_contra hx
  push Not at hx
  obtain ⟨w1, w2, w3, w4⟩ := exDD_values
  obtain ⟨i1, i2⟩ := exDD_covered
  have k1 := hx _ _ _ _ i1 (ddLeg_phys _ _ _) (ddLeg_phys _ _ _) (ddLeg_phys _ _ _) (ddLeg_phys _ _ _)
  have k2 := hx _ _ _ _ i2 (ddLeg_phys _ _ _) (ddLeg_phys _ _ _) (ddLeg_phys _ _ _) (ddLeg_phys _ _ _)
  rw [(key _ _ _ _ _ _ _ _ _ _ _ _ i1).1, (key _ _ _ _ _ _ _ _ _ _ _ _ i1).2, w1, w2] at k1
  rw [(key _ _ _ _ _ _ _ _ _ _ _ _ i2).1, (key _ _ _ _ _ _ _ _ _ _ _ _ i2).2, w3, w4] at k2
  rw [show x = 1 / 2 by linear_combination -k1 / 4] at k2
  norm_num at k2

/-- C74 for the same input: the operator `(dbar s) (dbar s)` is not affected. -/
example : ∃ D D', warsawUpToJms exEnv.ckm exEnv.jms exEnv.default exDD 91 none = .ok D ∧ jmsToBern exEnv D 160 none = .ok D' ∧
    Unweighted (ddLeg 0 0 0) (ddLeg 1 2 0) (ddLeg 0 1 1) (ddLeg 1 3 1) ∧
    (bernLag 1.1663787e-5 fun k => Dict.getD D' k 0).anti (ddLeg 0 0 0) (ddLeg 1 2 0) (ddLeg 0 1 1) (ddLeg 1 3 1) = 4 := by
  obtain ⟨D, D', h, hD', key⟩ := exDD_run
  exact ⟨D, D', h, hD', .inr ⟨rfl, rfl⟩, (key _ _ _ _ _ _ _ _ _ _ _ _ exDD_covered.2).1.trans exDD_values.2.2.1⟩

/-- C75 for the same input. -/
example : ∃ D D', warsawUpToJms exEnv.ckm exEnv.jms exEnv.default exDD 91 none = .ok D ∧ jmsToFlavio exEnv D 160 none = .ok D' ∧
    (nLag (flavioSectors exP.p.GF exP.p.alpha_e exP.p.m_b exP.V) fun k => Dict.getD D' k 0).anti
      (ddLeg 0 0 0) (ddLeg 1 2 0) (ddLeg 0 1 1) (ddLeg 1 3 1) = 4 := by
  obtain ⟨D, D', h, hD', key⟩ := exDD_run
  obtain ⟨J, hJ⟩ := C73_relations exDD_wf exDD_flat exDD_full h
  obtain ⟨F, hF⟩ : ∃ F, jmsToFlavio exEnv D 160 none = .ok F := ⟨_, jmsToFlavio_tensor exEnv_ok exP_admissible allJms_listing (joinJ_full hJ)⟩
  refine ⟨D, F, h, hF, ?_⟩
  rw [C75_lagrangian (V := exV) exDD_wf exDD_flat exDD_full h rfl default_physical.GF_eq default_physical.mW_eq default_physical.mZ_eq
    default_physical.alpha_eq exEnv_ok exP_admissible allJms_listing hF (ddLeg_phys _ _ _) (ddLeg_phys _ _ _) (ddLeg_phys _ _ _)
    (ddLeg_phys _ _ _) ?_, (key _ _ _ _ _ _ _ _ _ _ _ _ exDD_covered.2).2, exDD_values.2.2.2]
  refine ⟨⟨(.d, 0), (.d, 1), (.d, 0), (.d, 1), flavioI (qname (.d, 1) ++ qname (.d, 0))⟩, ?_, .inl (by simp [NSector.Has, Leg.flav, ddLeg])⟩
  simp [flavioSectors, ddPairs]

end Verif
