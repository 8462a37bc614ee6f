import Verif.Lemmas.Phase
import Verif.Props.Flavour
import Verif.Props.MatchBnv

/-! C88: phases of the fermion fields and conserved charges in the matching from SMEFT to WET. -/

set_option autoImplicit false

namespace Verif

open Spec

/-! ### Coefficients of the SMEFT -/

/-- Coefficients multiplied by the phases of their fields. -/
noncomputable def weighted (φ : Fld → Fin 3 → ℂ) (S : JSrc → ℂ) : JSrc → ℂ := fun x => match opOf x.1 with
  | some op => weight φ op.slots x.2 * S x
  | none => S x

theorem weighted_eq (φ : Fld → Fin 3 → ℂ) (S : JSrc → ℂ) {k : String} {op : Spec.Op} (ho : IsOp k op) (i : List (Fin 3)) :
    weighted φ S (k, i) = weight φ op.slots i * S (k, i) := by
  unfold weighted
  rw [opOf_eq ho]

theorem weight_two (φ : Fld → Fin 3 → ℂ) (x y : Slot) (p r : Fin 3) : weight φ [x, y] [p, r] = x.phase φ p * y.phase φ r := by
  change x.phase φ p * (y.phase φ r * 1) = _
  ring

theorem weight_four (φ : Fld → Fin 3 → ℂ) (x y z w : Slot) (p r s t : Fin 3) :
    weight φ [x, y, z, w] [p, r, s, t] = x.phase φ p * y.phase φ r * z.phase φ s * w.phase φ t := by
  change x.phase φ p * (y.phase φ r * (z.phase φ s * (w.phase φ t * 1))) = _
  ring

theorem weighted_full {φ : Fld → Fin 3 → ℂ} {d d' : Dict String ℂ} {S : JSrc → ℂ} (hS : SmeftFull d S)
    (h : ∀ k op i, IsOp k op → Indep op i → Dict.getD d' (label k i) 0 = weight φ op.slots i * Dict.getD d (label k i) 0) :
    SmeftFull d' (weighted φ S) := by
  refine ⟨fun k op i ho hi => ?_, fun k ho => ?_, fun k x y c ho hc => ?_, fun k x y z w c ho hc => ?_⟩
  · rw [weighted_eq φ S ho, hS.listed k op i ho hi, h k op i ho hi]
  · rw [weighted_eq φ S ho]
    change (1 * S (k, [])).im = 0
    rw [one_mul]
    exact hS.real k ho
  · have hr := hS.rel2 k x y c ho hc
    have e : ∀ p r, weighted φ S (k, [p, r]) = x.phase φ p * y.phase φ r * S (k, [p, r]) := fun p r => by
      rw [weighted_eq φ S ho]
      exact congrArg (· * _) (weight_two φ x y p r)
    unfold cls2 at hc
    split at hc
    next hx =>
      cases hc
      intro p r
      dsimp only
      rw [e, e, show S (k, [r, p]) = _ from hr p r]
      obtain ⟨h1, h2, h3⟩ := hx
      simp only [Slot.phase, h1, h2, h3, if_true, if_false, Bool.false_eq_true, map_mul, Complex.conj_conj]
      ring
    · split at hc
      next hx =>
        cases hc
        intro p r
        dsimp only
        rw [e, e, show S (k, [r, p]) = _ from hr p r]
        obtain ⟨h1, h2, h3⟩ := hx
        simp only [Slot.phase, h1, h2, h3, if_false, Bool.false_eq_true]
        ring
      · cases hc
  · have hr := hS.rel4 k x y z w c ho hc
    have e : ∀ p r s t, weighted φ S (k, [p, r, s, t]) = x.phase φ p * y.phase φ r * z.phase φ s * w.phase φ t * S (k, [p, r, s, t]) :=
      fun p r s t => by
        rw [weighted_eq φ S ho]
        exact congrArg (· * _) (weight_four φ x y z w p r s t)
    unfold cls4 at hc
    split at hc
    next hx =>
      obtain ⟨h1, h2, h3, h4, h5, h6⟩ := hx
      have herm : ∀ p r s t, S (k, [r, p, t, s]) = starRingEnd ℂ (S (k, [p, r, s, t])) →
          weighted φ S (k, [r, p, t, s]) = starRingEnd ℂ (weighted φ S (k, [p, r, s, t])) := by
        intro p r s t hh
        rw [e, e, hh]
        simp only [Slot.phase, h1, h2, h3, h4, h5, h6, if_true, if_false, Bool.false_eq_true, map_mul, Complex.conj_conj]
        ring
      split at hc
      next hf =>
        have swap : ∀ p r s t, S (k, [s, t, p, r]) = S (k, [p, r, s, t]) → weighted φ S (k, [s, t, p, r]) = weighted φ S (k, [p, r, s, t]) := by
          intro p r s t hh
          rw [e, e, hh]
          simp only [Slot.phase, ← h1, ← h2, ← hf, h3, h4, h5, h6, if_true, if_false, Bool.false_eq_true]
          ring
        split at hc
        · cases hc
          intro p r s t
          obtain ⟨a1, a2, a3⟩ := hr p r s t
          refine ⟨herm p r s t a1, swap p r s t a2, ?_⟩
          dsimp only at a3 ⊢
          rw [e, e, a3]
          simp only [Slot.phase, ← h1, ← h2, ← hf, h3, h4, h5, h6, if_true, if_false, Bool.false_eq_true]
          ring
        · cases hc
          intro p r s t
          exact ⟨herm p r s t (hr p r s t).1, swap p r s t (hr p r s t).2⟩
      · cases hc
        intro p r s t
        exact herm p r s t (hr p r s t)
    · split at hc
      next hx =>
        cases hc
        obtain ⟨rfl, rfl, rfl, rfl⟩ : x = n .q ∧ y = n .q ∧ z = n .u ∧ w = n .e := by simpa using hx
        intro p r s t
        dsimp only
        rw [e, e, show S (k, [r, p, s, t]) = _ from hr p r s t]
        ring
      · split at hc
        next hx =>
          cases hc
          obtain ⟨rfl, rfl, rfl, rfl⟩ : x = n .q ∧ y = n .q ∧ z = n .q ∧ w = n .l := by simpa using hx
          intro p r s t
          have hh : S (k, [p, r, s, t]) + S (k, [r, p, s, t]) = S (k, [s, p, r, t]) + S (k, [s, r, p, t]) := hr p r s t
          dsimp only
          rw [e, e, e, e]
          linear_combination ((n .q).phase φ p * (n .q).phase φ r * (n .q).phase φ s * (n .l).phase φ t) * hh
        · cases hc

section

variable {φ : Fld → Fin 3 → ℂ} {S S' : JSrc → ℂ} {d d' : Dict String ℂ}

/-- Coefficients that differ by the phases of their fields. -/
def Rephased (φ : Fld → Fin 3 → ℂ) (S S' : JSrc → ℂ) : Prop :=
  ∀ k op i, IsOp k op → i.length = op.slots.length → S' (k, i) = weight φ op.slots i * S (k, i)

theorem rephased_weighted : Rephased φ S (weighted φ S) := fun _ _ _ ho _ => weighted_eq φ S ho _

theorem Rephased.two (h : Rephased φ S S') {k : String} {x y : Slot} (ho : IsOp k (.two x y)) :
    Ph2 φ x y (fun i => S (k, [i.1, i.2])) fun i => S' (k, [i.1, i.2]) := by
  intro p r
  dsimp only
  rw [h k _ [p, r] ho rfl]
  exact congrArg (· * _) (weight_two φ x y p r)

theorem Rephased.four (h : Rephased φ S S') {k : String} {x y z w : Slot} (ho : IsOp k (.four x y z w)) :
    Ph4 φ x y z w (tens S k) (tens S' k) := by
  intro p r s t
  unfold tens
  dsimp only
  rw [h k _ [p, r, s, t] ho rfl]
  exact congrArg (· * _) (weight_four φ x y z w p r s t)

theorem Rephased.phased (h : Rephased φ S S') (hS : SmeftFull d S) (hS' : SmeftFull d' S') : Phased φ (flatSrc d) (flatSrc d') := by
  refine ⟨fun k x y z w ho => ?_, fun k x y ho => ?_, ?_⟩
  · rw [full_tn hS ho, full_tn hS' ho]
    exact h.four ho
  · rw [full_mt hS ho, full_mt hS' ho]
    exact h.two ho
  · rw [full_phiWB hS, full_phiWB hS', h "phiWB" .boson [] (by decide +kernel) rfl]
    exact congrArg Complex.re (one_mul _)

theorem qRot_comm (hφ : Phases φ) (W : M3) (s : Slot) : CommPh φ s (s.mat (qRot W)) := by
  by_cases hs : s.fld = .q
  · exact commPh_q hφ hs _
  · have : s.mat (qRot W) = 1 := by
      funext i j
      unfold Slot.mat
      rw [show qRot W s.fld = 1 from by
        cases hf : s.fld <;> first
          | exact absurd hf hs
          | rfl]
      by_cases h : i = j
      · subst h; simp
      · simp [Matrix.one_apply_ne h]
    rw [this]
    exact commPh_one φ s

theorem Rephased.rotated (hφ : Phases φ) {W : M3} {T T' : JSrc → ℂ} (h : Rephased φ S S') (hT : Rotated (qRot W) S T)
    (hT' : Rotated (qRot W) S' T') : Rephased φ T T' := by
  intro k op i ho hi
  cases op with
  | boson =>
    obtain rfl := List.length_eq_zero_iff.1 hi
    rw [hT.zero k ho, hT'.zero k ho]
    exact h k _ [] ho rfl
  | two x y =>
    obtain ⟨p, r, rfl⟩ := List.length_eq_two.1 hi
    have := Ph2.rot (qRot_comm hφ W x) (qRot_comm hφ W y) (h.two ho) p r
    rw [← hT.two k x y ho, ← hT'.two k x y ho] at this
    dsimp only at this
    rw [this]
    exact congrArg (· * _) (weight_two φ x y p r).symm
  | four x y z w =>
    obtain ⟨p, r, s, t, rfl⟩ := length_four hi
    have := Ph4.rot (qRot_comm hφ W x) (qRot_comm hφ W y) (qRot_comm hφ W z) (qRot_comm hφ W w) (h.four ho) p r s t
    rw [← hT.four k x y z w ho, ← hT'.four k x y z w ho] at this
    unfold tens at this
    dsimp only at this
    rw [this]
    exact congrArg (· * _) (weight_four φ x y z w p r s t).symm

/-! ### The matching -/

variable {ckm : ℝ → ℝ → ℝ → ℝ → M3} {L up : List String} {default : Par} {D : Dict String ℂ} {scale : ℝ} {par : Option Par}

theorem forall₂_zip {α β : Type} {R : α → β → Prop} {as : List α} {bs : List β} (h : List.Forall₂ R as bs) {γ : Type} (f : α → γ) :
    ∀ a ∈ as, ∃ c, (f a, c) ∈ (as.map f).zip bs ∧ R a c := by
  induction h with
  | nil => intro a ha; cases ha
  | cons h1 _ ih =>
    intro a ha
    rcases List.mem_cons.1 ha with rfl | ha
    · exact ⟨_, List.mem_cons_self, h1⟩
    · obtain ⟨c, h2, h3⟩ := ih a ha
      exact ⟨c, List.mem_cons_of_mem _ h2, h3⟩

theorem match_phased (hφ : Phases φ) (hw : Dict.WF d) (hd : ∀ key ∈ Dict.keys d, IsFlat key) (hw' : Dict.WF d')
    (hd' : ∀ key ∈ Dict.keys d', IsFlat key) (h : Phased φ (flatSrc d) (flatSrc d')) (hD : matchAll ckm L default d par = .ok D) :
    ∃ D', matchAll ckm L default d' par = .ok D' ∧ ∀ k ss i, IsWet k ss → ss ≠ [] → i.length = ss.length →
      Dict.getD D' (label k i) 0 = weight φ (ss.map WSlot.slot) i * Dict.getD D (label k i) 0 := by
  obtain ⟨w, w0, V, e1, e2, e3, rfl⟩ := matchAll_inv hw hd hD
  have e1' : ewOf (flatSrc d') (withPar default par) = .ok w := by rw [h.ew hφ]; exact e1
  have e2' : ewOf (flatSrc d').zero (withPar default par) = .ok w0 := e2
  refine ⟨_, matchAll_intro L hw' hd' e1' e2' e3, fun k ss i hk hne hi => ?_⟩
  obtain ⟨f, hf⟩ := wet_rule hk
  by_cases hl : label k i ∈ L
  · obtain ⟨ts, hz, h1⟩ := forall₂_zip (phase_rules h hφ w) Prod.fst (k, f) hf
    obtain ⟨ts0, hz0, h0⟩ := forall₂_zip (phase_rules (Phased.zero (φ := φ) (flatSrc d) (flatSrc d')) hφ w0) Prod.fst (k, f) hf
    rw [rules_names] at hz hz0
    obtain ⟨ks, hp, hks⟩ := hk
    obtain rfl := ruleSlots_spec _ hp k hks _ hz rfl
    have := ruleSlots_spec _ hp k hks _ hz0 rfl
    dsimp only at this
    subst this
    have ha := (h1.sub h0).rot hφ V hz
    obtain ⟨m1, m2, m3⟩ := ha.ent (by simpa using hne) (i := i) (by simpa using hi)
    rw [getD_matched hf hl rfl m2, getD_matched hf hl rfl m1]
    exact m3
  · have z : ∀ D : Dict String Arr, Dict.getD (Dict.filt (fun k _ => decide (k ∈ L)) (arrays2wcxf D)) (label k i) 0 = (0 : ℂ) := by
      intro D
      unfold Dict.getD
      rw [find_restricted, if_neg hl]
      rfl
    rw [z, z, mul_zero]

/-- **C88**: if every multiplet and generation of fermions is multiplied by a phase (the same for the three quark doublets), then the
coefficients of the WET change by the phases of their fields. -/
theorem C88_phases (hφ : Phases φ) (hw : Dict.WF d) (hd : ∀ key ∈ Dict.keys d, IsFlat key) (hw' : Dict.WF d')
    (hd' : ∀ key ∈ Dict.keys d', IsFlat key) (hS : SmeftFull d S)
    (h : ∀ k op i, IsOp k op → Indep op i → Dict.getD d' (label k i) 0 = weight φ op.slots i * Dict.getD d (label k i) 0)
    (hD : warsawUpToJms ckm L default d scale par = .ok D) :
    ∃ D', warsawUpToJms ckm L default d' scale par = .ok D' ∧ ∀ k ss i, IsWet k ss → ss ≠ [] → i.length = ss.length →
      Dict.getD D' (label k i) 0 = weight φ (ss.map WSlot.slot) i * Dict.getD D (label k i) 0 :=
  match_phased hφ hw hd hw' hd' (rephased_weighted.phased hS (weighted_full hS h)) hD

/-- **C88** for coefficients of the Warsaw basis with diagonal down quarks. -/
theorem C88_warsaw (hφ : Phases φ) (hw : Dict.WF d) (hd : ∀ key ∈ Dict.keys d, IsFlat key) (hw' : Dict.WF d')
    (hd' : ∀ key ∈ Dict.keys d', IsFlat key) (hS : SmeftFull d S)
    (h : ∀ k op i, IsOp k op → Indep op i → Dict.getD d' (label k i) 0 = weight φ op.slots i * Dict.getD d (label k i) 0)
    {V : M3} (hV : ckmOf ckm (withPar default par) = .ok V) (hup : ∀ k op i, IsOp k op → Indep op i → label k i ∈ up)
    (hD : warsawToJms ckm up L default d scale par = .ok D) :
    ∃ D', warsawToJms ckm up L default d' scale par = .ok D' ∧ ∀ k ss i, IsWet k ss → ss ≠ [] → i.length = ss.length →
      Dict.getD D' (label k i) 0 = weight φ (ss.map WSlot.slot) i * Dict.getD D (label k i) 0 := by
  unfold warsawToJms at hD ⊢
  obtain ⟨D1, S1, a1, a2, a3, a4, a5⟩ := up_full hw hd hS hV hup
  obtain ⟨D2, S2, c1, c2, c3, c4, c5⟩ := up_full hw' hd' (weighted_full hS h) hV hup
  rw [a1, ok_bind] at hD
  rw [c1, ok_bind]
  exact match_phased hφ a2 a3 c2 c3 ((rephased_weighted.rotated hφ a5 c5).phased a4 c4) hD

/-! ### Charges -/

/-- Phases generated by a charge. -/
noncomputable def expPh (c : Fld → Fin 3 → ℤ) (t : ℝ) : Fld → Fin 3 → ℂ := fun f i => Complex.exp (t * c f i * Complex.I)

theorem expPh_conj (c : Fld → Fin 3 → ℤ) (t : ℝ) (f : Fld) (i : Fin 3) :
    starRingEnd ℂ (expPh c t f i) = Complex.exp (t * (-c f i : ℤ) * Complex.I) := by
  unfold expPh
  rw [← Complex.exp_conj]
  simp

theorem expPh_phases {c : Fld → Fin 3 → ℤ} (hc : ∀ i j, c .q i = c .q j) (t : ℝ) : Phases (expPh c t) := by
  refine ⟨fun f i => ?_, fun i j => ?_⟩
  · rw [expPh_conj]
    unfold expPh
    rw [← Complex.exp_add]
    simp
  · unfold expPh
    rw [hc i j]

theorem weight_exp (c : Fld → Fin 3 → ℤ) (t : ℝ) (ss : List Slot) (i : List (Fin 3)) :
    weight (expPh c t) ss i = Complex.exp (t * chargeOf c ss i * Complex.I) := by
  induction ss generalizing i with
  | nil => simp [weight, chargeOf]
  | cons s ss ih =>
    cases i with
    | nil => simp [weight, chargeOf]
    | cons i is =>
      have : s.phase (expPh c t) i = Complex.exp (t * (if s.bar then -c s.fld i else c s.fld i : ℤ) * Complex.I) := by
        unfold Slot.phase
        split
        · exact expPh_conj c t s.fld i
        · rfl
      simp only [weight, chargeOf]
      rw [ih, this, ← Complex.exp_add]
      congr 1
      push_cast
      ring

theorem exp_half {n : ℤ} (hn : n ≠ 0) : Complex.exp (((Real.pi / n : ℝ) : ℂ) * n * Complex.I) = -1 := by
  rw [← Complex.exp_pi_mul_I]
  congr 1
  have : (n : ℂ) ≠ 0 := Int.cast_ne_zero.2 hn
  push_cast
  field_simp

theorem eq_zero_of_neg {z : ℂ} (h : z = -1 * z) : z = 0 := by
  have : (2 : ℂ) * z = 0 := by linear_combination h
  simpa using this

theorem neutral {c : Fld → Fin 3 → ℤ} (h : ∀ k op i, IsOp k op → Indep op i → chargeOf c op.slots i ≠ 0 → Dict.getD d (label k i) 0 = 0)
    (t : ℝ) (k : String) (op : Spec.Op) (i : List (Fin 3)) (ho : IsOp k op) (hi : Indep op i) :
    Dict.getD d (label k i) 0 = weight (expPh c t) op.slots i * Dict.getD d (label k i) 0 := by
  by_cases hc : chargeOf c op.slots i = 0
  · rw [weight_exp, hc]
    simp
  · rw [h k op i ho hi hc, mul_zero]

/-- **C88**: a charge that all coefficients of the SMEFT conserve is conserved by the coefficients of the WET: lepton numbers, baryon number,
and the numbers of each right-handed fermion. -/
theorem C88_charges {c : Fld → Fin 3 → ℤ} (hc : ∀ i j, c .q i = c .q j) (hw : Dict.WF d) (hd : ∀ key ∈ Dict.keys d, IsFlat key)
    (hS : SmeftFull d S)
    (h : ∀ k op i, IsOp k op → Indep op i → chargeOf c op.slots i ≠ 0 → Dict.getD d (label k i) 0 = 0)
    (hD : warsawUpToJms ckm L default d scale par = .ok D) {k : String} {ss : List WSlot} {i : List (Fin 3)} (hk : IsWet k ss)
    (hi : i.length = ss.length) (hn : chargeOf c (ss.map WSlot.slot) i ≠ 0) : Dict.getD D (label k i) 0 = 0 := by
  have hne : ss ≠ [] := by
    rintro rfl
    exact hn rfl
  obtain ⟨D', h1, h2⟩ := C88_phases (expPh_phases hc (Real.pi / chargeOf c (ss.map WSlot.slot) i)) hw hd hw hd hS (neutral h _) hD
  obtain rfl : D = D' := Except.ok.inj (hD.symm.trans h1)
  have := h2 k ss i hk hne hi
  rw [weight_exp, exp_half hn] at this
  exact eq_zero_of_neg this

/-- **C88**, conserved charges for the Warsaw basis with diagonal down quarks. -/
theorem C88_warsaw_charges {c : Fld → Fin 3 → ℤ} (hc : ∀ i j, c .q i = c .q j) (hw : Dict.WF d) (hd : ∀ key ∈ Dict.keys d, IsFlat key)
    (hS : SmeftFull d S)
    (h : ∀ k op i, IsOp k op → Indep op i → chargeOf c op.slots i ≠ 0 → Dict.getD d (label k i) 0 = 0)
    {V : M3} (hV : ckmOf ckm (withPar default par) = .ok V) (hup : ∀ k op i, IsOp k op → Indep op i → label k i ∈ up)
    (hD : warsawToJms ckm up L default d scale par = .ok D) {k : String} {ss : List WSlot} {i : List (Fin 3)} (hk : IsWet k ss)
    (hi : i.length = ss.length) (hn : chargeOf c (ss.map WSlot.slot) i ≠ 0) : Dict.getD D (label k i) 0 = 0 := by
  have hne : ss ≠ [] := by
    rintro rfl
    exact hn rfl
  obtain ⟨D', h1, h2⟩ := C88_warsaw (expPh_phases hc (Real.pi / chargeOf c (ss.map WSlot.slot) i)) hw hd hw hd hS (neutral h _) hV hup hD
  obtain rfl : D = D' := Except.ok.inj (hD.symm.trans h1)
  have := h2 k ss i hk hne hi
  rw [weight_exp, exp_half hn] at this
  exact eq_zero_of_neg this

/-! ### Matching to the bases for flavour physics -/

/-- The fermion of a WET operator. -/
def wKind : WFld → Kind
  | .n => .nu
  | .e => .e
  | .u => .u
  | .d => .d

theorem jms_wet_fields : (∀ o ∈ jmsDipoles, ∃ p ∈ wetTable, o.1 ∈ p.2 ∧ p.1.map (fun s => (s.bar, wKind s.fld)) = [(true, o.2), (false, o.2)]) ∧
    ∀ o ∈ jmsOps, ∃ p ∈ wetTable, o.name ∈ p.2 ∧ p.1.map (fun s => (s.bar, wKind s.fld)) = [(true, o.k1), (false, o.k2), (true, o.k3), (false, o.k4)] := by
  decide +kernel

/-- Lepton numbers of the fields below the electroweak scale. -/
def leptonOf (g : Fin 3) (x : Kind × Fin 3) : ℤ := if x = (.e, g) ∨ x = (.nu, g) then 1 else 0

/-- Phases generated by a lepton number. -/
noncomputable def lepPh (g : Fin 3) (t : ℝ) (x : Kind × Fin 3) : ℂ := Complex.exp (t * leptonOf g x * Complex.I)

theorem lep_phase (g : Fin 3) (t : ℝ) (s : WSlot) (i : Fin 3) : s.slot.phase (expPh (leptonNumber g) t) i =
    if s.bar then starRingEnd ℂ (lepPh g t (wKind s.fld, i)) else lepPh g t (wKind s.fld, i) := by
  have : expPh (leptonNumber g) t s.slot.fld i = lepPh g t (wKind s.fld, i) := by
    unfold expPh lepPh
    have : leptonNumber g s.slot.fld i = leptonOf g (wKind s.fld, i) := by
      obtain ⟨f, l, b⟩ := s
      revert g i
      cases f <;> cases l <;> cases b <;> decide +kernel
    rw [this]
  unfold Slot.phase
  rw [this]
  rfl

theorem jms_weight {g : Fin 3} {t : ℝ} {k : String} {i : List (Fin 3)} {f : Flavour} (hf : jmsFlavour (k, i) = some f) :
    ∃ ss, IsWet k ss ∧ ss ≠ [] ∧ i.length = ss.length ∧ weight (expPh (leptonNumber g) t) (ss.map WSlot.slot) i = f.weight (lepPh g t) := by
  have sp : ∀ (s : WSlot) {x : Kind} {y : Bool} (j : Fin 3), (s.bar, wKind s.fld) = (y, x) → s.slot.phase (expPh (leptonNumber g) t) j =
      if y then starRingEnd ℂ (lepPh g t (x, j)) else lepPh g t (x, j) := by
    intro s x y j hs
    obtain ⟨h1, h2⟩ := Prod.mk.inj hs
    rw [lep_phase, h1, h2]
  unfold jmsFlavour at hf
  split at hf
  next a b hi =>
    dsimp only at hi
    subst hi
    obtain ⟨o, ho, rfl⟩ := Option.map_eq_some_iff.1 hf
    obtain ⟨p, hp, hk, hs⟩ := jms_wet_fields.1 o (List.mem_of_find?_eq_some ho)
    have hn := List.find?_some ho
    obtain rfl : o.1 = k := by simpa using hn
    obtain ⟨x, y, hxy⟩ := List.length_eq_two.1 (by simpa using congrArg List.length hs : p.1.length = 2)
    rw [hxy] at hs
    simp only [List.map_cons, List.map_nil, List.cons.injEq, and_true] at hs
    refine ⟨p.1, ⟨p.2, hp, hk⟩, by rw [hxy]; simp, by rw [hxy]; rfl, ?_⟩
    rw [hxy]
    change weight _ [x.slot, y.slot] [a, b] = _
    rw [weight_two, sp x a hs.1, sp y b hs.2]
    simp [Flavour.weight]
  next a b c e hi =>
    dsimp only at hi
    subst hi
    obtain ⟨o, ho, rfl⟩ := Option.map_eq_some_iff.1 hf
    obtain ⟨p, hp, hk, hs⟩ := jms_wet_fields.2 o (List.mem_of_find?_eq_some ho)
    have hn := List.find?_some ho
    obtain rfl : o.name = k := by simpa using hn
    obtain ⟨x, y, z, w, hxy⟩ := List.length_eq_four.1 (by simpa using congrArg List.length hs : p.1.length = 4)
    rw [hxy] at hs
    simp only [List.map_cons, List.map_nil, List.cons.injEq, and_true] at hs
    refine ⟨p.1, ⟨p.2, hp, hk⟩, by rw [hxy]; simp, by rw [hxy]; rfl, ?_⟩
    rw [hxy]
    change weight _ [x.slot, y.slot, z.slot, w.slot] [a, b, c, e] = _
    rw [weight_four, sp x a hs.1, sp y b hs.2.1, sp z c hs.2.2.1, sp w e hs.2.2.2]
    simp [Flavour.weight]
    ring
  · cases hf

theorem lep_weight (g : Fin 3) (t : ℝ) (f : Flavour) : f.weight (lepPh g t) =
    Complex.exp (t * ((f.charge (.e, g) + f.charge (.nu, g) : ℤ) : ℂ) * Complex.I) := by
  have cnt : ∀ l : List (Kind × Fin 3), (l.map (lepPh g t)).prod = Complex.exp (t * ((l.count (.e, g) + l.count (.nu, g) : ℕ) : ℂ) * Complex.I) ∧
      (l.map fun x => starRingEnd ℂ (lepPh g t x)).prod = Complex.exp (-(t * ((l.count (.e, g) + l.count (.nu, g) : ℕ) : ℂ) * Complex.I)) := by
    intro l
    induction l with
    | nil => simp
    | cons x l ih =>
      have e : (((x :: l).count (.e, g) + (x :: l).count (.nu, g) : ℕ) : ℂ) = leptonOf g x + ((l.count (.e, g) + l.count (.nu, g) : ℕ) : ℂ) := by
        rw [List.count_cons, List.count_cons]
        unfold leptonOf
        by_cases h1 : x = (.e, g)
        · subst h1
          simp
          ring
        · by_cases h2 : x = (.nu, g)
          · subst h2
            simp
            ring
          · simp [h1, h2]
      have cj : starRingEnd ℂ (lepPh g t x) = Complex.exp (-(t * leptonOf g x * Complex.I)) := by
        unfold lepPh
        rw [← Complex.exp_conj]
        simp
      rw [List.map_cons, List.map_cons, List.prod_cons, List.prod_cons, ih.1, ih.2, e, cj]
      unfold lepPh
      rw [← Complex.exp_add, ← Complex.exp_add]
      constructor <;> congr 1 <;> ring
  unfold Flavour.weight Flavour.charge
  rw [(cnt f.bar).2, (cnt f.fld).1, ← Complex.exp_add]
  congr 1
  push_cast
  ring

theorem leptonNumber_q (g : Fin 3) : ∀ i j, leptonNumber g .q i = leptonNumber g .q j := by
  intro i j
  simp [leptonNumber]

/-- **C88**: if all coefficients of the SMEFT conserve the lepton number of a generation, so do the coefficients in the bases for flavour
physics. -/
theorem C88_lepton {E : WEnv} {P : PEnv} (g : Fin 3) (hw : Dict.WF d) (hd : ∀ key ∈ Dict.keys d, IsFlat key) (hS : SmeftFull d S)
    (h : ∀ k op i, IsOp k op → Indep op i → chargeOf (leptonNumber g) op.slots i ≠ 0 → Dict.getD d (label k i) 0 = 0)
    (hp : penv E scale par = .ok P) (hP : Admissible P) (hup : ∀ k op i, IsOp k op → Indep op i → label k i ∈ up)
    (t : WT) (ht : t = .jmsFlavio ∨ t = .jmsBern ∨ t = .jmsEos) (hr : t.Ready E P)
    (hD : warsawToVia (t.run E) E.ckm up E.jms E.default d scale par = .ok D) {name : String} {f : Flavour} (hf : t.outFlavour name = some f)
    (hn : f.charge (.e, g) + f.charge (.nu, g) ≠ 0) : Dict.getD D name 0 = 0 := by
  obtain ⟨i1, -⟩ := penv_inputs hp
  obtain ⟨D1, S1, a1, a2, a3, a4, a5⟩ := up_full hw hd hS i1 hup
  unfold warsawToVia at hD
  rw [a1, ok_bind] at hD
  obtain ⟨D2, k1, k2⟩ := bind_ok_elim hD
  have k0 : warsawToJms E.ckm up E.jms E.default d scale par = .ok D2 := by
    unfold warsawToJms
    rw [a1, ok_bind]
    exact k1
  let x : ℝ := Real.pi / (f.charge (.e, g) + f.charge (.nu, g) : ℤ)
  obtain ⟨D3, b1, b2⟩ := C88_warsaw (expPh_phases (leptonNumber_q g) x) hw hd hw hd hS (neutral h x) i1 hup k0
  obtain rfl : D2 = D3 := Except.ok.inj (k0.symm.trans b1)
  have al : t.Allowed (lepPh g x) := by
    rcases ht with rfl | rfl | rfl
    · trivial
    · trivial
    · intro y
      unfold lepPh
      rw [← Complex.exp_conj, ← Complex.exp_add]
      simp
  have inp : ∀ m f', t.InFlavour m f' → Dict.getD D2 m 0 = f'.weight (lepPh g x) * Dict.getD D2 m 0 := by
    intro m f' hm
    have : ∃ k i, m = label k i ∧ jmsFlavour (k, i) = some f' := by rcases ht with rfl | rfl | rfl <;> exact hm
    obtain ⟨k, i, rfl, hj⟩ := this
    obtain ⟨ss, s1, s2, s3, s4⟩ := jms_weight (g := g) (t := x) hj
    rw [← s4]
    exact b2 k ss i s1 s2 s3
  obtain ⟨e1, e2, e3, e4, -, e5⟩ := C76_flavour hp hP t hr (lepPh g x) al D2 D2 inp
  obtain rfl : D = e1 := Except.ok.inj (k2.symm.trans e3)
  obtain rfl : D = e2 := Except.ok.inj (k2.symm.trans e4)
  have := e5 name f hf
  rw [lep_weight, exp_half hn] at this
  exact eq_zero_of_neg this

end

/-! ### Examples -/

/-- If the only coefficient is neutral, all that are not neutral vanish. -/
theorem one_neutral {c : Fld → Fin 3 → ℤ} {d : Dict String ℂ} {k0 : String} {op0 : Spec.Op} {j : List (Fin 3)} (ho : IsOp k0 op0)
    (hd : d = [(label k0 j, 1)]) (h0 : chargeOf c op0.slots j = 0) (k : String) (op : Spec.Op) (i : List (Fin 3)) (hk : IsOp k op) (_ : Indep op i)
    (hc : chargeOf c op.slots i ≠ 0) : Dict.getD d (label k i) 0 = 0 := by
  subst hd
  unfold Dict.getD
  rw [Dict.find_cons]
  by_cases h : label k0 j = label k i
  · obtain ⟨rfl, rfl⟩ := label_inj (isOp_plain ho) (isOp_plain hk) h
    rw [isOp_unique hk ho] at hc
    exact absurd h0 hc
  · rw [if_neg h]
    rfl

theorem wet_SduuRL : IsWet "SduuRL" [dR, uR, uL, eL] := ⟨["SduuRL"], by decide +kernel, by decide +kernel⟩

/-- C88: `duql_1111` conserves the number of muons, so that no operator with a muon is generated. -/
example : ∃ D, warsawUpToJms (fun _ _ _ _ => exV) bnvAll defaultPar (oneCoef "duql" (0, 0, 0, 0)) 160 none = .ok D ∧
    Dict.getD D "SduuRL_1112" 0 = 0 := by
  have ho := bnv_isOp.1
  obtain ⟨D, hD⟩ := oneCoef_run ho rel_duql (by decide) exV bnvAll
  refine ⟨D, hD, ?_⟩
  rw [show "SduuRL_1112" = label "SduuRL" [0, 0, 0, 1] by decide +kernel]
  exact C88_charges (leptonNumber_q 1) oneCoef_wf (oneCoef_flat ho) (oneCoef_full ho rel_duql) (one_neutral ho rfl (by decide +kernel)) hD wet_SduuRL rfl
    (by decide +kernel)

/-- C88: phases of the fields of `duql_1111`. -/
example : ∃ D D' , warsawUpToJms (fun _ _ _ _ => exV) bnvAll defaultPar (oneCoef "duql" (0, 0, 0, 0)) 160 none = .ok D ∧
    warsawUpToJms (fun _ _ _ _ => exV) bnvAll defaultPar [("duql_1111", Complex.I)] 160 none = .ok D' ∧
    Dict.getD D' "SduuRL_1111" 0 = Complex.I := by
  have ho := bnv_isOp.1
  obtain ⟨D, hD⟩ := oneCoef_run ho rel_duql (by decide) exV bnvAll
  have hl : "duql_1111" = label "duql" [0, 0, 0, 0] := by decide +kernel
  let φ : Fld → Fin 3 → ℂ := fun f _ => if f = .u then Complex.I else 1
  have hφ : Phases φ := ⟨fun f i => by by_cases h : f = .u <;> simp [φ, h], fun i j => rfl⟩
  obtain ⟨D', h1, h2⟩ := C88_phases (d' := [("duql_1111", Complex.I)]) hφ oneCoef_wf (oneCoef_flat ho) (by simp [Dict.WF, Dict.keys])
    (by
      intro key hk
      obtain rfl : key = "duql_1111" := by simpa [Dict.keys] using hk
      exact ⟨"duql", _, [0, 0, 0, 0], ho, rfl, hl⟩)
    (oneCoef_full ho rel_duql) (by
      intro k op i hk _
      unfold oneCoef Dict.getD
      rw [hl, Dict.find_cons, Dict.find_cons]
      by_cases h : label "duql" [0, 0, 0, 0] = label k i
      · rw [if_pos h, if_pos h]
        obtain ⟨rfl, rfl⟩ := label_inj (isOp_plain ho) (isOp_plain hk) h
        rw [isOp_unique hk ho]
        simp [Spec.Op.slots, weight, Slot.phase, φ, n]
      · rw [if_neg h, if_neg h]
        simp [Dict.find]) hD
  refine ⟨D, D', hD, h1, ?_⟩
  have e : "SduuRL_1111" = label "SduuRL" [0, 0, 0, 0] := by decide +kernel
  rw [e, h2 _ _ _ wet_SduuRL (by simp) rfl]
  rw [bnv_value (k := "SduuRL") oneCoef_wf (oneCoef_flat ho) (oneCoef_full ho rel_duql) hD (by simp [bnvOps]) (0, 0, 0, 0)
    (bnvAll_listing ⟨"SduuRL", .d, .u, .u, .e, .R, .L⟩ (by simp [bnvOps]) 0 0 0 0 (by simp [Kind.Light]) (by simp [Kind.Light]) (by simp [Kind.Light]) (by simp [Kind.Light]))]
  simp [weight, Slot.phase, φ, WSlot.slot, bnvT, tens_one, unitT]

/-- C88: `ledq_1131` conserves the number of electrons, and so does its contribution to flavio. -/
example : ∃ D, warsawToVia (jmsToFlavio exEnv) exEnv.ckm allFlat exEnv.jms exEnv.default exLedq 160 none = .ok D ∧
    Dict.getD D "CSR_bcenumu" 0 = 0 := by
  obtain ⟨-, D, J, h1, h2⟩ := exLedq_run
  obtain ⟨D', hD⟩ : ∃ D', jmsToFlavio exEnv D 160 none = .ok D' :=
    ⟨_, jmsToFlavio_tensor exEnv_ok exP_admissible allJms_listing (joinJ_full h2)⟩
  have hr : warsawToVia (jmsToFlavio exEnv) exEnv.ckm allFlat exEnv.jms exEnv.default exLedq 160 none = .ok D' := by
    unfold warsawToJms at h1
    obtain ⟨D1, k1, k2⟩ := bind_inv h1
    unfold warsawToVia
    rw [k1, ok_bind, k2, ok_bind, hD]
  refine ⟨D', hr, ?_⟩
  have hf : ∃ f, WT.outFlavour .jmsFlavio "CSR_bcenumu" = some f ∧ f.charge (.e, 0) + f.charge (.nu, 0) ≠ 0 :=
    ⟨⟨[(.u, 1), (.e, 0)], [(.d, 2), (.nu, 1)]⟩, by decide +kernel, by decide +kernel⟩
  obtain ⟨f, hf, hn⟩ := hf
  exact C88_lepton 0 exLedq_wf exLedq_flat exLedq_full (one_neutral ledq_op (j := [0, 0, 2, 0]) (by
      unfold exLedq
      rw [show "ledq_1131" = label "ledq" [0, 0, 2, 0] by decide +kernel]) (by decide +kernel)) exEnv_ok exP_admissible
    (fun k op i => mem_allFlat) .jmsFlavio (.inl rfl) allJms_listing hr hf hn

end Verif
