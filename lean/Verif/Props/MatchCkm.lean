import Verif.Lemmas.MatchDown
import Verif.Props.Match

/-! C53, C65: the CKM matrix in the matching. -/

set_option autoImplicit false

namespace Verif

open Spec

/-! ### Entries of the result -/

theorem matchAll_inv {ckm : ℝ → ℝ → ℝ → ℝ → M3} {L : List String} {default : Par} {d r : Dict String ℂ}
    {par : Option Par} (hw : Dict.WF d) (hd : ∀ key ∈ Dict.keys d, IsFlat key)
    (h : matchAll ckm L default d par = .ok r) : ∃ w w0 V, ewOf (flatSrc d) (withPar default par) = .ok w ∧
      ewOf (flatSrc d).zero (withPar default par) = .ok w0 ∧ ckmOf ckm (withPar default par) = .ok V ∧
      r = Dict.filt (fun k _ => decide (k ∈ L)) (arrays2wcxf (matched V (flatSrc d) w w0)) := by
  rw [matchAll_eq ckm L default d par hw hd] at h
  cases h1 : ewOf (flatSrc d) (withPar default par) with
  | error e => rw [h1] at h; cases h
  | ok w =>
    rw [h1, ok_bind] at h
    cases h2 : ewOf (flatSrc d).zero (withPar default par) with
    | error e => rw [h2] at h; cases h
    | ok w0 =>
      rw [h2, ok_bind] at h
      cases h3 : ckmOf ckm (withPar default par) with
      | error e => rw [h3] at h; cases h
      | ok V =>
        rw [h3, ok_bind] at h
        exact ⟨w, w0, V, rfl, rfl, rfl, (Except.ok.inj h).symm⟩

theorem matchAll_intro {ckm : ℝ → ℝ → ℝ → ℝ → M3} (L : List String) {default : Par} {d : Dict String ℂ}
    {par : Option Par} (hw : Dict.WF d) (hd : ∀ key ∈ Dict.keys d, IsFlat key) {w w0 : EW} {V : M3}
    (h1 : ewOf (flatSrc d) (withPar default par) = .ok w) (h2 : ewOf (flatSrc d).zero (withPar default par) = .ok w0)
    (h3 : ckmOf ckm (withPar default par) = .ok V) : matchAll ckm L default d par =
      .ok (Dict.filt (fun k _ => decide (k ∈ L)) (arrays2wcxf (matched V (flatSrc d) w w0))) := by
  rw [matchAll_eq ckm L default d par hw hd, h1, ok_bind, h2, ok_bind, h3, ok_bind]

theorem find_restricted (L : List String) (D : Dict String Arr) (key : String) :
    Dict.find (Dict.filt (fun k _ => decide (k ∈ L)) (arrays2wcxf D)) key =
      if key ∈ L then Dict.find (arrays2wcxf D) key else none := by
  rw [Dict.find_filt (arrays2wcxf_wf D)]
  by_cases h : key ∈ L
  · simp only [h, decide_true, if_true]
    cases Dict.find (arrays2wcxf D) key <;> simp
  · simp only [h, decide_false, if_false]
    cases Dict.find (arrays2wcxf D) key <;> simp

theorem getD_matched {L : List String} {V : M3} {S : Src} {w w0 : EW} {k : String} {f : Src → EW → Arr}
    (hm : (k, f) ∈ matchRules) {i : List (Fin 3)} (hL : label k i ∈ L) {X : Arr}
    (hX : rotEntry V k ((f S w).sub (f S.zero w0)) = X) (hi : i ∈ X.idxs) :
    Dict.getD (Dict.filt (fun k _ => decide (k ∈ L)) (arrays2wcxf (matched V S w w0))) (label k i) 0 = X.ent i := by
  unfold Dict.getD
  subst hX
  rw [find_restricted, if_pos hL, find_flat (matched_wf V S w w0) (matched_plain V S w w0) (find_matched V S w w0 hm) hi]
  rfl

theorem wet_rule {k : String} {ss : List WSlot} (h : IsWet k ss) : ∃ f, (k, f) ∈ matchRules := by
  have h1 : ∀ p ∈ wetTable, ∀ k ∈ p.2, k ∈ wetNames := by decide +kernel
  obtain ⟨ks, h2, h3⟩ := h
  have h4 := h1 _ h2 k h3
  rw [← rules_names] at h4
  obtain ⟨⟨k', f⟩, hm, rfl⟩ := List.mem_map.1 h4
  exact ⟨f, hm⟩

theorem rotEntry_idxs (V : M3) (k : String) (X : Arr) : (rotEntry V k X).idxs = X.idxs := by
  cases X <;> rfl

theorem ckmOf_const {p : Par} {V W : M3} (h : ckmOf (fun _ _ _ _ => V) p = .ok W) : W = V := by
  unfold ckmOf at h
  cases a1 : Dict.get p "Vus" with
  | error e => rw [a1] at h; cases h
  | ok x1 =>
    cases a2 : Dict.get p "Vub" with
    | error e => rw [a1, ok_bind, a2] at h; cases h
    | ok x2 =>
      cases a3 : Dict.get p "Vcb" with
      | error e => rw [a1, ok_bind, a2, ok_bind, a3] at h; cases h
      | ok x3 =>
        cases a4 : Dict.get p "gamma" with
        | error e => rw [a1, ok_bind, a2, ok_bind, a3, ok_bind, a4] at h; cases h
        | ok x4 =>
          rw [a1, ok_bind, a2, ok_bind, a3, ok_bind, a4, ok_bind] at h
          exact (Except.ok.inj h).symm

/-! ### C65 -/

/-- **C65** for the operators outside `notRotated`: matching with the CKM matrix `V` gives the coefficients obtained for
a unit CKM matrix with all indices of left-handed down quarks rotated by `V`. `L1` is any list that contains all entries
of the coefficient. -/
theorem C65_rotation_partial (ckm : ℝ → ℝ → ℝ → ℝ → M3) (L L1 : List String) (default : Par) (d r1 : Dict String ℂ)
    (scale : ℝ) (par : Option Par) (hw : Dict.WF d) (hd : ∀ key ∈ Dict.keys d, IsFlat key) (V : M3)
    (hV : ckmOf ckm (withPar default par) = .ok V) (k : String) (ss : List WSlot) (hk : IsWet k ss) (hss : ss ≠ [])
    (hn : k ∉ notRotated) (hL1 : ∀ i : List (Fin 3), i.length = ss.length → label k i ∈ L1)
    (h1 : warsawUpToJms (fun _ _ _ _ => 1) L1 default d scale par = .ok r1) :
    ∃ r, warsawUpToJms ckm L default d scale par = .ok r ∧ ∀ i : List (Fin 3), i.length = ss.length → label k i ∈ L →
      Dict.getD r (label k i) 0 = rotW V ss (entries r1 k) i := by
  obtain ⟨w, w0, V1, e1, e2, e3, rfl⟩ := matchAll_inv hw hd h1
  obtain rfl := ckmOf_const e3
  refine ⟨_, matchAll_intro L hw hd e1 e2 hV, fun i hi hl => ?_⟩
  obtain ⟨f, hf⟩ := wet_rule hk
  have hrot := rules_rotate _ hf (flatSrc d) (flatSrc d).zero w w0 hn ss hk hss
  rw [getD_matched hf hl rfl (by rw [rotEntry_idxs]; exact (hrot V i hi).1), (hrot V i hi).2]
  refine rotW_congr V ss (fun j hj => ?_) i hi
  unfold entries
  exact (getD_matched hf (hL1 j hj) (rotEntry_one k _) (hrot V j hj).1).symm

/-- The coefficients of `notRotated` come out as for a unit CKM matrix, although they have left-handed down quarks. -/
theorem C65_not_rotated (ckm : ℝ → ℝ → ℝ → ℝ → M3) (L : List String) (default : Par) (d r1 : Dict String ℂ)
    (scale : ℝ) (par : Option Par) (hw : Dict.WF d) (hd : ∀ key ∈ Dict.keys d, IsFlat key) (V : M3)
    (hV : ckmOf ckm (withPar default par) = .ok V)
    (h1 : warsawUpToJms (fun _ _ _ _ => 1) L default d scale par = .ok r1) :
    ∃ r, warsawUpToJms ckm L default d scale par = .ok r ∧
      ∀ key, headPart key ∈ notRotated → Dict.find r key = Dict.find r1 key := by
  obtain ⟨w, w0, V1, e1, e2, e3, rfl⟩ := matchAll_inv hw hd h1
  refine ⟨_, matchAll_intro L hw hd e1 e2 hV, fun key hk => ?_⟩
  rw [find_restricted, find_restricted]
  refine congrArg (fun x => if key ∈ L then x else none) (find_flat_head (matched_wf _ _ _ _) (matched_plain _ _ _ _)
    (matched_wf _ _ _ _) (matched_plain _ _ _ _) ?_)
  have hm : ∀ k ∈ notRotated, k ∈ wetNames := by decide +kernel
  have h4 := hm _ hk
  rw [← rules_names] at h4
  obtain ⟨⟨k', f⟩, hf, e⟩ := List.mem_map.1 h4
  dsimp only at e
  subst e
  rw [find_matched _ _ _ _ hf, find_matched _ _ _ _ hf, rotEntry_notRotated hk, rotEntry_notRotated hk]

/-! ### A single coefficient -/

theorem fullArr_zero {d : Dict String ℂ} {k : String} (h : ∀ i, entries d k i = 0) (op : Spec.Op) :
    fullArr d k op = arrOf op fun _ => 0 := by
  unfold fullArr; rw [show entries d k = fun _ => 0 from funext h, complete_zero]

theorem noShift_of {d : Dict String ℂ} (h1 : ∀ i, entries d "ll" i = 0) (h2 : ∀ i, entries d "phil3" i = 0)
    (h3 : Dict.getD d "phiWB" 0 = 0) : NoShift (flatSrc d) := by
  have e1 : (flatSrc d).tn "ll" = 0 := by
    have : opOf "ll" = some (.four (b .l) (n .l) (b .l) (n .l)) := opOf_eq (by decide +kernel)
    unfold flatSrc
    dsimp only
    rw [this]
    dsimp only
    rw [fullArr_zero h1]; rfl
  have e2 : (flatSrc d).mt "phil3" = 0 := by
    have : opOf "phil3" = some (.two (b .l) (n .l)) := opOf_eq (by decide +kernel)
    unfold flatSrc
    dsimp only
    rw [this]
    dsimp only
    rw [fullArr_zero h2]; rfl
  exact ⟨⟨by rw [e1]; rfl, by rw [e1]; rfl⟩, ⟨by rw [e2]; rfl, by rw [e2]; rfl⟩, by
    unfold flatSrc; dsimp only; rw [h3]; rfl⟩

/-- The gluon dipole of the first generation. -/
noncomputable def exDip : Dict String ℂ := [("dG_11", 1)]

/-- All entries of the dipole. -/
def dipL : List String := (idxs (.two (b .q) (n .d))).map (label "dG")

theorem mem_dipL (p r : Fin 3) : label "dG" [p, r] ∈ dipL := List.mem_map.2 ⟨_, mem_idxs.2 rfl, rfl⟩

theorem dG_op : IsOp "dG" (.two (b .q) (n .d)) := by decide +kernel

theorem exDip_wf : Dict.WF exDip := by simp [Dict.WF, Dict.keys, exDip]

theorem exDip_flat : ∀ key ∈ Dict.keys exDip, IsFlat key := by
  intro key hk
  obtain rfl : key = "dG_11" := by simpa [Dict.keys, exDip] using hk
  exact ⟨"dG", _, [0, 0], dG_op, rfl, by decide +kernel⟩

theorem exDip_entries {k : String} (hk : Plain k) (i : List (Fin 3)) :
    entries exDip k i = if k = "dG" ∧ i = [0, 0] then 1 else 0 := by
  have hl : "dG_11" = label "dG" [0, 0] := by decide +kernel
  unfold entries Dict.getD exDip
  rw [hl, Dict.find_cons]
  by_cases h : k = "dG" ∧ i = [0, 0]
  · rw [h.1, h.2]; simp
  · rw [if_neg h, if_neg fun e => h ?_]
    · rfl
    · have := label_inj (isOp_plain dG_op) hk (show label "dG" [0, 0] = label k i from e)
      exact ⟨this.1.symm, this.2.symm⟩

theorem exDip_noShift : NoShift (flatSrc exDip) := by
  refine noShift_of (fun i => ?_) (fun i => ?_) ?_
  · rw [exDip_entries (by decide +kernel), if_neg fun h => absurd h.1 (by decide)]
  · rw [exDip_entries (by decide +kernel), if_neg fun h => absurd h.1 (by decide)]
  · exact (exDip_entries (k := "phiWB") (by decide +kernel) []).trans (if_neg fun h => absurd h.1 (by decide))

theorem dG_src (d : Dict String ℂ) (i : Ix2) : (flatSrc d).mt "dG" i = entries d "dG" [i.1, i.2] := by
  have : opOf "dG" = some (.two (b .q) (n .d)) := opOf_eq dG_op
  unfold flatSrc
  dsimp only
  rw [this]
  rfl

theorem dG_value (V : M3) (d : Dict String ℂ) (w w0 : EW) (p r : Fin 3) :
    Dict.getD (Dict.filt (fun k _ => decide (k ∈ dipL)) (arrays2wcxf (matched V (flatSrc d) w w0))) (label "dG" [p, r]) 0 =
      w.rt * entries d "dG" [p, r] := by
  have hf : ("dG", fun C w => Arr.mat (w.rt • C.mt "dG")) ∈ matchRules := by simp [matchRules, rulesDipole]
  rw [getD_matched hf (mem_dipL p r) rfl (List.mem_map.2 ⟨(p, r), mem_ix2s _, rfl⟩)]
  simp only [Arr.sub, rotEntry, Arr.ent, Pi.sub_apply, Pi.smul_apply, smul_eq_mul, dG_src]
  simp [Src.zero]

theorem exDip_match (ckm : ℝ → ℝ → ℝ → ℝ → M3) (d : Dict String ℂ) (hw : Dict.WF d) (hd : ∀ key ∈ Dict.keys d, IsFlat key)
    (hS : NoShift (flatSrc d)) (par : Option Par)
    (hp : PhysicalEW (withPar defaultPar par) 1.1663787e-5 80.385 91.1876 (1 / 127.9))
    (hV : ∃ V, ckmOf ckm (withPar defaultPar par) = .ok V) : ∃ r v, matchAll ckm dipL defaultPar d par = .ok r ∧ v ≠ 0 ∧
      v = ((1 / Real.sqrt 2 * Real.sqrt (1 / Real.sqrt 2 / 1.1663787e-5) : ℝ) : ℂ) ∧
      ∀ p q, Dict.getD r (label "dG" [p, q]) 0 = v * entries d "dG" [p, q] := by
  obtain ⟨w, e1, hv⟩ := ew_ok hp hS
  obtain ⟨w0, e2, -⟩ := ew_ok hp (noShift_zero (flatSrc d))
  obtain ⟨V, hV⟩ := hV
  refine ⟨_, w.rt, matchAll_intro dipL hw hd e1 e2 hV, ?_, ?_, dG_value V d w w0⟩
  · unfold EW.rt
    rw [hv]
    have : (0 : ℝ) < 1 / Real.sqrt 2 * Real.sqrt (1 / Real.sqrt 2 / 1.1663787e-5) := by positivity
    exact_mod_cast this.ne'
  · unfold EW.rt
    rw [hv]

/-- **C65** fails for the gluon dipole of the down quarks, whose first index belongs to a left-handed down quark. -/
theorem C65_refuted : ∃ (V : M3) (d r r1 : Dict String ℂ) (L : List String) (i : List (Fin 3)),
    V.conjTranspose * V = 1 ∧ Dict.WF d ∧ (∀ key ∈ Dict.keys d, IsFlat key) ∧ IsWet "dG" [dLb, dR] ∧
    (∀ j : List (Fin 3), j.length = 2 → label "dG" j ∈ L) ∧ i.length = 2 ∧
    warsawUpToJms (fun _ _ _ _ => V) L defaultPar d 91 none = .ok r ∧
    warsawUpToJms (fun _ _ _ _ => 1) L defaultPar d 91 none = .ok r1 ∧
    Dict.getD r (label "dG" i) 0 ≠ rotW V [dLb, dR] (entries r1 "dG") i := by
  obtain ⟨r, v, h1, h2, h3, h4⟩ := exDip_match (fun _ _ _ _ => exV) exDip exDip_wf exDip_flat exDip_noShift none default_physical ⟨_, rfl⟩
  obtain ⟨r1, v1, g1, g2, g3, g4⟩ := exDip_match (fun _ _ _ _ => 1) exDip exDip_wf exDip_flat exDip_noShift none default_physical ⟨_, rfl⟩
  obtain rfl : v1 = v := g3.trans h3.symm
  refine ⟨exV, exDip, r, r1, dipL, [0, 0], exV_unitary, exDip_wf, exDip_flat, ⟨["dgamma", "dG"], by decide +kernel, by decide⟩,
    fun j hj => ?_, rfl, h1, g1, ?_⟩
  · obtain ⟨p, q, rfl⟩ := List.length_eq_two.1 hj
    exact mem_dipL p q
  · have hp : Plain "dG" := isOp_plain dG_op
    rw [h4, exDip_entries hp, if_pos ⟨rfl, rfl⟩]
    simp only [rotW, WSlot.mat, and_true, if_true, Bool.false_eq_true, and_false, if_false, one_sum]
    have h5 : ∀ p q, entries r1 "dG" [p, q] = if p = 0 ∧ q = 0 then v1 else 0 := fun p q => by
      change Dict.getD r1 (label "dG" [p, q]) 0 = _
      rw [g4, exDip_entries hp]
      simp
    simp only [h5]
    intro e
    have : v1 = v1 * (1 / 3) := by
      simpa [Fin.sum_univ_three, exV, mul_comm, Complex.conj_ofNat] using e
    apply g2
    linear_combination (3 / 2) * this

/-! ### C53 -/

theorem smark_mat (V : M3) (s : Slot) : s.mat (Rot.mk V.conjTranspose 1 1 1 1).fld = (smark s).inv V := by
  obtain ⟨f, bar⟩ := s
  cases f <;> cases bar <;> ext i j <;> simp [Slot.mat, Rot.fld, smark, Mark.inv, Matrix.one_apply]

/-- Translation to Warsaw up rotates what the matching conditions read. -/
theorem up_cov {ckm : ℝ → ℝ → ℝ → ℝ → M3} {up : List String} {default : Par} {d : Dict String ℂ} {par : Option Par}
    (hw : Dict.WF d) (hd : ∀ key ∈ Dict.keys d, IsFlat key) {V : M3} (hV : ckmOf ckm (withPar default par) = .ok V)
    (hup : ∀ k op i, IsOp k op → Indep op i → label k i ∈ up) :
    ∃ D, warsawToWarsawUp ckm up default d par = .ok D ∧ Dict.WF D ∧ (∀ key ∈ Dict.keys D, IsFlat key) ∧
      Cov V (flatSrc d) (flatSrc D) := by
  obtain ⟨D, h1, h2, h3, h4⟩ := rotateWarsaw_spec (fun V => V.conjTranspose) ckm up default d par V hV hw hd
  have hfull : ∀ k op, IsOp k op → fullArr D k op = rotated op (Rot.mk V.conjTranspose 1 1 1 1).fld (fullArr d k op) := by
    intro k op ho
    have hsh : HasShape op (arrOf op (entries d k)) := IsArr.shape ⟨_, rfl⟩
    refine complete_indep ((complete_conforms hsh).rotated _) ((IsArr.complete ⟨_, rfl⟩).rotated _) fun j hj => ?_
    change Dict.getD D (label k j) 0 = _
    rw [h4 _ k op j ⟨ho, indep_length hj, rfl⟩, if_pos (hup k op j ho hj)]
    rfl
  refine ⟨D, h1, h2, fun key hk => (h3 key hk).2, ⟨fun k x y z w ho => ?_, fun k x y ho => ?_, ?_⟩⟩
  · have h := hfull k _ ho
    unfold Tr4 flatSrc
    dsimp only
    rw [opOf_eq ho]
    dsimp only
    rw [h]
    simp only [← smark_mat]
    rfl
  · have h := hfull k _ ho
    unfold Tr2 flatSrc
    dsimp only
    rw [opOf_eq ho]
    dsimp only
    rw [h]
    simp only [← smark_mat]
    rfl
  · have ho : IsOp "phiWB" .boson := by decide +kernel
    have h := h4 "phiWB" "phiWB" .boson [] ⟨ho, rfl, rfl⟩
    rw [if_pos (show "phiWB" ∈ up from hup "phiWB" .boson [] ho trivial)] at h
    change (Dict.getD D "phiWB" 0).re = (Dict.getD d "phiWB" 0).re
    rw [h]
    simp [rotated, complete, arrOf, Arr.real, Arr.fn, entries, label]

theorem down_noG : ∀ k ∈ downNames, k ∉ ["G", "Gtilde"] := by decide +kernel

/-- **C53** except for the dipoles of the down quarks: the coefficients without up quarks come out as if the matching
conditions were applied directly to the Warsaw coefficients with a unit CKM matrix, whatever the CKM matrix. `up` lists
all independent entries, as the basis Warsaw up does. -/
theorem C53_down_partial (ckm : ℝ → ℝ → ℝ → ℝ → M3) (up L : List String) (default : Par) (d r2 : Dict String ℂ) (scale : ℝ)
    (par : Option Par) (hw : Dict.WF d) (hd : ∀ key ∈ Dict.keys d, IsFlat key) (V : M3)
    (hV : ckmOf ckm (withPar default par) = .ok V) (hunit : V.conjTranspose * V = 1)
    (hup : ∀ k op i, IsOp k op → Indep op i → label k i ∈ up)
    (h2 : warsawUpToJms (fun _ _ _ _ => 1) L default d scale par = .ok r2) :
    ∃ r1, warsawToJms ckm up L default d scale par = .ok r1 ∧
      ∀ key, NoUp (headPart key) → headPart key ∉ ["dgamma", "dG"] → Dict.find r1 key = Dict.find r2 key := by
  obtain ⟨w, w0, V1, e1, e2, e3, rfl⟩ := matchAll_inv hw hd h2
  obtain rfl := ckmOf_const e3
  obtain ⟨D, hD, hwD, hfD, hcov⟩ := up_cov hw hd hV hup
  have f1 : ewOf (flatSrc D) (withPar default par) = .ok w := by rw [hcov.ew]; exact e1
  have f2 : ewOf (flatSrc D).zero (withPar default par) = .ok w0 := by
    rw [← e2]
    exact (Cov.mk (V := V) (S := (flatSrc d).zero) (S' := (flatSrc D).zero) (fun _ _ _ _ _ _ => Tr4.zero V _)
      (Cov.zero V (flatSrc d)).mt rfl).ew _
  have hr := matchAll_intro L hwD hfD f1 f2 hV
  have hr' : warsawToJms ckm up L default d scale par = matchAll ckm L default D par := by
    unfold warsawToJms
    rw [hD, ok_bind]
  refine ⟨_, hr'.trans hr, fun key hk hn => ?_⟩
  · rw [find_restricted, find_restricted]
    refine congrArg (fun x => if key ∈ L then x else none) (find_flat_head (matched_wf _ _ _ _) (matched_plain _ _ _ _)
      (matched_wf _ _ _ _) (matched_plain _ _ _ _) ?_)
    have hdn := noUp_names hk hn
    obtain ⟨ss, hss, -⟩ := hk
    obtain ⟨f, hf⟩ := wet_rule hss
    rw [find_matched _ _ _ _ hf, find_matched _ _ _ _ hf, rotEntry_one]
    have hz : f (flatSrc D).zero w0 = f (flatSrc d).zero w0 :=
      rules_noG _ hf (down_noG _ hdn) (flatSrc d).zero (flatSrc D).zero.G (flatSrc D).zero.Gtilde w0
    rw [hz]
    exact congrArg some (rules_down hunit _ hf hdn (flatSrc d) (flatSrc D) (flatSrc d).zero w w0 hcov (Cov.zero V _))

/-- A scalar coefficient with a left-handed down quark of the second generation. -/
noncomputable def exScal : Dict String ℂ := [("ledq_1112", 1)]

theorem exScal_wf : Dict.WF exScal := by simp [Dict.WF, Dict.keys, exScal]

theorem ledq_op : IsOp "ledq" (.four (b .l) (n .e) (b .d) (n .q)) := by decide +kernel

theorem exScal_flat : ∀ key ∈ Dict.keys exScal, IsFlat key := by
  intro key hk
  obtain rfl : key = "ledq_1112" := by simpa [Dict.keys, exScal] using hk
  exact ⟨"ledq", _, [0, 0, 0, 1], ledq_op, rfl, by decide +kernel⟩

theorem exScal_entries {k : String} (hk : Plain k) (i : List (Fin 3)) :
    entries exScal k i = if k = "ledq" ∧ i = [0, 0, 0, 1] then 1 else 0 := by
  have hl : "ledq_1112" = label "ledq" [0, 0, 0, 1] := by decide +kernel
  unfold entries Dict.getD exScal
  rw [hl, Dict.find_cons]
  by_cases h : k = "ledq" ∧ i = [0, 0, 0, 1]
  · rw [h.1, h.2]; simp
  · rw [if_neg h, if_neg fun e => h ?_]
    · rfl
    · have := label_inj (isOp_plain ledq_op) hk (show label "ledq" [0, 0, 0, 1] = label k i from e)
      exact ⟨this.1.symm, this.2.symm⟩

/-- All entries of the scalar coefficient in JMS. -/
def scalL : List String := (idxs (.four (b .l) (n .e) (b .d) (n .q))).map (label "SedRL")

theorem exScal_match : ∃ r, warsawUpToJms (fun _ _ _ _ => 1) scalL defaultPar exScal 91 none = .ok r ∧
    ∀ p q s t, Dict.getD r (label "SedRL" [p, q, s, t]) 0 = if [p, q, s, t] = [0, 0, 0, 1] then 1 else 0 := by
  have hS : NoShift (flatSrc exScal) := by
    refine noShift_of (fun i => ?_) (fun i => ?_) ?_
    · rw [exScal_entries (by decide +kernel), if_neg fun h => absurd h.1 (by decide)]
    · rw [exScal_entries (by decide +kernel), if_neg fun h => absurd h.1 (by decide)]
    · exact (exScal_entries (k := "phiWB") (by decide +kernel) []).trans (if_neg fun h => absurd h.1 (by decide))
  obtain ⟨w, e1, -⟩ := ew_ok default_physical hS
  obtain ⟨w0, e2, -⟩ := ew_ok default_physical (noShift_zero (flatSrc exScal))
  have h1 : ckmOf (fun _ _ _ _ => 1) (withPar defaultPar none) = .ok 1 := rfl
  refine ⟨_, matchAll_intro scalL exScal_wf exScal_flat e1 e2 h1, fun p q s t => ?_⟩
  have hf : ("SedRL", fun (C : Src) (_ : EW) => Arr.ten (C.tn "ledq")) ∈ matchRules := by simp [matchRules, rulesScalar]
  have hL : label "SedRL" [p, q, s, t] ∈ scalL := List.mem_map.2 ⟨_, mem_idxs.2 rfl, rfl⟩
  rw [getD_matched (i := [p, q, s, t]) hf hL (rotEntry_one _ _) (List.mem_map.2 ⟨(p, q, s, t), mem_ix4s _, rfl⟩)]
  have ht : (flatSrc exScal).tn "ledq" (p, q, s, t) = entries exScal "ledq" [p, q, s, t] := by
    unfold flatSrc
    dsimp only
    rw [opOf_eq ledq_op]
    rfl
  simp only [Arr.sub, Arr.ent, Pi.sub_apply, ht]
  rw [exScal_entries (isOp_plain ledq_op)]
  simp [Src.zero]

/-- A case of C53: the coefficient is found again under the same indices after rotation forth and back. -/
example : ∃ r, warsawToJms (fun _ _ _ _ => exV) allFlat scalL defaultPar exScal 91 none = .ok r ∧
    Dict.getD r "SedRL_1112" 0 = 1 ∧ Dict.getD r "SedRL_1111" 0 = 0 := by
  obtain ⟨r2, h1, h2⟩ := exScal_match
  obtain ⟨r, h3, h4⟩ := C53_down_partial (fun _ _ _ _ => exV) allFlat scalL defaultPar exScal r2 91 none exScal_wf exScal_flat
    exV rfl exV_unitary (fun k op i => mem_allFlat) h1
  have hk : ∀ i, headPart (label "SedRL" i) = "SedRL" := headPart_label (show Plain "SedRL" by decide +kernel)
  have h5 : ∀ i, Dict.getD r (label "SedRL" i) 0 = Dict.getD r2 (label "SedRL" i) 0 := fun i => by
    unfold Dict.getD
    rw [h4 _ (by rw [hk]; exact ⟨[eLb, eR, dRb, dL], ⟨["SedRL"], by decide +kernel, by decide⟩, by simp, by decide⟩)
      (by rw [hk]; decide)]
  refine ⟨r, h3, ?_, ?_⟩
  · rw [show "SedRL_1112" = label "SedRL" [0, 0, 0, 1] by decide +kernel, h5, h2]; rfl
  · rw [show "SedRL_1111" = label "SedRL" [0, 0, 0, 0] by decide +kernel, h5, h2]; rfl

/-- A case of C65: from Warsaw up, the coefficient spreads over the entries of a row of the CKM matrix. -/
example : ∃ r, warsawUpToJms (fun _ _ _ _ => exV) scalL defaultPar exScal 91 none = .ok r ∧
    Dict.getD r "SedRL_1111" 0 = 2 / 3 ∧ Dict.getD r "SedRL_1113" 0 = -2 / 3 := by
  obtain ⟨r2, h1, h2⟩ := exScal_match
  have hm : ∀ i : List (Fin 3), i.length = 4 → label "SedRL" i ∈ scalL := fun i hi => List.mem_map.2 ⟨_, mem_idxs.2 hi, rfl⟩
  obtain ⟨r, h3, h4⟩ := C65_rotation_partial (fun _ _ _ _ => exV) scalL scalL defaultPar exScal r2 91 none exScal_wf exScal_flat
    exV rfl "SedRL" [eLb, eR, dRb, dL] ⟨["SedRL"], by decide +kernel, by decide⟩ (by simp) (by decide) hm h1
  have h5 : ∀ p q s t, entries r2 "SedRL" [p, q, s, t] = if [p, q, s, t] = [0, 0, 0, 1] then 1 else 0 := h2
  have h6 : ∀ a, Dict.getD r (label "SedRL" [0, 0, 0, a]) 0 = exV 1 a := fun a => by
    rw [h4 _ rfl (hm _ rfl)]
    simp only [rotW, WSlot.mat, and_true, if_true, Bool.false_eq_true, and_false, if_false, reduceCtorEq, one_sum, h5]
    simp
  refine ⟨r, h3, ?_, ?_⟩
  · rw [show "SedRL_1111" = label "SedRL" [0, 0, 0, 0] by decide +kernel, h6]; simp [exV]; norm_num
  · rw [show "SedRL_1113" = label "SedRL" [0, 0, 0, 2] by decide +kernel, h6]; simp [exV]; norm_num

/-- **C53** fails for the gluon dipole: its value depends on the CKM matrix. -/
theorem C53_refuted : ∃ (V : M3) (d r1 r2 : Dict String ℂ) (up L : List String) (key : String),
    V.conjTranspose * V = 1 ∧ Dict.WF d ∧ (∀ key ∈ Dict.keys d, IsFlat key) ∧
    (∀ k op i, IsOp k op → Indep op i → label k i ∈ up) ∧ NoUp (headPart key) ∧
    warsawToJms (fun _ _ _ _ => V) up L defaultPar d 91 none = .ok r1 ∧
    warsawUpToJms (fun _ _ _ _ => 1) L defaultPar d 91 none = .ok r2 ∧ Dict.find r1 key ≠ Dict.find r2 key := by
  obtain ⟨r2, v, g1, g2, g3, g4⟩ := exDip_match (fun _ _ _ _ => 1) exDip exDip_wf exDip_flat exDip_noShift none default_physical ⟨_, rfl⟩
  have hV : ckmOf (fun _ _ _ _ => exV) (withPar defaultPar none) = .ok exV := rfl
  obtain ⟨D, hD, hwD, hfD, hcov⟩ := up_cov (up := allFlat) exDip_wf exDip_flat hV (fun k op i => mem_allFlat)
  have hS : NoShift (flatSrc D) := by
    have h := exDip_noShift
    exact ⟨by rw [hcov.ll]; exact h.ll, by rw [hcov.phil3]; exact h.phil3, by rw [hcov.phiWB]; exact h.phiWB⟩
  obtain ⟨r1, v1, h1, h2, h3, h4⟩ := exDip_match (fun _ _ _ _ => exV) D hwD hfD hS none default_physical ⟨_, rfl⟩
  obtain rfl : v1 = v := h3.trans g3.symm
  have hl : "dG_11" = label "dG" [0, 0] := by decide +kernel
  refine ⟨exV, exDip, r1, r2, allFlat, dipL, "dG_11", exV_unitary, exDip_wf, exDip_flat, fun k op i => mem_allFlat, ?_,
    ?_, g1, ?_⟩
  · have : headPart "dG_11" = "dG" := by decide +kernel
    rw [this]
    exact ⟨[dLb, dR], ⟨["dgamma", "dG"], by decide +kernel, by decide⟩, by simp, by decide⟩
  · unfold warsawToJms
    rw [hD, ok_bind, h1]
  · intro e
    have e : Dict.getD r1 "dG_11" 0 = Dict.getD r2 "dG_11" 0 := by unfold Dict.getD; rw [e]
    have hp : Plain "dG" := isOp_plain dG_op
    have hm := congrFun (hcov.mt "dG" _ _ dG_op) (0, 0)
    rw [dG_src] at hm
    rw [hl, h4, g4, exDip_entries hp, if_pos ⟨rfl, rfl⟩, hm] at e
    have hs : ∀ p q : Fin 3, (flatSrc exDip).mt "dG" (p, q) = if p = 0 ∧ q = 0 then 1 else 0 := fun p q => by
      rw [dG_src, exDip_entries hp]
      simp
    simp only [rot2, smark, hs] at e
    have e' : v1 * (1 / 3) = v1 := by
      simpa [Fin.sum_univ_three, exV, Mark.inv, Spec.b, Spec.n, Matrix.one_apply] using e
    apply h2
    linear_combination (-3 / 2) * e'

end Verif
