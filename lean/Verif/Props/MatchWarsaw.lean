import Verif.Lemmas.FlavRot
import Verif.Props.MatchEos
import Verif.Props.MatchCkm
import Verif.Props.Inputs

/-! C86: the effective Lagrangian in the matching from the Warsaw basis to WET in the JMS basis, flavio and EOS, and C74 from the Warsaw basis. -/

set_option autoImplicit false

namespace Verif

open Spec

/-! ### Translation to Warsaw up as a rotation of the multiplets -/

/-- Rotation of the quark doublets alone. -/
noncomputable def qRot (W : M3) : Fld → M3 := (Rot.mk W 1 1 1 1).fld

theorem rot_full (Uq : M3 → M3) {ckm : ℝ → ℝ → ℝ → ℝ → M3} {up : List String} {default : Par} {d : Dict String ℂ} {par : Option Par} {S : JSrc → ℂ}
    (hw : Dict.WF d) (hd : ∀ key ∈ Dict.keys d, IsFlat key) (hS : SmeftFull d S) {V : M3} (hV : ckmOf ckm (withPar default par) = .ok V)
    (hup : ∀ k op i, IsOp k op → Indep op i → label k i ∈ up) :
    ∃ D S', rotateWarsaw Uq ckm up default d par = .ok D ∧ Dict.WF D ∧ (∀ key ∈ Dict.keys D, IsFlat key) ∧ SmeftFull D S' ∧
      Rotated (qRot (Uq V)) S S' := by
  obtain ⟨D, h1, h2, h3, h4⟩ := rotateWarsaw_spec Uq ckm up default d par V hV hw hd
  let S' : JSrc → ℂ := fun x => match opOf x.1 with
    | some op => (rotated op (qRot (Uq V)) (arrOf op fun i => S (x.1, i))).fn x.2
    | none => 0
  have e : ∀ {k op}, IsOp k op → ∀ i, S' (k, i) = (rotated op (qRot (Uq V)) (arrOf op fun i => S (k, i))).fn i := by
    intro k op ho i
    change (match opOf k with
      | some op => (rotated op (qRot (Uq V)) (arrOf op fun i => S (k, i))).fn i
      | none => 0) = _
    rw [opOf_eq ho]
  have hcomp : ∀ {k op}, IsOp k op → complete op (arrOf op (entries d k)) = arrOf op fun i => S (k, i) := by
    intro k op ho
    by_cases hb : op = .boson
    · subst hb
      have hl := hS.listed k .boson [] ho trivial
      have hr := hS.real k ho
      change Arr.real (Arr.num (Dict.getD d (label k []) 0)) = Arr.num (S (k, []))
      rw [← hl]
      exact congrArg Arr.num (Complex.ext (by simp) (by simp [hr]))
    · exact full_arr hS ho hb
  refine ⟨D, S', h1, h2, fun key hk => (h3 key hk).2, ⟨fun k op i ho hi => ?_, fun k ho => ?_, fun k x y c ho hc => ?_,
    fun k x y z w c ho hc => ?_⟩, ⟨fun k ho => e ho [], fun k x y ho => ?_, fun k x y z w ho => ?_⟩⟩
  · rw [e ho, h4 _ k op i ⟨ho, indep_length hi, rfl⟩, if_pos (hup k op i ho hi), hcomp ho]
    rfl
  · rw [e ho]
    exact hS.real k ho
  · have : (fun i : Ix2 => S' (k, [i.1, i.2])) = rot2 (x.mat (qRot (Uq V))) (y.mat (qRot (Uq V))) fun i => S (k, [i.1, i.2]) := by
      funext i; exact e ho _
    rw [this]
    exact rot2_rel _ x y c hc _ (hS.rel2 k x y c ho hc)
  · have : (fun i : Ix4 => S' (k, [i.1, i.2.1, i.2.2.1, i.2.2.2])) = rot4 (x.mat (qRot (Uq V))) (y.mat (qRot (Uq V)))
        (z.mat (qRot (Uq V))) (w.mat (qRot (Uq V))) fun i => S (k, [i.1, i.2.1, i.2.2.1, i.2.2.2]) := by
      funext i; exact e ho _
    rw [this]
    exact rot4_rel _ x y z w c hc _ (hS.rel4 k x y z w c ho hc)
  · funext i; exact e ho _
  · funext i; exact e ho _

theorem up_full {ckm : ℝ → ℝ → ℝ → ℝ → M3} {up : List String} {default : Par} {d : Dict String ℂ} {par : Option Par} {S : JSrc → ℂ}
    (hw : Dict.WF d) (hd : ∀ key ∈ Dict.keys d, IsFlat key) (hS : SmeftFull d S) {V : M3} (hV : ckmOf ckm (withPar default par) = .ok V)
    (hup : ∀ k op i, IsOp k op → Indep op i → label k i ∈ up) :
    ∃ D S', warsawToWarsawUp ckm up default d par = .ok D ∧ Dict.WF D ∧ (∀ key ∈ Dict.keys D, IsFlat key) ∧ SmeftFull D S' ∧
      Rotated (qRot V.conjTranspose) S S' :=
  rot_full (fun V => V.conjTranspose) hw hd hS hV hup

theorem qRot_l (W : M3) : (b .l).mat (qRot W) = 1 ∧ (n .l).mat (qRot W) = 1 := ⟨barM_one, rfl⟩

section

variable {S S' : JSrc → ℂ} {W : M3} (h : Rotated (qRot W) S S')
include h

theorem rotated_ll : tens S' "ll" = tens S "ll" := by
  rw [h.four "ll" _ _ _ _ ll_op, (qRot_l W).1, (qRot_l W).2, rot4_one]

theorem rotated_phil3 (i : Ix2) : S' ("phil3", [i.1, i.2]) = S ("phil3", [i.1, i.2]) := by
  have ho : IsOp "phil3" (.two (b .l) (n .l)) := by decide +kernel
  have := h.two "phil3" _ _ ho
  rw [(qRot_l W).1, (qRot_l W).2, rot2_one] at this
  exact congrFun this i

/-- The couplings do not depend on the rotation of the quarks. -/
theorem couplings_rot (GF mW mZ α : ℝ) : couplings GF mW mZ α S' = couplings GF mW mZ α S := by
  have h1 : ∀ p r s t, S' ("ll", [p, r, s, t]) = S ("ll", [p, r, s, t]) := fun p r s t => congrFun (rotated_ll h) (p, r, s, t)
  have h2 : ∀ p r, S' ("phil3", [p, r]) = S ("phil3", [p, r]) := fun p r => rotated_phil3 h (p, r)
  have h3 : S' ("phiWB", []) = S ("phiWB", []) := h.zero _ (by decide +kernel)
  unfold couplings
  rw [h1, h1, h2, h2, h3]

end

theorem zero_rotated (U : Fld → M3) : Rotated U (fun _ => 0) (fun _ => 0) :=
  ⟨fun _ _ => rfl, fun k x y _ => by funext i; simp [rot2], fun k x y z w _ => by funext i; simp [rot4, tens]⟩

/-- Rotation of all quark doublets by the adjoint of `V` and of the left-handed down quarks by `V`. -/
theorem up_rot {V : M3} (hV : V.conjTranspose * V = 1) (T : Four) :
    (T.rot (fieldRot (qRot V.conjTranspose))).rotL V = T.rot (rotUpL V.conjTranspose) := by
  rw [rotL_eq, rot_comp]
  congr 1
  funext A k
  cases A <;> cases k <;> simp [fieldRot, multiplet, rotUpL, qRot, Rot.fld, hV]

/-- The effective Lagrangian of the coefficients in the basis Warsaw up. -/
theorem tree_up {V : M3} (hV : V.conjTranspose * V = 1) {S S' : JSrc → ℂ} (h : Rotated (qRot V.conjTranspose) S S') (GF mW mZ α : ℝ) :
    (Four.rotL V fun p q r s => treeLag S' (couplings GF mW mZ α S') p q r s -
      treeLag (fun _ => 0) (couplings GF mW mZ α fun _ => 0) p q r s) =
    Four.rot (rotUpL V.conjTranspose) fun p q r s => treeLag S (couplings GF mW mZ α S) p q r s -
      treeLag (fun _ => 0) (couplings GF mW mZ α fun _ => 0) p q r s := by
  have hW : V * V.conjTranspose = 1 := mul_eq_one_comm.1 hV
  have hU : ∀ f, (qRot V.conjTranspose f).conjTranspose * qRot V.conjTranspose f = 1 := by
    intro f
    cases f <;> simp [qRot, Rot.fld, hW]
  rw [← up_rot hV, rot_sub, ← tree_rot h hU, ← tree_rot (zero_rotated _) hU, couplings_rot h]

section

variable {ckm : ℝ → ℝ → ℝ → ℝ → M3} {up L : List String} {default : Par} {d D : Dict String ℂ} {scale : ℝ} {par : Option Par} {V : M3}
  {GF mW mZ α : ℝ} {S : JSrc → ℂ}

/-- **C86** for the JMS basis: the coefficients returned by `warsaw_to_jms` give the tree-level effective Lagrangian of the SMEFT in the Warsaw
basis without that of the Standard Model, with the left-handed up quarks rotated by the adjoint of the CKM matrix. -/
theorem C86_jms (hw : Dict.WF d) (hd : ∀ key ∈ Dict.keys d, IsFlat key) (hS : SmeftFull d S)
    (h : warsawToJms ckm up L default d scale par = .ok D) (hV : ckmOf ckm (withPar default par) = .ok V) (hu : V.conjTranspose * V = 1)
    (hup : ∀ k op i, IsOp k op → Indep op i → label k i ∈ up)
    (hG : Dict.find (withPar default par) "GF" = some GF) (hW : Dict.find (withPar default par) "m_W" = some mW)
    (hZ : Dict.find (withPar default par) "m_Z" = some mZ) (hA : Dict.find (withPar default par) "alpha_e" = some α)
    (hL : WetListing L) {J : JSrc → ℂ} (hJ : WetFull L D J) {p q r s : Leg} (hp : p.Phys) (hq : q.Phys) (hr : r.Phys) (hs : s.Phys)
    (lp : p.Light) (lq : q.Light) (lr : r.Light) (ls : s.Light) :
    (wetLag J).anti p q r s = (Four.rot (rotUpL V.conjTranspose) fun p q r s => treeLag S (couplings GF mW mZ α S) p q r s -
      treeLag (fun _ => 0) (couplings GF mW mZ α fun _ => 0) p q r s).anti p q r s := by
  obtain ⟨D1, S', h1, h2, h3, h4, h5⟩ := up_full hw hd hS hV hup
  unfold warsawToJms at h
  rw [h1, ok_bind] at h
  rw [← tree_up hu h5]
  exact C73_lagrangian_partial (scale := scale) h2 h3 h4 h hV hG hW hZ hA hL hJ hp hq hr hs lp lq lr ls

/-- **C86** for the dipole operators of charged leptons and up quarks, with the same rotation. -/
theorem C86_dipoles (hw : Dict.WF d) (hd : ∀ key ∈ Dict.keys d, IsFlat key) (hS : SmeftFull d S)
    (h : warsawToJms ckm up L default d scale par = .ok D) (hV : ckmOf ckm (withPar default par) = .ok V)
    (hup : ∀ k op i, IsOp k op → Indep op i → label k i ∈ up)
    (hG : Dict.find (withPar default par) "GF" = some GF) (hW : Dict.find (withPar default par) "m_W" = some mW)
    (hZ : Dict.find (withPar default par) "m_Z" = some mZ) (hA : Dict.find (withPar default par) "alpha_e" = some α)
    {k : String} {X : Boson} {f : Kind} (hk : (k, X, f) ∈ wetDipoles) (hf : f ≠ .d) (p r : Fin 3) (hl : label k [p, r] ∈ L) :
    Dict.getD D (label k [p, r]) 0 =
      ∑ a, ∑ c, starRingEnd ℂ (rotUpL V.conjTranspose .L f a p) * rotUpL V.conjTranspose .R f c r * treeDipole S (couplings GF mW mZ α S) X f a c := by
  obtain ⟨D1, S', h1, h2, h3, h4, h5⟩ := up_full hw hd hS hV hup
  unfold warsawToJms at h
  rw [h1, ok_bind] at h
  rw [C73_dipoles_partial (scale := scale) h2 h3 h4 h hG hW hZ hA hk p r hl, couplings_rot h5]
  have m : ∀ k f g, IsOp k (.two (b f) (n g)) → S' (k, [p, r]) =
      rot2 (barM (qRot V.conjTranspose f)) (qRot V.conjTranspose g) (fun i => S (k, [i.1, i.2])) (p, r) := fun k f g ho => shift_rot h5 ho (p, r)
  have o1 : ∀ k ∈ ["uB", "uW", "uG"], IsOp k (.two (b .q) (n .u)) := by decide +kernel
  have o2 : ∀ k ∈ ["eB", "eW"], IsOp k (.two (b .l) (n .e)) := by decide +kernel
  simp only [wetDipoles, List.mem_cons, Prod.mk.injEq, List.not_mem_nil, or_false] at hk
  rcases hk with ⟨rfl, rfl, rfl⟩ | ⟨rfl, rfl, rfl⟩ | ⟨rfl, rfl, rfl⟩ | ⟨rfl, rfl, rfl⟩ | ⟨rfl, rfl, rfl⟩
  · simp only [treeDipole, dipoleNames]
    rw [m "eB" .l .e (o2 _ (by simp)), m "eW" .l .e (o2 _ (by simp))]
    simp only [rot2, qRot, Rot.fld, barM_one, rotUpL, reduceCtorEq, and_false, if_false, Fin.sum_univ_three, map_one, map_zero, Matrix.one_apply, apply_ite (starRingEnd ℂ)]
    ring
  · simp only [treeDipole, dipoleNames]
    rw [m "uB" .q .u (o1 _ (by simp)), m "uW" .q .u (o1 _ (by simp))]
    simp only [rot2, qRot, Rot.fld, barM, rotUpL, reduceCtorEq, false_and, and_self, if_true, if_false, Fin.sum_univ_three]
    ring
  · exact absurd rfl hf
  · simp only [treeDipole, dipoleNames]
    rw [m "uG" .q .u (o1 _ (by simp))]
    simp only [rot2, qRot, Rot.fld, barM, rotUpL, reduceCtorEq, false_and, and_self, if_true, if_false, Fin.sum_univ_three]
    ring
  · exact absurd rfl hf

end

section

variable {E : WEnv} {P : PEnv} {up : List String} {d D : Dict String ℂ} {scale : ℝ} {par : Option Par} {S : JSrc → ℂ}

/-- The parameters of the translators are those of the matching conditions. -/
theorem penv_inputs (h : penv E scale par = .ok P) : ckmOf E.ckm (withPar E.default par) = .ok P.V ∧
    Dict.find (withPar E.default par) "GF" = some P.p.GF ∧ Dict.find (withPar E.default par) "m_W" = some P.p.m_W ∧
    Dict.find (withPar E.default par) "m_Z" = some P.p.m_Z ∧ Dict.find (withPar E.default par) "alpha_e" = some P.p.alpha_e := by
  unfold penv getParameters at h
  obtain ⟨p, h, hP⟩ := bind_ok_elim h
  obtain ⟨_, -, h⟩ := bind_ok_elim h
  obtain ⟨_, -, h⟩ := bind_ok_elim h
  obtain ⟨_, -, h⟩ := bind_ok_elim h
  obtain ⟨_, -, h⟩ := bind_ok_elim h
  obtain ⟨_, -, h⟩ := bind_ok_elim h
  obtain ⟨_, -, h⟩ := bind_ok_elim h
  obtain ⟨_, b1, h⟩ := bind_ok_elim h
  obtain ⟨_, b2, h⟩ := bind_ok_elim h
  obtain ⟨_, a1, h⟩ := bind_ok_elim h
  obtain ⟨_, a2, h⟩ := bind_ok_elim h
  obtain ⟨_, a3, h⟩ := bind_ok_elim h
  obtain ⟨_, a4, h⟩ := bind_ok_elim h
  obtain ⟨_, a5, h⟩ := bind_ok_elim h
  obtain ⟨_, a6, h⟩ := bind_ok_elim h
  obtain ⟨_, -, h⟩ := bind_ok_elim h
  obtain ⟨_, -, h⟩ := bind_ok_elim h
  obtain ⟨_, -, h⟩ := bind_ok_elim h
  cases h
  cases hP
  refine ⟨?_, Dict.get_ok_iff.1 a1, Dict.get_ok_iff.1 b1, Dict.get_ok_iff.1 b2, Dict.get_ok_iff.1 a2⟩
  unfold ckmOf
  rw [a3, a4, a5, a6]
  rfl

/-- **C86** for flavio: the coefficients returned by `warsaw_to_flavio` give the tree-level effective Lagrangian of the SMEFT in the Warsaw
basis without that of the Standard Model, with the left-handed up quarks rotated by the adjoint of the CKM matrix, for every four-fermion process
of the flavio basis. -/
theorem C86_flavio (hw : Dict.WF d) (hd : ∀ key ∈ Dict.keys d, IsFlat key) (hS : SmeftFull d S)
    (h : warsawToVia (jmsToFlavio E) E.ckm up E.jms E.default d scale par = .ok D) (hp : penv E scale par = .ok P) (hP : Admissible P)
    (hu : P.V.conjTranspose * P.V = 1) (hup : ∀ k op i, IsOp k op → Indep op i → label k i ∈ up) (hL : JmsListing E.jms)
    {p q r s : Leg} (pp : p.Phys) (pq : q.Phys) (pr : r.Phys) (ps : s.Phys)
    (hc : NCovered (flavioSectors P.p.GF P.p.alpha_e P.p.m_b P.V) p q r s) :
    (nLag (flavioSectors P.p.GF P.p.alpha_e P.p.m_b P.V) fun k => Dict.getD D k 0).anti p q r s =
      (Four.rot (rotUpL P.V.conjTranspose) fun p q r s =>
        treeLag S (couplings P.p.GF P.p.m_W P.p.m_Z P.p.alpha_e S) p q r s -
        treeLag (fun _ => 0) (couplings P.p.GF P.p.m_W P.p.m_Z P.p.alpha_e fun _ => 0) p q r s).anti p q r s := by
  obtain ⟨i1, i2, i3, i4, i5⟩ := penv_inputs hp
  obtain ⟨D1, S', h1, h2, h3, h4, h5⟩ := up_full hw hd hS i1 hup
  unfold warsawToVia at h
  rw [h1, ok_bind] at h
  obtain ⟨D2, k1, k2⟩ := bind_inv h
  rw [← tree_up hu h5]
  exact C75_lagrangian (scale := scale) h2 h3 h4 k1 i1 i2 i3 i4 i5 hp hP hL k2 pp pq pr ps hc

/-- **C86** for EOS, for `b -> s l l` and `b -> u l nu`. -/
theorem C86_eos (hw : Dict.WF d) (hd : ∀ key ∈ Dict.keys d, IsFlat key) (hS : SmeftFull d S)
    (h : warsawToVia (jmsToEos E) E.ckm up E.jms E.default d scale par = .ok D) (hp : penv E scale par = .ok P) (hP : Admissible P)
    (hm : P.p.m_b ^ 2 ≠ P.p.m_s ^ 2)
    (hu : P.V.conjTranspose * P.V = 1) (hup : ∀ k op i, IsOp k op → Indep op i → label k i ∈ up) (hL : JmsListing E.jms)
    {p q r s : Leg} (pp : p.Phys) (pq : q.Phys) (pr : r.Phys) (ps : s.Phys)
    (hc : NCovered (eosLepSectors P.p.GF P.p.alpha_e P.V) p q r s) :
    (nLag (eosLepSectors P.p.GF P.p.alpha_e P.V) fun k => Dict.getD D k 0).anti p q r s =
      (Four.rot (rotUpL P.V.conjTranspose) fun p q r s =>
        treeLag S (couplings P.p.GF P.p.m_W P.p.m_Z P.p.alpha_e S) p q r s -
        treeLag (fun _ => 0) (couplings P.p.GF P.p.m_W P.p.m_Z P.p.alpha_e fun _ => 0) p q r s).anti p q r s := by
  obtain ⟨i1, i2, i3, i4, i5⟩ := penv_inputs hp
  obtain ⟨D1, S', h1, h2, h3, h4, h5⟩ := up_full hw hd hS i1 hup
  unfold warsawToVia at h
  rw [h1, ok_bind] at h
  obtain ⟨D2, k1, k2⟩ := bind_inv h
  rw [← tree_up hu h5]
  exact C85_lagrangian (scale := scale) h2 h3 h4 k1 i1 i2 i3 i4 i5 hp hP hm hL k2 pp pq pr ps hc

/-- **C74** from the Warsaw basis, with the same restriction. -/
theorem C74_warsaw_partial (hw : Dict.WF d) (hd : ∀ key ∈ Dict.keys d, IsFlat key) (hS : SmeftFull d S)
    (h : warsawToVia (jmsToBern E) E.ckm up E.jms E.default d scale par = .ok D) (hp : penv E scale par = .ok P) (hP : Admissible P)
    (hu : P.V.conjTranspose * P.V = 1) (hup : ∀ k op i, IsOp k op → Indep op i → label k i ∈ up) (hL : JmsListing E.jms)
    {p q r s : Leg} (pp : p.Phys) (pq : q.Phys) (pr : r.Phys) (ps : s.Phys) (hc : Covered p q r s) (hn : Unweighted p q r s) :
    (bernLag P.p.GF fun k => Dict.getD D k 0).anti p q r s =
      (Four.rot (rotUpL P.V.conjTranspose) fun p q r s =>
        treeLag S (couplings P.p.GF P.p.m_W P.p.m_Z P.p.alpha_e S) p q r s -
        treeLag (fun _ => 0) (couplings P.p.GF P.p.m_W P.p.m_Z P.p.alpha_e fun _ => 0) p q r s).anti p q r s := by
  obtain ⟨i1, i2, i3, i4, i5⟩ := penv_inputs hp
  obtain ⟨D1, S', h1, h2, h3, h4, h5⟩ := up_full hw hd hS i1 hup
  unfold warsawToVia at h
  rw [h1, ok_bind] at h
  obtain ⟨D2, k1, k2⟩ := bind_inv h
  rw [← tree_up hu h5]
  exact C74_lagrangian_partial (scale := scale) h2 h3 h4 k1 i1 i2 i3 i4 i5 hp hP hL k2 pp pq pr ps hc hn

end

/-! ### Examples -/

/-- Tensor of the coefficient `ledq_1131`. -/
noncomputable def ledqT : Ix4 → ℂ := fun i => if i = (0, 0, 2, 0) then 1 else 0

/-- The input. -/
noncomputable def exLedq : Dict String ℂ := [("ledq_1131", 1)]

theorem exLedq_wf : Dict.WF exLedq := by simp [Dict.WF, Dict.keys, exLedq]

theorem exLedq_flat : ∀ key ∈ Dict.keys exLedq, IsFlat key := by
  intro key hk
  obtain rfl : key = "ledq_1131" := by simpa [Dict.keys, exLedq] using hk
  exact ⟨"ledq", _, [0, 0, 2, 0], ledq_op, rfl, by decide +kernel⟩

theorem exLedq_full : SmeftFull exLedq (oneS "ledq" ledqT) := by
  have hl : "ledq_1131" = label "ledq" [0, 0, 2, 0] := by decide +kernel
  refine ⟨fun k op i ho hi => ?_, fun k ho => by simp [oneS], fun k x y c ho hc => ?_, fun k x y z w c ho hc => ?_⟩
  · unfold Dict.getD exLedq
    rw [hl, Dict.find_cons]
    have hk := isOp_plain ho
    by_cases h : k = "ledq" ∧ i = [0, 0, 2, 0]
    · rw [h.1, h.2]; simp [oneS, ledqT]
    · have hne : ¬ label "ledq" [0, 0, 2, 0] = label k i := fun e => h <| by
        have := label_inj (isOp_plain ledq_op) hk e
        exact ⟨this.1.symm, this.2.symm⟩
      rw [if_neg hne]
      unfold oneS
      by_cases hkk : k = "ledq"
      · simp only [hkk, true_and, if_true] at h ⊢
        match i with
        | [p, r, s, t] =>
          have h' : (p, r, s, t) ≠ ((0, 0, 2, 0) : Ix4) := fun e => h (by
            simp only [Prod.mk.injEq] at e
            obtain ⟨rfl, rfl, rfl, rfl⟩ := e
            rfl)
          simp [ledqT, h', Dict.find]
        | [] => rfl
        | [_] => rfl
        | [_, _] => rfl
        | [_, _, _] => rfl
        | _ :: _ :: _ :: _ :: _ :: _ => rfl
      · simp [hkk, Dict.find]
  · have : (fun i : Fin 3 × Fin 3 => oneS "ledq" ledqT (k, [i.1, i.2])) = fun _ => 0 := by
      funext i; simp [oneS]
    rw [this]
    cases c <;> simp [Rel2]
  · by_cases hkk : k = "ledq"
    · subst hkk
      have e := isOp_unique ho ledq_op
      injection e with e1 e2 e3 e4
      subst e1 e2 e3 e4
      cases hc
    · have : (fun i : Fin 3 × Fin 3 × Fin 3 × Fin 3 => oneS "ledq" ledqT (k, [i.1, i.2.1, i.2.2.1, i.2.2.2])) = fun _ => 0 := by
        funext i; simp [oneS, hkk]
      rw [this]
      cases c <;> simp [Rel4]

/-- With one four-fermion operator, only the contact term remains. -/
theorem one_tree {k0 : String} {T : Ix4 → ℂ} (hk : k0 ≠ "ll") (GF mW mZ α : ℝ) (p q r s : Leg) :
    treeLag (oneS k0 T) (couplings GF mW mZ α (oneS k0 T)) p q r s - treeLag (fun _ => 0) (couplings GF mW mZ α fun _ => 0) p q r s =
      contactLag (oneS k0 T) p q r s := by
  have h2 : ∀ k p r, oneS k0 T (k, [p, r]) = 0 := fun k p r => by simp [oneS]
  have h4 : ∀ p r s t, oneS k0 T ("ll", [p, r, s, t]) = 0 := fun p r s t => by simp [oneS, hk.symm]
  have h0 : oneS k0 T ("phiWB", []) = 0 := by simp [oneS]
  have e1 : couplings GF mW mZ α (oneS k0 T) = couplings GF mW mZ α fun _ => 0 := by
    unfold couplings
    rw [h4, h4, h2, h2, h0]
  have e2 : ∀ c, zCoup (oneS k0 T) c = zCoup (fun _ => 0) c := fun c => by
    funext ⟨A, k⟩ i
    unfold zCoup
    cases A <;> cases k <;> simp only [zNames, shift, Option.elim, h2]
  have e3 : ∀ c, wCoup (oneS k0 T) c = wCoup (fun _ => 0) c := fun c => by
    funext ⟨A, k, k'⟩ i
    cases A <;> cases k <;> simp only [wCoup, h2]
  have e4 : contactLag (fun _ => 0) p q r s = 0 := by
    have m0 : ∀ (o : Spec.WOp) p q r s, o.lag (fun _ => 0) p q r s = 0 := fun o p q r s => by
      have : tens (fun _ : JSrc => (0 : ℂ)) o.name = fun _ => 0 := rfl
      unfold WOp.lag mono
      simp [this]
    unfold contactLag
    refine List.sum_eq_zero fun x hx => ?_
    obtain ⟨o, -, rfl⟩ := List.mem_map.1 hx
    rw [m0, adj_eq, m0]
    simp
  unfold treeLag zLag wLag
  rw [e1, e2, e3, e4]
  ring

/-- Neutrino, electron, bottom quark and up quark. -/
def ledqLegs (g : Fin 3) : Leg × Leg × Leg × Leg := (⟨.nu, 0, 2, 0⟩, ⟨.e, 0, 2, 0⟩, ⟨.d, 2, 0, 1⟩, ⟨.u, g, 0, 1⟩)

theorem ledq_phys (g : Fin 3) : (ledqLegs g).1.Phys ∧ (ledqLegs g).2.1.Phys ∧ (ledqLegs g).2.2.1.Phys ∧ (ledqLegs g).2.2.2.Phys := by
  refine ⟨fun _ => rfl, fun _ => rfl, ?_, ?_⟩ <;> intro h <;> rcases h with h | h <;> cases h

/-- The contact term, in the process and in those with exchanged fields. -/
theorem ledq_contact {p q r s : Leg} (hp : p.kind = .nu) (hq : q.kind = .e) (hr : r.kind = .d) (hs : s.kind = .u) :
    contactLag (oneS "ledq" ledqT) p q r s = ledqT (p.gen, q.gen, r.gen, s.gen) * (Dir.g 0 .R .L).val p.spin q.spin r.spin s.spin *
        Col.one.val p.col q.col r.col s.col ∧
      contactLag (oneS "ledq" ledqT) r q p s = 0 ∧ contactLag (oneS "ledq" ledqT) p s r q = 0 ∧ contactLag (oneS "ledq" ledqT) r s p q = 0 := by
  have t : ∀ k, k ≠ "ledq" → tens (oneS "ledq" ledqT) k = fun _ => 0 := fun k hk => by funext i; simp [tens, oneS, hk]
  have t0 : tens (oneS "ledq" ledqT) "ledq" = ledqT := by funext i; simp [tens, oneS]
  unfold contactLag
  simp [warsawOps, WOp.lag, Fld.comps, Iso.val, t, t0, mono, adj_eq, Leg.fl, hp, hq, hr, hs]

/-- The component after a rotation of the down or of the up quarks. -/
theorem ledq_rot (M : FieldRot) (h1 : M .L .nu = 1) (h2 : M .R .e = 1) (h3 : M .R .d = 1) (g : Fin 3) :
    (Four.rot M (contactLag (oneS "ledq" ledqT))).anti (ledqLegs g).1 (ledqLegs g).2.1 (ledqLegs g).2.2.1 (ledqLegs g).2.2.2 = M .L .u 0 g := by
  have v : (Dir.g 0 .R .L).val 2 2 0 0 = 1 := by
    rw [val_g, show fastG 0 .R .L 2 2 0 0 = 1 by decide +kernel]; simp
  have k : ∀ a b' c d, _ := fun a b' c d => ledq_contact (p := ⟨.nu, a, 2, 0⟩) (q := ⟨.e, b', 2, 0⟩) (r := ⟨.d, c, 0, 1⟩) (s := ⟨.u, d, 0, 1⟩)
    rfl rfl rfl rfl
  have k1 := fun a b' c d => (k a b' c d).1
  have k2 := fun a b' c d => (k a b' c d).2.1
  have k3 := fun a b' c d => (k a b' c d).2.2.1
  have k4 := fun a b' c d => (k a b' c d).2.2.2
  dsimp only at k1
  have c1 : Leg.chirBar ⟨.nu, 0, 2, 0⟩ = .L := rfl
  have c2 : Leg.chir ⟨.e, 0, 2, 0⟩ = .R := rfl
  have c3 : Leg.chirBar ⟨.d, 2, 0, 1⟩ = .R := rfl
  have c4 : Leg.chir ⟨.u, g, 0, 1⟩ = .L := rfl
  simp only [Four.anti, Four.rot, ledqLegs, k1, k2, k3, k4, c1, c2, c3, c4, h1, h2, h3, v, mul_zero, Finset.sum_const_zero, sub_zero, add_zero]
  simp [ledqT, Col.val, Fin.sum_univ_three, Matrix.one_apply]

/-- The matching works for the input, in the basis Warsaw up and in the Warsaw basis. -/
theorem exLedq_run : (∃ D J, warsawUpToJms exEnv.ckm exEnv.jms exEnv.default exLedq 160 none = .ok D ∧ WetFull exEnv.jms D J) ∧
    ∃ D J, warsawToJms exEnv.ckm allFlat exEnv.jms exEnv.default exLedq 160 none = .ok D ∧ WetFull exEnv.jms D J := by
  have run : ∀ {d S}, Dict.WF d → (∀ key ∈ Dict.keys d, IsFlat key) → SmeftFull d S → NoShift (flatSrc d) →
      ∃ D J, warsawUpToJms exEnv.ckm exEnv.jms exEnv.default d 160 none = .ok D ∧ WetFull exEnv.jms D J := by
    intro d S hw hd hS hns
    obtain ⟨w, e1, -⟩ := ew_ok default_physical hns
    have e2 : ewOf (flatSrc d).zero defaultPar = .ok w := (ewOf_congr (noShift_zero _) hns).trans e1
    exact ⟨_, _, matchAll_intro exEnv.jms hw hd (ckm := exEnv.ckm) (V := exV) (par := none) e1 e2 rfl, match_full hS exV w w⟩
  have hns := one_noShift exLedq_full fun h => by simp at h
  refine ⟨run exLedq_wf exLedq_flat exLedq_full hns, ?_⟩
  obtain ⟨D, S', h1, h2, h3, h4, h5⟩ := up_full (ckm := exEnv.ckm) (default := exEnv.default) (par := none) (V := exV) exLedq_wf exLedq_flat
    exLedq_full rfl (up := allFlat) (fun k op i => mem_allFlat)
  obtain ⟨D2, J, r1, r2⟩ := run h2 h3 h4 ⟨by
      rw [full_tn h4 ll_op, rotated_ll h5]; simp [tens, oneS], by
      rw [full_mt h4 (show IsOp "phil3" (.two (b .l) (n .l)) by decide +kernel)]
      exact ⟨(rotated_phil3 h5 (1, 1)).trans (by simp [oneS]), (rotated_phil3 h5 (0, 0)).trans (by simp [oneS])⟩, by
      rw [full_phiWB h4, h5.zero _ (by decide +kernel)]; simp [oneS]⟩
  refine ⟨D2, J, ?_, r2⟩
  unfold warsawToJms
  rw [h1, ok_bind]
  exact r1

theorem ledq_flavio (g : Fin 3) (hg : g ∈ [0, 1]) (GF α mb : ℝ) (V : M3) :
    NCovered (flavioSectors GF α mb V) (ledqLegs g).1 (ledqLegs g).2.1 (ledqLegs g).2.2.1 (ledqLegs g).2.2.2 := by
  refine ⟨⟨(.u, g), (.d, 2), (.e, 0), (.nu, 0), flavioII (-((4 * GF / Real.sqrt 2 : ℝ) : ℂ) * V g 2)
      (qname (.d, 2) ++ (qname (.u, g) ++ (qname (.e, 0) ++ ("nu" ++ qname (.nu, 0)))))⟩, ?_, .inr ⟨.inr ⟨rfl, rfl⟩, .inr ⟨rfl, rfl⟩⟩⟩
  unfold flavioSectors
  refine List.mem_append_left _ (List.mem_append_left _ (List.mem_append_right _ ?_))
  exact List.mem_flatMap.2 ⟨g, hg, List.mem_flatMap.2 ⟨2, by simp, List.mem_flatMap.2 ⟨0, by simp, List.mem_map.2 ⟨0, by simp, rfl⟩⟩⟩⟩

theorem ledq_eos (GF α : ℝ) (V : M3) :
    NCovered (eosLepSectors GF α V) (ledqLegs 0).1 (ledqLegs 0).2.1 (ledqLegs 0).2.2.1 (ledqLegs 0).2.2.2 := by
  refine ⟨⟨(.u, 0), (.d, 2), (.e, 0), (.nu, 0), eosII (-((4 * GF / Real.sqrt 2 : ℝ) : ℂ) * V 0 2)
      ("b->u" ++ (qname (.e, 0) ++ ("nu" ++ qname (.nu, 0))))⟩, ?_, .inr ⟨.inr ⟨rfl, rfl⟩, .inr ⟨rfl, rfl⟩⟩⟩
  unfold eosLepSectors
  exact List.mem_append_right _ (List.mem_map.2 ⟨0, by simp, rfl⟩)

/-- C85 for `ledq_1131` in the basis Warsaw up. -/
example : ∃ D D', warsawUpToJms exEnv.ckm exEnv.jms exEnv.default exLedq 160 none = .ok D ∧ jmsToEos exEnv D 160 none = .ok D' ∧
    (nLag (eosLepSectors exP.p.GF exP.p.alpha_e exP.V) fun k => Dict.getD D' k 0).anti
      (ledqLegs 0).1 (ledqLegs 0).2.1 (ledqLegs 0).2.2.1 (ledqLegs 0).2.2.2 = 1 := by
  obtain ⟨⟨D, J, h1, h2⟩, -⟩ := exLedq_run
  obtain ⟨D', hD⟩ : ∃ D', jmsToEos exEnv D 160 none = .ok D' :=
    ⟨_, jmsToEos_tensor exEnv_ok exP_admissible exP_masses allJms_listing (joinJ_full h2)⟩
  obtain ⟨p1, p2, p3, p4⟩ := ledq_phys 0
  refine ⟨D, D', h1, hD, ?_⟩
  rw [C85_lagrangian (V := exV) exLedq_wf exLedq_flat exLedq_full h1 rfl default_physical.GF_eq default_physical.mW_eq default_physical.mZ_eq
    default_physical.alpha_eq exEnv_ok exP_admissible exP_masses allJms_listing hD p1 p2 p3 p4 (ledq_eos _ _ _)]
  simp only [one_tree (show "ledq" ≠ "ll" by decide)]
  rw [rotL_eq, ledq_rot _ (by simp) (by simp) (by simp)]
  simp

/-- C86 for `ledq_1131` in the Warsaw basis: flavio, with a charm quark. -/
example : ∃ D, warsawToVia (jmsToFlavio exEnv) exEnv.ckm allFlat exEnv.jms exEnv.default exLedq 160 none = .ok D ∧
    (nLag (flavioSectors exP.p.GF exP.p.alpha_e exP.p.m_b exP.V) fun k => Dict.getD D k 0).anti
      (ledqLegs 1).1 (ledqLegs 1).2.1 (ledqLegs 1).2.2.1 (ledqLegs 1).2.2.2 = 2 / 3 := by
  obtain ⟨-, D, J, h1, h2⟩ := exLedq_run
  obtain ⟨D', hD⟩ : ∃ D', jmsToFlavio exEnv D 160 none = .ok D' :=
    ⟨_, jmsToFlavio_tensor exEnv_ok exP_admissible allJms_listing (joinJ_full h2)⟩
  have hr : warsawToVia (jmsToFlavio exEnv) exEnv.ckm allFlat exEnv.jms exEnv.default exLedq 160 none = .ok D' := by
    unfold warsawToJms at h1
    obtain ⟨D1, k1, k2⟩ := bind_inv h1
    unfold warsawToVia
    rw [k1, ok_bind, k2, ok_bind, hD]
  obtain ⟨p1, p2, p3, p4⟩ := ledq_phys 1
  refine ⟨D', hr, ?_⟩
  rw [C86_flavio exLedq_wf exLedq_flat exLedq_full hr exEnv_ok exP_admissible exV_unitary (fun k op i => mem_allFlat) allJms_listing p1 p2 p3 p4
    (ledq_flavio 1 (by simp) _ _ _ _)]
  simp only [one_tree (show "ledq" ≠ "ll" by decide)]
  rw [ledq_rot _ (by simp [rotUpL]) (by simp [rotUpL]) (by simp [rotUpL])]
  change starRingEnd ℂ (exV 1 0) = 2 / 3
  simp [exV, Complex.conj_ofNat]
  ring

/-- C86 for `ledq_1131` in the Warsaw basis: EOS. -/
example : ∃ D, warsawToVia (jmsToEos exEnv) exEnv.ckm allFlat exEnv.jms exEnv.default exLedq 160 none = .ok D ∧
    (nLag (eosLepSectors exP.p.GF exP.p.alpha_e exP.V) fun k => Dict.getD D k 0).anti
      (ledqLegs 0).1 (ledqLegs 0).2.1 (ledqLegs 0).2.2.1 (ledqLegs 0).2.2.2 = 1 / 3 := by
  obtain ⟨-, D, J, h1, h2⟩ := exLedq_run
  obtain ⟨D', hD⟩ : ∃ D', jmsToEos exEnv D 160 none = .ok D' :=
    ⟨_, jmsToEos_tensor exEnv_ok exP_admissible exP_masses allJms_listing (joinJ_full h2)⟩
  have hr : warsawToVia (jmsToEos exEnv) exEnv.ckm allFlat exEnv.jms exEnv.default exLedq 160 none = .ok D' := by
    unfold warsawToJms at h1
    obtain ⟨D1, k1, k2⟩ := bind_inv h1
    unfold warsawToVia
    rw [k1, ok_bind, k2, ok_bind, hD]
  obtain ⟨p1, p2, p3, p4⟩ := ledq_phys 0
  refine ⟨D', hr, ?_⟩
  rw [C86_eos exLedq_wf exLedq_flat exLedq_full hr exEnv_ok exP_admissible exP_masses exV_unitary (fun k op i => mem_allFlat) allJms_listing
    p1 p2 p3 p4 (ledq_eos _ _ _)]
  simp only [one_tree (show "ledq" ≠ "ll" by decide)]
  rw [ledq_rot _ (by simp [rotUpL]) (by simp [rotUpL]) (by simp [rotUpL])]
  change starRingEnd ℂ (exV 0 0) = 1 / 3
  simp [exV, Complex.conj_ofNat]

end Verif
