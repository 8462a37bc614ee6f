import Verif.Lemmas.FlavorKit
import Verif.Lemmas.FlavorKitRows
import Verif.Props.WetLinear

/-! C48: FlavorKit and JMS. C43, C44, C45 for the FlavorKit translators. C63: JMS to FlavorKit and back. C64: flavour indices. -/

set_option autoImplicit false

namespace Verif

open Spec

variable {E : WEnv} {scale : ℝ} {par : Option Par} {p : WPar}

theorem keys_fkJmsResult {C : Dict String ℂ} {k' : String} (h : k' ∈ Dict.keys (fkJmsResult p C)) : ∃ k ∈ Dict.keys C, FkLink k k' := by
  obtain ⟨q, hq, rfl⟩ := List.mem_map.1 h
  obtain ⟨kv, hkv, hx⟩ := List.mem_filterMap.1 hq
  obtain ⟨x, hx1, hx2⟩ := Option.map_eq_some_iff.1 hx
  refine ⟨kv.1, List.mem_map.2 ⟨kv, hkv, rfl⟩, ?_⟩
  rw [← hx2]; exact toJmsName_iff.1 hx1

theorem keys_jmsFkResult {C : Dict String ℂ} {k : String} (h : k ∈ Dict.keys (jmsFkResult p C)) : ∃ k' ∈ Dict.keys C, FkLink k k' := by
  obtain ⟨q, hq, rfl⟩ := List.mem_map.1 h
  obtain ⟨kv, hkv, hx⟩ := List.mem_filterMap.1 hq
  obtain ⟨x, hx1, hx2⟩ := Option.map_eq_some_iff.1 hx
  refine ⟨kv.1, List.mem_map.2 ⟨kv, hkv, rfl⟩, ?_⟩
  rw [← hx2]; exact (toFkName_iff.1 hx1).1

theorem WF_rename {f : String → Option String} {g : String → ℂ → ℂ} (hf : ∀ k1 k2 k', f k1 = some k' → f k2 = some k' → k1 = k2)
    {C : Dict String ℂ} (hC : Dict.WF C) : Dict.WF (C.filterMap fun kv => (f kv.1).map fun k' => (k', g kv.1 kv.2)) := by
  have : Dict.keys (C.filterMap fun kv => (f kv.1).map fun k' => (k', g kv.1 kv.2)) = C.filterMap fun kv => f kv.1 := by
    unfold Dict.keys
    rw [List.map_filterMap]
    congr 1
    funext kv
    cases f kv.1 <;> rfl
  unfold Dict.WF
  rw [this]; exact rename_nodup hf hC

/-- **C48**: every FlavorKit coefficient set goes to JMS and comes back unchanged. -/
theorem C48_round_partial (hp : getParameters E scale par = .ok p) (h : FkParams p) {C : Dict String ℂ} (hw : Dict.WF C)
    (hC : ∀ k ∈ Dict.keys C, FkName k) : ∃ d, fkToJms E C scale par = .ok d ∧ jmsToFk E d scale par = .ok C := by
  refine ⟨_, fkToJms_eq hp h hw fun k hk => (hC k hk).1, ?_⟩
  rw [jmsToFk_eq (C := fkJmsResult p C) hp h (WF_rename toJmsName_inj hw) fun k hk => by
    obtain ⟨k0, -, hl⟩ := keys_fkJmsResult hk
    exact link_jmsName hl]
  congr 1
  unfold jmsFkResult fkJmsResult
  rw [rename_back]
  · refine List.filter_eq_self.2 fun kv hkv => ?_
    obtain ⟨k', hk'⟩ := (hC kv.1 (List.mem_map.2 ⟨kv, hkv, rfl⟩)).1
    rw [toJmsName_iff.2 hk']; rfl
  · intro kv hkv k' hk'
    have hl := toJmsName_iff.1 hk'
    have hd := (hC kv.1 (List.mem_map.2 ⟨kv, hkv, rfl⟩)).2
    have hf : toFkName k' = some kv.1 := toFkName_iff.2 ⟨hl, (link_diag hl).1 hd⟩
    refine ⟨hf, ?_⟩
    unfold jmsFactor
    rw [hf]; exact fkFactor_inv h _ _

/-- A name that is unknown and does not start with `K2R_` raises. -/
theorem fkToJms_unknown (p : WPar) {k : String} (hl : ¬ ∃ k', FkLink k k') (hK : ¬ "K2R_".toList <+: k.toList)
    (s : Option ℝ × Dict String ℂ) (v : ℂ) : fkToJmsStep p s (k, v) = .error (.valueError "Unexpected key") := by
  have h1 : Dict.find fkJms k = none := by
    cases hf : Dict.find fkJms k with
    | none => rfl
    | some k' => exact absurd ⟨k', .plain _ _ (Dict.mem_of_find hf)⟩ hl
  have h2 : Dict.find fkJmsConj k = none := by
    cases hf : Dict.find fkJmsConj k with
    | none => rfl
    | some k' => exact absurd ⟨k', .conj _ _ (Dict.mem_of_find hf)⟩ hl
  have h3 : k ≠ "AVLL_2231" := by rintro rfl; exact hl ⟨_, .avll⟩
  have h4 : k ≠ "AVRR_2231" := by rintro rfl; exact hl ⟨_, .avrr⟩
  have h5 : ¬ k.toList.take 4 = "K2R_".toList := fun e => hK (e ▸ List.take_prefix _ _)
  unfold fkToJmsStep
  simp only [h1, h2]
  rw [if_neg h3, if_neg h4, if_neg h5]

/-- **C48**, unknown names: if every name starting with `K2R_` has two flavour digits, an unknown name raises
`ValueError`. -/
theorem C48_unknown_partial (hp : getParameters E scale par = .ok p) (h : FkParams p) {C : Dict String ℂ}
    (hK : ∀ k ∈ Dict.keys C, "K2R_".toList <+: k.toList → ∃ k', FkLink k k')
    (hx : ∃ k ∈ Dict.keys C, ¬ ∃ k', FkLink k k') : fkToJms E C scale par = .error (.valueError "Unexpected key") := by
  have key : ∀ (C : Dict String ℂ), (∀ k ∈ Dict.keys C, "K2R_".toList <+: k.toList → ∃ k', FkLink k k') →
      (∃ k ∈ Dict.keys C, ¬ ∃ k', FkLink k k') → ∀ s, C.foldlM (fkToJmsStep p) s = .error (.valueError "Unexpected key") := by
    intro C
    induction C with
    | nil => rintro - ⟨k, hk, -⟩; simp at hk
    | cons kv C ih =>
      intro hK hx s
      rw [List.foldlM_cons]
      by_cases hl : ∃ k', FkLink kv.1 k'
      · obtain ⟨k', hl⟩ := hl
        obtain ⟨m, hm⟩ := fkToJms_known h (mem_fkAll_link.2 hl) s kv.2
        rw [show fkToJmsStep p s kv = _ from hm, except_ok_bind]
        refine ih (fun k hk => hK k (List.mem_cons_of_mem _ hk)) ?_ _
        obtain ⟨k, hk, hx⟩ := hx
        rcases List.mem_cons.1 hk with e | hk
        · exact absurd ⟨k', e ▸ hl⟩ hx
        · exact ⟨k, hk, hx⟩
      · have := fkToJms_unknown p hl (fun hk => hl (hK kv.1 List.mem_cons_self hk)) s kv.2
        rw [show fkToJmsStep p s kv = _ from this]; rfl
  unfold fkToJms
  rw [hp, except_ok_bind, key C hK hx]
  rfl

/-- The parameters at 160 GeV. -/
theorem exFk : getParameters exEnv 160 none = .ok exP.p := by
  have h := exEnv_ok
  unfold penv at h
  cases hg : getParameters exEnv 160 none with
  | error e => rw [hg] at h; cases h
  | ok q =>
    rw [hg] at h
    have := Except.ok.inj h
    exact congrArg Except.ok (congrArg PEnv.p this)

theorem exFkParams : FkParams exP.p where
  alpha_e := by simp only [exP]; norm_num
  m_e := by simp only [exP]; norm_num
  m_mu := by simp only [exP]; norm_num
  m_tau := by simp only [exP]; norm_num

theorem fkNone_K2R (i j : Char) (h : String.ofList ['K', '2', 'R', '_', i, j] ∉ Dict.keys fkDipoles) :
    ¬ ∃ k', FkLink (String.ofList ['K', '2', 'R', '_', i, j]) k' := by
  rintro ⟨k', hl⟩
  have hm := mem_fkAll_link.2 hl
  have ht : (String.ofList ['K', '2', 'R', '_', i, j]).toList.take 4 = "K2R_".toList := by simp
  rcases mem_fkAll.1 hm with h1 | h1 | h1 | h1
  · exact table_not_K2R _ (List.mem_append_left _ h1) ht
  · exact (by decide +kernel : ∀ q ∈ fkJmsConj, ¬ (q.1.toList.take 4 = "K2R_".toList)) _ h1 ht
  · exact table_not_K2R _ (List.mem_append_right _ h1) ht
  · exact h (List.mem_map.2 ⟨_, h1, rfl⟩)

theorem K2R_41_step (p : WPar) (hp : FkParams p) (m : Option ℝ) (d : Dict String ℂ) (v : ℂ) :
    fkToJmsStep p (m, d) ("K2R_41", v) =
      (boundOr m).bind fun x => .ok (some x, Dict.put d "egamma_14" (((1 / 2 * echarge p * x : ℝ) : ℂ) * v)) := by
  have hs : String.ofList ['K', '2', 'R', '_', '4', '1'] = "K2R_41" := by decide +kernel
  have hn := fkNone_K2R '4' '1' (by decide +kernel)
  rw [hs] at hn
  have h1 : Dict.find fkJms "K2R_41" = none := by
    cases hf : Dict.find fkJms "K2R_41" with
    | none => rfl
    | some k' => exact absurd ⟨k', .plain _ _ (Dict.mem_of_find hf)⟩ hn
  have h2 : Dict.find fkJmsConj "K2R_41" = none := by
    cases hf : Dict.find fkJmsConj "K2R_41" with
    | none => rfl
    | some k' => exact absurd ⟨k', .conj _ _ (Dict.mem_of_find hf)⟩ hn
  have e1 : ("K2R_41".toList.drop 4).reverse = ['1', '4'] := by decide +kernel
  have e2 : "egamma_" ++ String.ofList ['1', '4'] = "egamma_14" := by decide +kernel
  unfold fkToJmsStep
  simp only [h1, h2]
  rw [if_neg (by decide +kernel), if_neg (by decide +kernel), if_pos (by decide +kernel), hp.sqrt, e1]
  simp only [except_ok_bind, chAt, List.getElem?_cons_succ, List.getElem?_cons_zero, e2]
  have : leptonMass p '4' m = m := by simp [leptonMass]
  rw [this]
  rfl

/-- **C48** refuted in its second half: a dipole with a flavour that does not exist is not rejected with a
`ValueError`. Alone it ends in `UnboundLocalError`; after another dipole it is accepted and gets the mass of the lepton
of that dipole, here the muon mass for `K2R_41`. -/
theorem C48_unknown_refuted :
    (¬ ∀ (E : WEnv) (scale : ℝ) (par : Option Par) (p : WPar), getParameters E scale par = .ok p → FkParams p →
      ∀ C : Dict String ℂ, Dict.WF C → (∃ k ∈ Dict.keys C, ¬ ∃ k', FkLink k k') →
        ∃ why, fkToJms E C scale par = .error (.valueError why)) ∧
    fkToJms exEnv [("K2R_41", 1)] 160 none = .error .unboundLocal ∧
    ∃ d, fkToJms exEnv [("K2R_21", 1), ("K2R_41", 1)] 160 none = .ok d ∧
      Dict.find d "egamma_14" = some ((1 / 2 * Real.sqrt (4 * Real.pi * exP.p.alpha_e) * exP.p.m_mu : ℝ) : ℂ) := by
  have hs : String.ofList ['K', '2', 'R', '_', '4', '1'] = "K2R_41" := by decide +kernel
  have hn := fkNone_K2R '4' '1' (by decide +kernel)
  rw [hs] at hn
  have a1 : fkToJms exEnv [("K2R_41", 1)] 160 none = .error .unboundLocal := by
    unfold fkToJms
    rw [exFk, except_ok_bind, List.foldlM_cons, K2R_41_step _ exFkParams]
    rfl
  refine ⟨?_, a1, ?_⟩
  · intro h
    obtain ⟨why, hw⟩ := h exEnv 160 none _ exFk exFkParams [("K2R_41", 1)] (by simp [Dict.WF, Dict.keys]) ⟨_, by simp, hn⟩
    rw [a1] at hw
    cases hw
  · have l1 : label "K2R" [1, 0] = "K2R_21" := by decide +kernel
    have l2 : label "egamma" [0, 1] = "egamma_12" := by decide +kernel
    have hl : FkLink "K2R_21" "egamma_12" := by rw [← l1, ← l2]; exact .dipole 1 0
    have hm : ∃ y, fkToJmsStep exP.p (none, []) ("K2R_21", 1) = .ok (some exP.p.m_mu, Dict.put [] "egamma_12" y) := by
      have e0 : "K2R_21".toList.take 4 = "K2R_".toList := by decide +kernel
      have h1 : Dict.find fkJms "K2R_21" = none := by
        cases hf : Dict.find fkJms "K2R_21" with
        | none => rfl
        | some k' =>
          exact absurd e0 (table_not_K2R _ (List.mem_append_left _ (Dict.mem_of_find hf)))
      have h2 : Dict.find fkJmsConj "K2R_21" = none := by
        cases hf : Dict.find fkJmsConj "K2R_21" with
        | none => rfl
        | some k' =>
          exact absurd e0
            ((by decide +kernel : ∀ q ∈ fkJmsConj, ¬ (q.1.toList.take 4 = "K2R_".toList)) _ (Dict.mem_of_find hf))
      have e1 : ("K2R_21".toList.drop 4).reverse = ['1', '2'] := by decide +kernel
      have e2 : "egamma_" ++ String.ofList ['1', '2'] = "egamma_12" := by decide +kernel
      refine ⟨((1 / 2 * echarge exP.p * exP.p.m_mu : ℝ) : ℂ) * 1, ?_⟩
      unfold fkToJmsStep
      simp only [h1, h2]
      rw [if_neg (by decide +kernel), if_neg (by decide +kernel), if_pos (by decide +kernel), exFkParams.sqrt, e1]
      simp only [except_ok_bind, chAt, List.getElem?_cons_succ, List.getElem?_cons_zero, e2]
      have : leptonMass exP.p '2' none = some exP.p.m_mu := by simp [leptonMass]
      rw [this]
      rfl
    obtain ⟨y, hm⟩ := hm
    refine ⟨Dict.put (Dict.put [] "egamma_12" y) "egamma_14" (((1 / 2 * echarge exP.p * exP.p.m_mu : ℝ) : ℂ) * 1), ?_, ?_⟩
    · unfold fkToJms
      rw [exFk, except_ok_bind, List.foldlM_cons, hm, except_ok_bind, List.foldlM_cons, K2R_41_step _ exFkParams]
      rfl
    · rw [Dict.find_put, if_pos rfl, mul_one]; rfl

/-- **C63**: JMS coefficients with a FlavorKit counterpart come back unchanged from FlavorKit, all others are dropped. -/
theorem C63_jms_back (hp : getParameters E scale par = .ok p) (h : FkParams p) {C : Dict String ℂ} (hw : Dict.WF C)
    (hC : ∀ k ∈ Dict.keys C, JmsName k) : ∃ d C', jmsToFk E C scale par = .ok d ∧ fkToJms E d scale par = .ok C' ∧
      (∀ k ∈ Dict.keys d, FkName k) ∧
      ∀ k, (JmsShared k → Dict.find C' k = Dict.find C k) ∧ (¬ JmsShared k → Dict.find C' k = none) := by
  have hkeys : ∀ k ∈ Dict.keys (jmsFkResult p C), FkName k := by
    intro k hk
    obtain ⟨q, hq, rfl⟩ := List.mem_map.1 hk
    obtain ⟨kv, hkv, hx⟩ := List.mem_filterMap.1 hq
    obtain ⟨x, hx1, hx2⟩ := Option.map_eq_some_iff.1 hx
    obtain ⟨hl, hd⟩ := toFkName_iff.1 hx1
    rw [← hx2]
    exact ⟨⟨_, hl⟩, (link_diag hl).2 hd⟩
  refine ⟨_, _, jmsToFk_eq hp h hw hC, fkToJms_eq hp h (WF_rename toFkName_inj hw) fun k hk => (hkeys k hk).1, hkeys, ?_⟩
  have e : fkJmsResult p (jmsFkResult p C) = Dict.filt (fun k _ => (toFkName k).isSome) C := by
    unfold jmsFkResult fkJmsResult
    rw [rename_back]
    · rfl
    · intro kv hkv k' hk'
      have hl := (toFkName_iff.1 hk').1
      refine ⟨toJmsName_iff.2 hl, ?_⟩
      unfold jmsFactor
      rw [hk']; exact fkInvFactor_inv h _ _
  intro k
  rw [e, Dict.find_filt hw, shared_iff]
  cases hf : Dict.find C k <;> simp

/-! ### C64: flavour indices -/

/-- The relations of an operator: Hermitian, exchange, Fierz. -/
def symStep (f : Bool × Bool × Bool) : Bool × List (Fin 3) → List (Bool × List (Fin 3))
  | (c, [p, r, s, t]) =>
    (if f.1 then [(!c, [r, p, t, s])] else []) ++ (if f.2.1 then [(c, [s, t, p, r])] else []) ++
      (if f.2.2 then [(c, [p, t, s, r])] else [])
  | _ => []

/-- Everything reached with at most `n` relations. -/
def symReach (f : Bool × Bool × Bool) : ℕ → List (Bool × List (Fin 3)) → List (Bool × List (Fin 3))
  | 0, L => L
  | n + 1, L => L ++ symReach f n (L.flatMap (symStep f))

/-- A value or its conjugate. -/
noncomputable def cval (T : String → List (Fin 3) → ℂ) (n : String) (x : Bool × List (Fin 3)) : ℂ :=
  if x.1 then starRingEnd ℂ (T n x.2) else T n x.2

/-- The relations of an operator of the JMS basis. -/
def flagsOf (n : String) : Bool × Bool × Bool := (decide (n ∈ opHerm), decide (n ∈ opExch), decide (n ∈ opFierz))

theorem symStep_val {T : String → List (Fin 3) → ℂ} (hT : JmsTensor T) (n : String) {x y : Bool × List (Fin 3)}
    (h : y ∈ symStep (flagsOf n) x) : cval T n y = cval T n x := by
  obtain ⟨c, j⟩ := x
  match j, h with
  | [p, r, s, t], h =>
    simp only [symStep, flagsOf, decide_eq_true_eq, List.mem_append] at h
    rcases h with (h | h) | h
    · split_ifs at h with hn
      · rw [List.mem_singleton] at h
        subst h
        cases c <;> simp [cval, hT.herm n hn p r s t]
      · simp at h
    · split_ifs at h with hn
      · rw [List.mem_singleton] at h
        subst h
        cases c <;> simp [cval, hT.exch n hn p r s t]
      · simp at h
    · split_ifs at h with hn
      · rw [List.mem_singleton] at h
        subst h
        cases c <;> simp [cval, hT.fierz n hn p r s t]
      · simp at h

theorem symReach_val {T : String → List (Fin 3) → ℂ} (hT : JmsTensor T) (n : String) {a : ℂ} (m : ℕ) :
    ∀ {L : List (Bool × List (Fin 3))}, (∀ x ∈ L, cval T n x = a) → ∀ y ∈ symReach (flagsOf n) m L, cval T n y = a := by
  induction m with
  | zero => intro L h y hy; exact h y hy
  | succ m ih =>
    intro L h y hy
    rw [symReach, List.mem_append] at hy
    rcases hy with hy | hy
    · exact h y hy
    · refine ih (fun x hx => ?_) y hy
      obtain ⟨z, hz, hx⟩ := List.mem_flatMap.1 hx
      rw [symStep_val hT n hx, h z hz]

/-- The relations by operator number. -/
def opFlags : List (Bool × Bool × Bool) :=
  [(false, true, false), (true, true, true), (true, false, false), (true, true, true), (false, false, false), (false,
   false, false), (false, false, false), (true, false, false), (true, false, false), (true, false, false), (false, false,
   false), (false, false, false), (false, false, false), (true, false, false), (true, false, false), (true, false, false),
   (false, true, false), (true, true, false), (true, false, false), (true, false, false), (true, true, false), (false,
   false, false), (false, false, false), (false, false, false), (true, false, false), (true, false, false), (true, false,
   false), (true, false, false), (true, false, false), (true, false, false), (false, false, false), (false, false, false),
   (false, false, false), (false, false, false), (false, false, false), (false, false, false)]

theorem opFlags_eq : fkOps.map (fun o => flagsOf o.jms) = opFlags := by decide +kernel

/-- The two rows treated apart. -/
def rowsSpecial : List FkRow := [(1, [1, 1, 2, 0], [0, 1, 1, 2]), (3, [1, 1, 2, 0], [0, 1, 1, 2])]

theorem rowsSpecial_eq : rowsSpecial.map rowNames = fkSpecial := by decide +kernel

theorem rows_op : ∀ r ∈ rowsPlain ++ rowsSpecial ++ rowsConj, r.1 < fkOps.length := by decide +kernel

/-- The indices of a row agree with the order of the operator up to the relations. -/
def rowOk (c : Bool) (r : FkRow) : Bool :=
  decide ((c, r.2.2) ∈ symReach (opFlags.getD r.1 (false, false, false)) 4 [(opAt r.1).order.target r.2.1])

theorem rowsPlain_ok : ∀ r ∈ rowsPlain ++ rowsSpecial, rowOk false r = true := by decide +kernel

theorem rowsConj_ok : ∀ r ∈ rowsConj, rowOk true r = true := by decide +kernel

theorem fkOps_names : (fkOps.map FkOp.fk).Nodup := by decide +kernel

theorem fkOps_plain : ∀ o ∈ fkOps, Plain o.fk ∧ o.fk ≠ "K2R" := by decide +kernel

theorem fkOps_plain' : ∀ o ∈ fkOps, Plain o.jms := by decide +kernel

theorem opFlags_at {n : ℕ} (h : n < fkOps.length) : opFlags.getD n (false, false, false) = flagsOf (opAt n).jms := by
  rw [← opFlags_eq]
  unfold opAt
  simp [List.getD_eq_getElem?_getD, List.getElem?_eq_getElem h]

theorem opAt_mem {n : ℕ} (h : n < fkOps.length) : opAt n ∈ fkOps := by
  unfold opAt
  rw [List.getD_eq_getElem?_getD, List.getElem?_eq_getElem h]
  exact List.getElem_mem h

/-- From a row to the tensor. -/
theorem row_value {T : String → List (Fin 3) → ℂ} (hT : JmsTensor T) {r : FkRow} {c : Bool} (hr : r.1 < fkOps.length)
    (h : rowOk c r = true) : cval T (opAt r.1).jms (c, r.2.2) = cval T (opAt r.1).jms ((opAt r.1).order.target r.2.1) := by
  unfold rowOk at h
  rw [opFlags_at hr] at h
  exact symReach_val hT _ 4 (fun x hx => by rw [List.mem_singleton.1 hx]) _ (of_decide_eq_true h)

/-- A table row for a name. -/
theorem link_row {o : FkOp} (ho : o ∈ fkOps) {i : List (Fin 3)} {k' : String} (hl : FkLink (label o.fk i) k') :
    ∃ (r : FkRow) (c : Bool), r.1 < fkOps.length ∧ rowOk c r = true ∧ opAt r.1 = o ∧ r.2.1 = i ∧ k' = label o.jms r.2.2 ∧
      (c = true ↔ label o.fk i ∈ Dict.keys fkJmsConj) := by
  obtain ⟨hp, hK⟩ := fkOps_plain o ho
  have fin : ∀ r : FkRow, r.1 < fkOps.length → rowNames r = (label o.fk i, k') → opAt r.1 = o ∧ r.2.1 = i ∧ k' = label o.jms r.2.2 := by
    intro r hr e
    simp only [rowNames, Prod.mk.injEq] at e
    obtain ⟨e1, e2⟩ := label_inj (fkOps_plain _ (opAt_mem hr)).1 hp e.1
    have : opAt r.1 = o := List.inj_on_of_nodup_map fkOps_names (opAt_mem hr) ho e1
    exact ⟨this, e2, by rw [← e.2, this]⟩
  have nd := fk_nodup
  have nd2 := (List.nodup_append.1 nd).2.1
  have hk : ∀ {d : Dict String String}, (label o.fk i, k') ∈ d → label o.fk i ∈ Dict.keys d := fun h => List.mem_map.2 ⟨_, h, rfl⟩
  rcases mem_fkAll.1 (mem_fkAll_link.2 hl) with h | h | h | h
  · have h' := h
    rw [← rowsPlain_eq] at h'
    obtain ⟨r, hr, e⟩ := List.mem_map.1 h'
    have hlt := rows_op r (List.mem_append_left _ (List.mem_append_left _ hr))
    obtain ⟨a, b, c⟩ := fin r hlt e
    exact ⟨r, false, hlt, rowsPlain_ok r (List.mem_append_left _ hr), a, b, c, by
      simpa using fun hx => nodup_not_left nd (List.mem_append_left _ hx) (hk h)⟩
  · have h' := h
    rw [← rowsConj_eq] at h'
    obtain ⟨r, hr, e⟩ := List.mem_map.1 h'
    have hlt := rows_op r (List.mem_append_right _ hr)
    obtain ⟨a, b, c⟩ := fin r hlt e
    exact ⟨r, true, hlt, rowsConj_ok r hr, a, b, c, by simpa using hk h⟩
  · have h' := h
    rw [← rowsSpecial_eq] at h'
    obtain ⟨r, hr, e⟩ := List.mem_map.1 h'
    have hlt := rows_op r (List.mem_append_left _ (List.mem_append_right _ hr))
    obtain ⟨a, b, c⟩ := fin r hlt e
    exact ⟨r, false, hlt, rowsPlain_ok r (List.mem_append_right _ hr), a, b, c, by
      simpa using nodup_not_left nd2 (List.mem_append_left _ (hk h))⟩
  · obtain ⟨a, b, e⟩ := fkDipoles_form _ h
    simp only [Prod.mk.injEq] at e
    exact absurd (label_inj hp (by decide +kernel) e.1).1 hK

/-- **C64**: the translation puts every coefficient at its flavour indices. If a tensor with the symmetries of the
operators has the translated coefficients among its entries, its entry with the rearranged indices of a FlavorKit
coefficient is that coefficient (for the charged-current operators its conjugate). -/
theorem C64_flavour (hp : getParameters E scale par = .ok p) (h : FkParams p) {C : Dict String ℂ} (hw : Dict.WF C)
    (hC : ∀ k ∈ Dict.keys C, ∃ k', FkLink k k') : ∃ d, fkToJms E C scale par = .ok d ∧
      ∀ T, JmsTensor T → (∀ n j v, '_' ∉ n.toList → Dict.find d (label n j) = some v → T n j = v) →
        ∀ o ∈ fkOps, ∀ i v, Dict.find C (label o.fk i) = some v →
          T o.jms (o.order.target i).2 = if (o.order.target i).1 then starRingEnd ℂ v else v := by
  refine ⟨_, fkToJms_eq hp h hw hC, fun T hT hd o ho i v hv => ?_⟩
  obtain ⟨k', hl⟩ := hC _ (Dict.find_isSome_iff.1 (by rw [hv]; rfl))
  have hf : Dict.find (fkJmsResult p C) k' = some (fkFactor p (label o.fk i) v) :=
    Dict.find_of_mem (WF_rename toJmsName_inj hw)
      (List.mem_filterMap.2 ⟨_, Dict.mem_of_find hv, by simp [toJmsName_iff.2 hl]⟩)
  obtain ⟨r, c, hr, hok, e1, e2, e3, e4⟩ := link_row ho hl
  rw [e3] at hf
  have h1 := hd _ _ _ (fkOps_plain' o ho) hf
  have h2 := row_value hT hr hok
  rw [e1, e2] at h2
  have h3 : cval T o.jms (c, r.2.2) = v := by
    unfold cval
    simp only [h1]
    cases c with
    | true =>
      have : label o.fk i ∈ Dict.keys fkJmsConj := e4.1 rfl
      simp [fkFactor, this]
    | false =>
      have h5 : label o.fk i ∉ Dict.keys fkJmsConj := fun hx => by simpa using e4.2 hx
      have h6 : ¬ ∃ a b : Fin 3, label o.fk i = label "K2R" [a, b] := by
        rintro ⟨a, b, e⟩
        obtain ⟨hp, hK⟩ := fkOps_plain o ho
        exact hK (label_inj hp (by decide +kernel) e).1
      simp [fkFactor, h5, h6]
  rw [h3] at h2
  unfold cval at h2
  split_ifs at h2 ⊢ with hc
  · rw [h2]; simp
  · exact h2.symm

/-! ### C43, C44, C45 -/

/-- The FlavorKit translators. -/
inductive FkT where
  | fkJms | jmsFk

/-- Run a translator. -/
noncomputable def FkT.run (E : WEnv) : FkT → Dict String ℂ → ℝ → Option Par → Except PyErr (Dict String ℂ)
  | .fkJms => fkToJms E
  | .jmsFk => jmsToFk E

/-- Coefficient sets of the source basis. -/
def FkT.Source (t : FkT) (C : Dict String ℂ) : Prop :=
  Dict.WF C ∧ ∀ k ∈ Dict.keys C, match t with
    | .fkJms => ∃ k', FkLink k k'
    | .jmsFk => JmsName k

/-- Both are renamings with real-linear factors. -/
theorem FkT.closed (hp : getParameters E scale par = .ok p) (h : FkParams p) (t : FkT) :
    ∃ (f : String → Option String) (g : String → ℂ → ℂ), (∀ k1 k2 k', f k1 = some k' → f k2 = some k' → k1 = k2) ∧
      (∀ k a b, g k (a + b) = g k a + g k b) ∧ (∀ k (r : ℝ) a, g k (r * a) = r * g k a) ∧
      ∀ C, t.Source C → t.run E C scale par = .ok (C.filterMap fun kv => (f kv.1).map fun k' => (k', g kv.1 kv.2)) := by
  cases t with
  | fkJms =>
    exact ⟨toJmsName, fkFactor p, toJmsName_inj, fkFactor_add p, fkFactor_real p, fun C hC => fkToJms_eq hp h hC.1 hC.2⟩
  | jmsFk =>
    exact ⟨toFkName, jmsFactor p, toFkName_inj, fun k a b => fkInvFactor_add p _ a b, fun k r a => fkInvFactor_real p _ r a,
      fun C hC => jmsToFk_eq hp h hC.1 hC.2⟩

/-- **C45**: a value for every coefficient set of the source basis. -/
theorem C45_flavorkit (hp : getParameters E scale par = .ok p) (h : FkParams p) (t : FkT) {C : Dict String ℂ} (hC : t.Source C) :
    ∃ d, t.run E C scale par = .ok d := by
  obtain ⟨f, g, -, -, -, hr⟩ := t.closed hp h
  exact ⟨_, hr C hC⟩

/-- **C43**: real-linear. -/
theorem C43_flavorkit (hp : getParameters E scale par = .ok p) (h : FkParams p) (t : FkT) {C C1 C2 : Dict String ℂ}
    (hC : t.Source C) (hC1 : t.Source C1) (hC2 : t.Source C2) (r s : ℝ)
    (hl : ∀ k, Dict.getD C k 0 = (r : ℂ) * Dict.getD C1 k 0 + (s : ℂ) * Dict.getD C2 k 0) :
    ∃ d d1 d2, t.run E C scale par = .ok d ∧ t.run E C1 scale par = .ok d1 ∧ t.run E C2 scale par = .ok d2 ∧
      ∀ k, Dict.getD d k 0 = (r : ℂ) * Dict.getD d1 k 0 + (s : ℂ) * Dict.getD d2 k 0 := by
  obtain ⟨f, g, hf, ha, hm, hr⟩ := t.closed hp h
  have h0 : ∀ k, g k 0 = 0 := fun k => by simpa using hm k 0 0
  refine ⟨_, _, _, hr C hC, hr C1 hC1, hr C2 hC2, fun k' => ?_⟩
  by_cases hk : ∃ k, f k = some k'
  · obtain ⟨k, hk⟩ := hk
    rw [rename_getD hf h0 C hk, rename_getD hf h0 C1 hk, rename_getD hf h0 C2 hk, hl k, ha, hm, hm]
  · have hz : ∀ C : Dict String ℂ, Dict.getD (C.filterMap fun kv => (f kv.1).map fun k' => (k', g kv.1 kv.2)) k' 0 = 0 := by
      intro C
      have := rename_absent (f := f) (g := g) C (k' := k') fun k e => hk ⟨k, e⟩
      rw [Dict.getD, Dict.find_eq_none_iff.2 this]; rfl
    rw [hz, hz, hz]; simp

/-- **C44**: coefficient sets that differ by zero coefficients have the same translation up to zero coefficients. -/
theorem C44_flavorkit (hp : getParameters E scale par = .ok p) (h : FkParams p) (t : FkT) {C C' : Dict String ℂ}
    (hC : t.Source C) (hC' : t.Source C') (he : ∀ k, Dict.getD C k 0 = Dict.getD C' k 0) :
    ∃ d d', t.run E C scale par = .ok d ∧ t.run E C' scale par = .ok d' ∧ ∀ k, Dict.getD d k 0 = Dict.getD d' k 0 := by
  obtain ⟨d, d1, d2, h1, h2, -, h3⟩ := C43_flavorkit hp h t hC hC' hC' 1 0 fun k => by rw [he k]; simp
  exact ⟨d, d1, h1, h2, fun k => by rw [h3 k]; simp⟩

/-! ### A concrete coefficient set -/

/-- One coefficient of each kind. -/
noncomputable def exFkSet : Dict String ℂ :=
  [("DSRR_2323", 2), ("DVLL_2323", 1 + Complex.I), ("AVLL_2231", 3), ("K2R_12", 5 * Complex.I), ("K2R_23", -1)]

theorem exFkSet_names : ∀ k ∈ Dict.keys exFkSet, FkName k := by
  have e1 : label "K2R" [0, 1] = "K2R_12" := by decide +kernel
  have e2 : label "K2R" [1, 2] = "K2R_23" := by decide +kernel
  have e3 : ∀ i : Fin 3, label "K2R" [i, i] ∈ ["K2R_11", "K2R_22", "K2R_33"] := by decide +kernel
  have e4 : ∀ k ∈ ["DSRR_2323", "DVLL_2323", "AVLL_2231", "K2R_12", "K2R_23"], k ∉ ["K2R_11", "K2R_22", "K2R_33"] := by decide +kernel
  have hk : Dict.keys exFkSet = ["DSRR_2323", "DVLL_2323", "AVLL_2231", "K2R_12", "K2R_23"] := rfl
  intro k h
  rw [hk] at h
  refine ⟨?_, fun i e => e4 k h (e ▸ e3 i)⟩
  simp only [List.mem_cons, List.not_mem_nil, or_false] at h
  rcases h with rfl | rfl | rfl | rfl | rfl
  · exact ⟨"S1ddRR_3232", .plain _ _ List.mem_cons_self⟩
  · exact ⟨"VddLL_2323", .conj _ _ List.mem_cons_self⟩
  · exact ⟨_, .avll⟩
  · rw [← e1]; exact ⟨_, .dipole 0 1⟩
  · rw [← e2]; exact ⟨_, .dipole 1 2⟩

theorem exFkSet_WF : Dict.WF exFkSet := by
  have hk : Dict.keys exFkSet = ["DSRR_2323", "DVLL_2323", "AVLL_2231", "K2R_12", "K2R_23"] := rfl
  unfold Dict.WF; rw [hk]; decide +kernel

/-- C48 for it. -/
example : ∃ d, fkToJms exEnv exFkSet 160 none = .ok d ∧ jmsToFk exEnv d 160 none = .ok exFkSet :=
  C48_round_partial exFk exFkParams exFkSet_WF exFkSet_names

/-- An unknown name. -/
example : fkToJms exEnv [("DSRR_2323", 2), ("x", 1)] 160 none = .error (.valueError "Unexpected key") := by
  have hx : ¬ ∃ k', FkLink "x" k' := by
    rintro ⟨k', h⟩
    have : scode "x" ∈ codesFk := by
      rw [← codesFk_eq]; exact List.mem_map.2 ⟨_, List.mem_map.2 ⟨_, mem_fkAll_link.2 h, rfl⟩, rfl⟩
    revert this; decide +kernel
  refine C48_unknown_partial exFk exFkParams ?_ ⟨"x", by simp [Dict.keys], hx⟩
  intro k hk hp
  exfalso
  have : ∀ k ∈ ["DSRR_2323", "x"], ¬ k.toList.take 4 = "K2R_".toList := by decide +kernel
  refine this k (by simpa [Dict.keys] using hk) ?_
  obtain ⟨t, e⟩ := hp
  rw [← e]; rfl

/-- C63: `VddLL_2323` and `egamma_12` are kept, `egamma_11` and `G` dropped. -/
example : ∃ d C', jmsToFk exEnv [("VddLL_2323", 2), ("egamma_11", 1), ("G", 1), ("egamma_12", 4)] 160 none = .ok d ∧
    fkToJms exEnv d 160 none = .ok C' ∧ Dict.find C' "VddLL_2323" = some 2 ∧ Dict.find C' "egamma_12" = some 4 ∧
    Dict.find C' "egamma_11" = none := by
  have hk : Dict.keys ([("VddLL_2323", 2), ("egamma_11", 1), ("G", 1), ("egamma_12", 4)] : Dict String ℂ) =
    ["VddLL_2323", "egamma_11", "G", "egamma_12"] := rfl
  have l1 : label "egamma" [0, 0] = "egamma_11" := by decide +kernel
  have l2 : label "egamma" [0, 1] = "egamma_12" := by decide +kernel
  have l3 : label "K2R" [1, 0] = "K2R_21" := by decide +kernel
  obtain ⟨d, C', h1, h2, -, h3⟩ := C63_jms_back exFk exFkParams
    (C := [("VddLL_2323", 2), ("egamma_11", 1), ("G", 1), ("egamma_12", 4)]) (by unfold Dict.WF; rw [hk]; decide +kernel) (by
      rw [hk]
      intro k hk
      simp only [List.mem_cons, List.not_mem_nil, or_false] at hk
      rcases hk with rfl | rfl | rfl | rfl
      · exact link_jmsName (.conj "DVLL_2323" _ List.mem_cons_self)
      · exact fun _ => ⟨0, 0, l1.symm⟩
      · rintro (e | ⟨t, e⟩)
        · exact absurd e (by decide +kernel)
        · exact absurd (congrArg (List.take 1) e) (by simp)
      · exact fun _ => ⟨0, 1, l2.symm⟩)
  have s1 : JmsShared "VddLL_2323" := by
    have hf := exFkSet_names "DVLL_2323" (by unfold exFkSet; simp [Dict.keys])
    exact ⟨_, .conj "DVLL_2323" _ List.mem_cons_self, hf⟩
  have s2 : JmsShared "egamma_12" := by
    have hl : FkLink (label "K2R" [1, 0]) "egamma_12" := l2 ▸ .dipole 1 0
    refine ⟨_, hl, ⟨_, hl⟩, ?_⟩
    decide +kernel
  have s3 : ¬ JmsShared "egamma_11" := by
    rintro ⟨k, hl, hk⟩
    have : FkLink (label "K2R" [0, 0]) "egamma_11" := l1 ▸ .dipole 0 0
    exact hk.2 0 (link_right hl this)
  refine ⟨d, C', h1, h2, ?_, ?_, (h3 _).2 s3⟩
  · rw [(h3 _).1 s1]; rfl
  · rw [(h3 _).1 s2]; simp [Dict.find]

/-- Value, conjugate value or zero. -/
def exCls (j : List (Fin 3)) : ℕ :=
  if j = [0, 0, 1, 2] ∨ j = [1, 2, 0, 0] then 1 else if j = [0, 0, 2, 1] ∨ j = [2, 1, 0, 0] then 2 else 0

/-- A symmetric tensor with the entries belonging to `DVLL_2311`. -/
noncomputable def exTensor (n : String) (j : List (Fin 3)) : ℂ :=
  if n = "VddLL" then (if exCls j = 1 then 1 - Complex.I else if exCls j = 2 then 1 + Complex.I else 0) else 0

theorem exTensor_sym : JmsTensor exTensor where
  herm := by
    intro n _ p r s t
    have h1 : ∀ p r s t : Fin 3, exCls [p, r, s, t] = 1 ↔ exCls [r, p, t, s] = 2 := by decide +kernel
    have h2 := h1 r p t s
    unfold exTensor
    split_ifs with a b c d e f g
    all_goals simp_all [sub_eq_add_neg]
  exch := by
    intro n _ p r s t
    have h1 : ∀ p r s t : Fin 3, exCls [p, r, s, t] = exCls [s, t, p, r] := by decide +kernel
    unfold exTensor
    rw [h1 p r s t]
  fierz := by
    intro n hn p r s t
    have : "VddLL" ∉ opFierz := by decide +kernel
    unfold exTensor
    rw [if_neg, if_neg] <;> exact fun e => this (e ▸ hn)

/-- C64 for one coefficient: `DVLL_2311` is the entry `[3, 2, 1, 1]` of `VddLL`. -/
example : ∃ d, fkToJms exEnv [("DVLL_2311", 1 + Complex.I)] 160 none = .ok d ∧
    (∀ n j v, '_' ∉ n.toList → Dict.find d (label n j) = some v → exTensor n j = v) ∧ exTensor "VddLL" [2, 1, 0, 0] = 1 + Complex.I := by
  have hm : ("DVLL_2311", "VddLL_1123") ∈ fkJmsConj := by
    rw [← rowsConj_eq]
    have : ∃ r ∈ (rowsConj.drop 285).take 1, rowNames r = ("DVLL_2311", "VddLL_1123") := by decide +kernel
    obtain ⟨r, hr, e⟩ := this
    exact List.mem_map.2 ⟨r, List.mem_of_mem_drop (List.mem_of_mem_take hr), e⟩
  have hl : FkLink "DVLL_2311" "VddLL_1123" := .conj _ _ hm
  have hC : ∀ k ∈ Dict.keys ([("DVLL_2311", 1 + Complex.I)] : Dict String ℂ), ∃ k', FkLink k k' := by
    intro k hk
    rw [show k = "DVLL_2311" by simpa [Dict.keys] using hk]
    exact ⟨_, hl⟩
  have hw : Dict.WF ([("DVLL_2311", 1 + Complex.I)] : Dict String ℂ) := by simp [Dict.WF, Dict.keys]
  have hr : fkJmsResult exP.p [("DVLL_2311", 1 + Complex.I)] = [("VddLL_1123", 1 - Complex.I)] := by
    have hc : "DVLL_2311" ∈ Dict.keys fkJmsConj := List.mem_map.2 ⟨_, hm, rfl⟩
    unfold fkJmsResult
    rw [List.filterMap_cons_some (b := ("VddLL_1123", 1 - Complex.I))
      (by simp [toJmsName_iff.2 hl, fkFactor, hc, sub_eq_add_neg])]
    rfl
  have hT : ∀ n j v, '_' ∉ n.toList → Dict.find ([("VddLL_1123", 1 - Complex.I)] : Dict String ℂ) (label n j) = some v →
      exTensor n j = v := by
    intro n j v hn hf
    have e : label "VddLL" [0, 0, 1, 2] = "VddLL_1123" := by decide +kernel
    simp only [Dict.find] at hf
    split_ifs at hf with h
    rw [← e] at h
    obtain ⟨h1, h2⟩ := label_inj (by decide +kernel) hn h
    subst h1; subst h2
    rw [← Option.some.inj hf]
    simp [exTensor, exCls]
  obtain ⟨d, h1, h2⟩ := C64_flavour exFk exFkParams hw hC
  have hd : d = [("VddLL_1123", 1 - Complex.I)] := by
    have := h1.symm.trans (fkToJms_eq exFk exFkParams hw hC)
    rw [hr] at this
    exact Except.ok.inj this
  subst hd
  refine ⟨_, h1, hT, ?_⟩
  have ho : (⟨"DVLL", "VddLL", .swap⟩ : FkOp) ∈ fkOps := by simp [fkOps]
  have e : label "DVLL" [1, 2, 0, 0] = "DVLL_2311" := by decide +kernel
  have := h2 exTensor exTensor_sym hT _ ho [1, 2, 0, 0] (1 + Complex.I) (by rw [e]; rfl)
  simpa [FkOrder.target] using this

end Verif
