import Verif.Lemmas.WetClosed
import Verif.Props.Qcd
import Verif.Props.WetArray
import Verif.Props.SmeftTrans

/-! C43, C44, C45: the WET translators are total, linear and treat absent coefficients as zero. -/

set_option autoImplicit false

namespace Verif

open Spec

/-- The translators that evaluate tables on completed input. -/
inductive WT where
  | jmsFlavio | jmsBern | jmsEos | jmsFormFlavor | bernFlavio | flavioBern

/-- Run a translator. -/
noncomputable def WT.run (E : WEnv) : WT → Dict String ℂ → ℝ → Option Par → Except PyErr (Dict String ℂ)
  | .jmsFlavio => jmsToFlavio E
  | .jmsBern => jmsToBern E
  | .jmsEos => jmsToEos E
  | .jmsFormFlavor => jmsToFormFlavor E
  | .bernFlavio => bernToFlavio E
  | .flavioBern => flavioToBern E

/-- The source basis has the coefficients of the WCxf standard read by the translator (and, for EOS, the quark masses
differ). -/
def WT.Ready (E : WEnv) (P : PEnv) : WT → Prop
  | .jmsFlavio | .jmsBern | .jmsFormFlavor => JmsListing E.jms
  | .jmsEos => JmsListing E.jms ∧ P.p.m_b ^ 2 ≠ P.p.m_s ^ 2
  | .bernFlavio => ∀ k ∈ bernNames, k ∈ E.bern
  | .flavioBern => ∀ k ∈ flavioNames, k ∈ E.flavio

/-- Every translator evaluates a table, the same for every input. -/
theorem WT.closed {E : WEnv} {P : PEnv} {scale : ℝ} {par : Option Par} (hp : penv E scale par = .ok P) (hP : Admissible P)
    (t : WT) (ht : t.Ready E P) :
    ∃ (S : Type) (B : Block S) (v : Dict String ℂ → S → ℂ), (∀ C, t.run E C scale par = .ok (bval (v C) B)) ∧
      ∀ C C1 C2 (r s : ℝ), (∀ k, Dict.getD C k 0 = (r : ℂ) * Dict.getD C1 k 0 + (s : ℂ) * Dict.getD C2 k 0) →
        ∀ x, v C x = (r : ℂ) * v C1 x + (s : ℂ) * v C2 x := by
  cases t with
  | jmsFlavio => exact ⟨JSrc, _, _, jmsToFlavio_closed hp hP ht, fun C C1 C2 r s h => jval_linear E.jms h⟩
  | jmsBern => exact ⟨JSrc, _, _, jmsToBern_closed hp hP ht, fun C C1 C2 r s h => jval_linear E.jms h⟩
  | jmsEos => exact ⟨JSrc, _, _, jmsToEos_closed hp hP ht.2 ht.1, fun C C1 C2 r s h => jval_linear E.jms h⟩
  | jmsFormFlavor => exact ⟨JSrc, _, _, jmsToFormFlavor_closed hp hP ht, fun C C1 C2 r s h => jval_linear E.jms h⟩
  | bernFlavio => exact ⟨String, _, _, bernToFlavio_closed hp hP ht, fun C C1 C2 r s h => sval_linear h⟩
  | flavioBern => exact ⟨String, _, _, flavioToBern_closed hp hP ht, fun C C1 C2 r s h => sval_linear h⟩

/-- **C45**: a value for every input, for admissible parameters. -/
theorem C45_total {E : WEnv} {P : PEnv} {scale : ℝ} {par : Option Par} (hp : penv E scale par = .ok P) (hP : Admissible P)
    (t : WT) (ht : t.Ready E P) (C : Dict String ℂ) : ∃ d, t.run E C scale par = .ok d := by
  obtain ⟨S, B, v, h, -⟩ := t.closed hp hP ht
  exact ⟨_, h C⟩

/-- The names read from the parameter dictionary. -/
def parNames : List String :=
  ["m_b", "alpha_s", "m_s", "m_W", "m_Z", "GF", "alpha_e", "Vus", "Vub", "Vcb", "gamma", "m_e", "m_mu", "m_tau"]

/-- **C45**, parameters: they can be evaluated at every positive scale if the defaults together with the argument
contain all names and the b quark mass is positive. -/
theorem C45_parameters (E : WEnv) {scale : ℝ} (par : Option Par) (hs : 0 < scale)
    (hk : ∀ k ∈ parNames, k ∈ Dict.keys (withPar E.default par))
    (hb : ∀ x, Dict.find (withPar E.default par) "m_b" = some x → 0 < x) : ∃ P, penv E scale par = .ok P := by
  have get : ∀ k ∈ parNames, ∃ x, Dict.get (withPar E.default par) k = .ok x := by
    intro k h
    obtain ⟨x, hx⟩ := Option.isSome_iff_exists.1 (Dict.find_isSome_iff.2 (hk k h))
    exact ⟨x, Dict.get_of_find hx⟩
  unfold penv getParameters
  obtain ⟨mb, h1⟩ := get "m_b" (by simp [parNames])
  obtain ⟨as, h2⟩ := get "alpha_s" (by simp [parNames])
  obtain ⟨ms, h3⟩ := get "m_s" (by simp [parNames])
  obtain ⟨x4, h4⟩ := get "m_W" (by simp [parNames])
  obtain ⟨x5, h5⟩ := get "m_Z" (by simp [parNames])
  obtain ⟨x6, h6⟩ := get "GF" (by simp [parNames])
  obtain ⟨x7, h7⟩ := get "alpha_e" (by simp [parNames])
  obtain ⟨x8, h8⟩ := get "Vus" (by simp [parNames])
  obtain ⟨x9, h9⟩ := get "Vub" (by simp [parNames])
  obtain ⟨x10, h10⟩ := get "Vcb" (by simp [parNames])
  obtain ⟨x11, h11⟩ := get "gamma" (by simp [parNames])
  obtain ⟨x12, h12⟩ := get "m_e" (by simp [parNames])
  obtain ⟨x13, h13⟩ := get "m_mu" (by simp [parNames])
  obtain ⟨x14, h14⟩ := get "m_tau" (by simp [parNames])
  have hph : ∀ fl : List ℤ, 5 ∈ fl → Physical fl (.float scale) (.int 5) := fun fl h => ⟨.inr ⟨_, rfl⟩, hs, 5, h, rfl⟩
  obtain ⟨y1, g1⟩ := (C27_partial E.rd (.mb (.float mb) (.float scale) (.int 5) (.pos (.float as)))).2.2
    ⟨.inr ⟨_, rfl⟩, hb mb (Dict.get_ok_iff.1 h1)⟩ (hph _ (by simp))
  obtain ⟨y2, g2⟩ := (C27_partial E.rd (.ms (.float ms) (.float scale) (.int 5) (.pos (.float as)))).2.2 trivial (hph _ (by simp))
  obtain ⟨y3, g3⟩ := (C27_partial E.rd (.alphaS (.float scale) (.int 5) (.pos (.float as)))).2.2 trivial (hph _ (by simp))
  simp only [h1, h2, h3, h4, h5, h6, h7, h8, h9, h10, h11, h12, h13, h14, g1, g2, g3, except_ok_bind]
  exact ⟨_, rfl⟩

/-- **C43**: a real linear combination of inputs gives the linear combination of the outputs (absent = 0). -/
theorem C43_linear {E : WEnv} {P : PEnv} {scale : ℝ} {par : Option Par} (hp : penv E scale par = .ok P) (hP : Admissible P)
    (t : WT) (ht : t.Ready E P) (C C1 C2 : Dict String ℂ) (r s : ℝ)
    (h : ∀ k, Dict.getD C k 0 = (r : ℂ) * Dict.getD C1 k 0 + (s : ℂ) * Dict.getD C2 k 0) :
    ∃ d d1 d2, t.run E C scale par = .ok d ∧ t.run E C1 scale par = .ok d1 ∧ t.run E C2 scale par = .ok d2 ∧
      ∀ k, Dict.getD d k 0 = (r : ℂ) * Dict.getD d1 k 0 + (s : ℂ) * Dict.getD d2 k 0 := by
  obtain ⟨S, B, v, hc, hl⟩ := t.closed hp hP ht
  exact ⟨_, _, _, hc C, hc C1, hc C2, bval_linear (hl C C1 C2 r s h) B⟩

/-- **C44**: inputs that differ by zero coefficients have the same output (or exception), for all parameters and basis
definitions. -/
theorem C44_absent_zero (E : WEnv) (t : WT) (C C' : Dict String ℂ) (scale : ℝ) (par : Option Par)
    (h : ∀ k, Dict.getD C k 0 = Dict.getD C' k 0) : t.run E C scale par = t.run E C' scale par := by
  have hc : ∀ L, completed L C = completed L C' := by
    intro L; unfold completed; simp only [h]
  have ha : ∀ L, jmsToArray L C = jmsToArray L C' := by
    intro L; unfold jmsToArray; rw [hc]
  cases t <;>
    simp only [WT.run, jmsToFlavio, jmsToBern, jmsToEos, jmsToFormFlavor, bernToFlavio, flavioToBern, ha, hc]

/-- **C44**: zero input gives zero output, so nothing is left after the zeros are dropped. -/
theorem C44_zero {E : WEnv} {P : PEnv} {scale : ℝ} {par : Option Par} (hp : penv E scale par = .ok P) (hP : Admissible P)
    (t : WT) (ht : t.Ready E P) (C : Dict String ℂ) (h : ∀ k, Dict.getD C k 0 = 0) :
    ∃ d, t.run E C scale par = .ok d ∧ Dict.filt (fun _ v => decide (v ≠ 0)) d = [] := by
  obtain ⟨S, B, v, hc, hl⟩ := t.closed hp hP ht
  refine ⟨_, hc C, ?_⟩
  have hv : ∀ x, v C x = ((0 : ℝ) : ℂ) * v C x := by
    intro x
    have := hl C C C 0 0 (fun k => by simp [h]) x
    rw [this]; simp
  unfold Dict.filt
  rw [List.filter_eq_nil_iff]
  intro p hp
  obtain ⟨q, -, rfl⟩ := List.mem_map.1 hp
  have e : v C = fun x => ((0 : ℝ) : ℂ) * v C x := funext hv
  have : q.2.val (v C) = 0 := by
    rw [e, Ex.val_real]; simp
  simp [this]

/-! ### An environment in which all translators can be used -/

/-- All indices of an operator with `n` (2 or 4) of them. -/
def allIdx (n : ℕ) : List (List (Fin 3)) :=
  if n = 4 then quads else (List.finRange 3).flatMap fun a => (List.finRange 3).map fun b => [a, b]

theorem mem_allIdx {n : ℕ} (hn : n = 4 ∨ n = 2) {i : List (Fin 3)} : i ∈ allIdx n ↔ i.length = n := by
  rcases hn with rfl | rfl
  · rw [allIdx, if_pos rfl]; exact mem_quads
  · rw [allIdx, if_neg (by decide)]
    constructor
    · intro h
      simp only [List.mem_flatMap, List.mem_map] at h
      obtain ⟨a, -, b, -, rfl⟩ := h
      rfl
    · intro h
      match i, h with
      | [a, b], _ => simp

/-- All coefficients of the JMS basis with quarks or photons. -/
def allJms : List String := jmsRanges.flatMap fun p => (allIdx p.2.length).map (label p.1)

/-- Number of indices. -/
def jmsRank (k : String) : ℕ := if k ∈ ["dgamma", "dG", "ugamma", "uG", "egamma"] then 2 else 4

theorem jmsRank_spec : ∀ p ∈ jmsRanges, jmsRank p.1 = p.2.length ∧ (p.2.length = 4 ∨ p.2.length = 2) := by decide +kernel

theorem allJms_listing : JmsListing allJms where
  listing := by
    refine ⟨jmsRank, ?_, ?_⟩
    · intro n hn
      obtain ⟨p, hp, hn⟩ := List.mem_flatMap.1 hn
      obtain ⟨i, hi, rfl⟩ := List.mem_map.1 hn
      obtain ⟨h1, h2⟩ := jmsRank_spec p hp
      exact ⟨p.1, i, (jmsRanges_plain p hp).1, ((mem_allIdx h2).1 hi).trans h1.symm, rfl⟩
    · intro k i _ _ h
      have h1 : ∀ k ∈ jmsHermitian, jmsRank k = 4 := by decide +kernel
      have h2 : ∀ k ∈ jmsExchange, jmsRank k = 4 := by decide +kernel
      exact h.elim (h1 k) (h2 k)
  full := by
    rintro ⟨k, i⟩ ⟨r, hr, hf⟩
    refine ⟨false, i, Tied.refl i, List.mem_flatMap.2 ⟨_, hr, List.mem_map.2 ⟨i, ?_, rfl⟩⟩⟩
    exact (mem_allIdx (jmsRank_spec _ hr).2).2 hf.length_eq

/-- An environment with the full bases, an orthogonal CKM matrix and a toy RunDec. -/
noncomputable def exEnv : WEnv where
  ckm := fun _ _ _ _ => exV
  rd := ⟨fun _ _ _ _ _ => 1 / 5, fun _ _ _ _ _ => 1 / 5, fun _ _ _ _ _ => 1 / 5, fun _ _ _ _ _ => 3, fun _ _ _ _ _ _ => 1,
    fun _ _ _ _ _ _ => 1⟩
  default := defaultPar
  jms := allJms
  bern := bernNames
  flavio := flavioNames

/-- Parameters at 160 GeV. -/
noncomputable def exP : PEnv where
  ckm := fun _ _ _ _ => exV
  p := { m_b := 3, m_s := 1, alpha_s := 1 / 5, m_W := 80.385, m_Z := 91.1876, GF := 1.1663787e-5, alpha_e := 1 / 127.9, Vus := 0.2243,
         Vub := 3.62e-3, Vcb := 4.221e-2, gamma := 1.27, m_e := 0.0005109989461, m_mu := 0.1056583745, m_tau := 1.77686 }

theorem exEnv_ok : penv exEnv 160 none = .ok exP := by
  have h1 : plain exEnv.rd (.mb (.float 4.18) (.float 160) (.int 5) (.pos (.float 0.1185))) = .ok 3 := by
    simp [plain, mbBody, alphaSBody, sane, exEnv, PyNum.val, PyNum.isFloatOrInt, PyNum.isInt, MZ]
    norm_num
    rfl
  have h2 : plain exEnv.rd (.ms (.float 0.095) (.float 160) (.int 5) (.pos (.float 0.1185))) = .ok 1 := by
    simp [plain, msBody, alphaSBody, sane, exEnv, PyNum.val, PyNum.isFloatOrInt, PyNum.isInt, MZ]
    norm_num
    rfl
  have h3 : plain exEnv.rd (.alphaS (.float 160) (.int 5) (.pos (.float 0.1185))) = .ok (1 / 5) := by
    simp [plain, alphaSBody, sane, exEnv, PyNum.val, PyNum.isFloatOrInt, PyNum.isInt, MZ]
    norm_num
    rfl
  unfold penv getParameters
  have e : withPar exEnv.default none = defaultPar := rfl
  simp only [e]
  simp only [defaultPar, Dict.get, Dict.find, String.reduceEq, if_true, if_false, except_ok_bind, h1, h2, h3]
  rfl

theorem exP_admissible : Admissible exP where
  GF := by simp only [exP]; norm_num
  alpha_e := by simp only [exP]; norm_num
  alpha_s := by simp only [exP]; norm_num
  m_b := by simp only [exP]; norm_num
  V := by
    intro i j
    simp only [PEnv.V, exP]
    fin_cases i <;> fin_cases j <;> simp [exV]

/-- All translators can be used with these parameters and bases. -/
theorem exEnv_ready (t : WT) : t.Ready exEnv exP := by
  cases t with
  | jmsEos => exact ⟨allJms_listing, by simp only [exP]; norm_num⟩
  | jmsFlavio => exact allJms_listing
  | jmsBern => exact allJms_listing
  | jmsFormFlavor => exact allJms_listing
  | bernFlavio => exact fun k hk => hk
  | flavioBern => exact fun k hk => hk

/-- C45 and C43 for a coefficient set of three operators and its double. -/
example (t : WT) : ∃ d d1, t.run exEnv [("VedLL_1123", 2 + 4 * Complex.I), ("VddLL_2323", 2), ("dG_23", 6)] 160 none = .ok d ∧
    t.run exEnv [("VedLL_1123", 1 + 2 * Complex.I), ("VddLL_2323", 1), ("dG_23", 3)] 160 none = .ok d1 ∧
    ∀ k, Dict.getD d k 0 = 2 * Dict.getD d1 k 0 := by
  obtain ⟨d, d1, d2, h, h1, h2, h3⟩ := C43_linear exEnv_ok exP_admissible t (exEnv_ready t)
    [("VedLL_1123", 2 + 4 * Complex.I), ("VddLL_2323", 2), ("dG_23", 6)]
    [("VedLL_1123", 1 + 2 * Complex.I), ("VddLL_2323", 1), ("dG_23", 3)] [] 2 0 (fun k => by
      simp only [Dict.getD, Dict.find]
      split_ifs <;> simp <;> ring)
  exact ⟨d, d1, h, h1, fun k => by rw [h3 k]; simp⟩

end Verif
