import Verif.Lemmas.MarksJms
import Verif.Lemmas.MarksBern
import Verif.Props.WetLinear
import Verif.Model.Match

/-! C76, C77: the translations between WET bases conserve flavour, and they commute with the removal of heavy flavours. -/

set_option autoImplicit false

namespace Verif

open Spec

/-- Flavour of the coefficients of the source basis. -/
def WT.InFlavour : WT → String → Flavour → Prop
  | .jmsFlavio | .jmsBern | .jmsEos | .jmsFormFlavor => fun n f => ∃ k i, n = label k i ∧ jmsFlavour (k, i) = some f
  | .bernFlavio => fun n f => bernFlavour n = some f
  | .flavioBern => fun n f => flavioFlavour n = some f

/-- Flavour of the coefficients of the target basis. -/
def WT.outFlavour : WT → String → Option Flavour
  | .jmsFlavio | .bernFlavio => flavioFlavour
  | .jmsBern | .flavioBern => bernFlavour
  | .jmsEos => eosFlavour
  | .jmsFormFlavor => formFlavorFlavour

/-- Names without a flavour of their own: averages over neutrinos. -/
def WT.averages : WT → List String
  | .jmsFormFlavor => ["CVLL_sdnn", "CVRL_sdnn"]
  | _ => []

/-- Rephasing allowed for a translator. The names in EOS do not mention pairs of a quark and its antiquark, so that only phases are
allowed there. -/
def WT.Allowed (φ : Kind × Fin 3 → ℂ) : WT → Prop
  | .jmsEos => ∀ x, φ x * starRingEnd ℂ (φ x) = 1
  | _ => True

theorem mem_put {κ ν : Type} [DecidableEq κ] {d : Dict κ ν} {k : κ} {x : ν} {p : κ × ν} (h : p ∈ Dict.put d k x) :
    p ∈ d ∨ p = (k, x) := by
  induction d with
  | nil => right; simpa [Dict.put] using h
  | cons q d ih =>
    rw [Dict.put] at h
    split_ifs at h with hq
    · rcases List.mem_cons.1 h with h | h
      · exact .inr (hq ▸ h)
      · exact .inl (List.mem_cons_of_mem _ h)
    · rcases List.mem_cons.1 h with h | h
      · exact .inl (h ▸ List.mem_cons_self)
      · rcases ih h with h | h
        · exact .inl (List.mem_cons_of_mem _ h)
        · exact .inr h

theorem mem_ofPairs {κ ν : Type} [DecidableEq κ] {l : List (κ × ν)} {p : κ × ν} (h : p ∈ Dict.ofPairs l) : p ∈ l := by
  have : ∀ (l : List (κ × ν)) (d : Dict κ ν), p ∈ Dict.upd d l → p ∈ d ∨ p ∈ l := by
    intro l
    induction l with
    | nil => intro d h; exact .inl h
    | cons q l ih =>
      intro d h
      rw [Dict.upd_cons] at h
      rcases ih _ h with h | h
      · rcases mem_put h with h | h
        · exact .inl h
        · exact .inr (h ▸ List.mem_cons_self)
      · exact .inr (List.mem_cons_of_mem _ h)
  rcases this l [] h with h | h
  · cases h
  · exact h

theorem consistent_ofPairs {S : Type} {eqv : Flavour → Flavour → Bool} {ex : List String} {fs : S → Option Flavour}
    {fn : String → Option Flavour} {B : Block S} (h : consistent eqv ex fs fn (bmarks B) = true) :
    consistent eqv ex fs fn (bmarks (Dict.ofPairs B)) = true := by
  refine List.all_eq_true.2 fun p hp => ?_
  obtain ⟨q, hq, rfl⟩ := List.mem_map.1 hp
  exact List.all_eq_true.1 h _ (List.mem_map.2 ⟨q, mem_ofPairs hq, rfl⟩)

/-- Every translator evaluates a table that reads entries of the flavour of the result. -/
theorem WT.table {E : WEnv} {P : PEnv} {scale : ℝ} {par : Option Par} (hp : penv E scale par = .ok P) (hP : Admissible P)
    (t : WT) (ht : t.Ready E P) :
    ∃ (S : Type) (B : Block S) (v : Dict String ℂ → S → ℂ) (fs : S → Option Flavour) (eqv : Flavour → Flavour → Bool),
      (∀ C, t.run E C scale par = .ok (bval (v C) B)) ∧
      consistent eqv t.averages fs t.outFlavour (bmarks B) = true ∧
      (∀ φ, t.Allowed φ → ∀ f g, eqv f g = true → f.weight φ = g.weight φ) ∧
      ∀ C C' φ, (∀ n f, t.InFlavour n f → Dict.getD C' n 0 = f.weight φ * Dict.getD C n 0) →
        ∀ s g, fs s = some g → v C' s = g.weight φ * v C s := by
  have same : ∀ φ : Kind × Fin 3 → ℂ, ∀ f g, sameFields f g = true → f.weight φ = g.weight φ :=
    fun φ f g h => weight_same φ (of_decide_eq_true h)
  cases t with
  | jmsFlavio =>
    exact ⟨JSrc, _, _, jmsFlavour, sameFields, jmsToFlavio_closed hp hP ht, by rw [bmarks_blkJmsFlavio hP]; exact consistent_jmsFlavio,
      fun φ _ => same φ, fun C C' φ h => jval_covariant fun k i g hg => h _ g ⟨k, i, rfl, hg⟩⟩
  | jmsBern =>
    exact ⟨JSrc, _, _, jmsFlavour, sameFields, jmsToBern_closed hp hP ht,
      by rw [bmarks_scaleBy, bmarks_blkJmsBern hP]; exact consistent_jmsBern,
      fun φ _ => same φ, fun C C' φ h => jval_covariant fun k i g hg => h _ g ⟨k, i, rfl, hg⟩⟩
  | jmsEos =>
    exact ⟨JSrc, _, _, jmsFlavour, sameCharge, jmsToEos_closed hp hP ht.2 ht.1,
      consistent_ofPairs (by rw [bmarks_blkEos hP ht.2]; exact consistent_eos),
      fun φ hφ f g => weight_charge hφ, fun C C' φ h => jval_covariant fun k i g hg => h _ g ⟨k, i, rfl, hg⟩⟩
  | jmsFormFlavor =>
    exact ⟨JSrc, _, _, jmsFlavour, sameFields, jmsToFormFlavor_closed hp hP ht,
      consistent_ofPairs (by rw [bmarks_blkFormFlavor hP]; exact consistent_formFlavor),
      fun φ _ => same φ, fun C C' φ h => jval_covariant fun k i g hg => h _ g ⟨k, i, rfl, hg⟩⟩
  | bernFlavio =>
    exact ⟨String, _, _, bernFlavour, sameFields, bernToFlavio_closed hp hP ht,
      by rw [bmarks_divideBy, bmarks_blkBernFlavio hP]; exact consistent_bernFlavio,
      fun φ _ => same φ, fun C C' φ h s g hg => h s g hg⟩
  | flavioBern =>
    exact ⟨String, _, _, flavioFlavour, sameFields, flavioToBern_closed hp hP ht,
      by rw [bmarks_scaleBy, bmarks_blkFlavioBern hP]; exact consistent_flavioBern,
      fun φ _ => same φ, fun C C' φ h s g hg => h s g hg⟩

/-- **C76**: if every field `psi_x` is replaced by `phi_x psi_x` in the source basis, so it is in the result. In particular the numbers
of all quark and lepton flavours are conserved, and every coefficient of the result has a flavour (other than the averages over
neutrinos in FormFlavor). -/
theorem C76_flavour {E : WEnv} {P : PEnv} {scale : ℝ} {par : Option Par} (hp : penv E scale par = .ok P) (hP : Admissible P)
    (t : WT) (ht : t.Ready E P) (φ : Kind × Fin 3 → ℂ) (hφ : t.Allowed φ) (C C' : Dict String ℂ)
    (h : ∀ n f, t.InFlavour n f → Dict.getD C' n 0 = f.weight φ * Dict.getD C n 0) :
    ∃ d d', t.run E C scale par = .ok d ∧ t.run E C' scale par = .ok d' ∧
      (∀ n ∈ Dict.keys d, n ∈ t.averages ∨ ∃ f, t.outFlavour n = some f) ∧
      ∀ n f, t.outFlavour n = some f → Dict.getD d' n 0 = f.weight φ * Dict.getD d n 0 := by
  obtain ⟨S, B, v, fs, eqv, h1, h2, h3, h4⟩ := t.table hp hP ht
  exact ⟨_, _, h1 C, h1 C', fun n hn => consistent_named h2 hn, fun n f hf => bval_covariant h2 (h3 φ hφ) (h4 C C' φ h) n f hf⟩

/-- **C76**, locality: a coefficient of the result depends only on the coefficients of the source basis that have the same fields, or
those of the conjugate operator. -/
theorem C76_local {E : WEnv} {P : PEnv} {scale : ℝ} {par : Option Par} (hp : penv E scale par = .ok P) (hP : Admissible P)
    (t : WT) (ht : t.Ready E P) (hE : ¬ t matches .jmsEos) (C C' : Dict String ℂ) (n : String) (f : Flavour) (hn : t.outFlavour n = some f)
    (h : ∀ m g, t.InFlavour m g → g.Like f → Dict.getD C' m 0 = Dict.getD C m 0) :
    ∃ d d', t.run E C scale par = .ok d ∧ t.run E C' scale par = .ok d' ∧ Dict.getD d' n 0 = Dict.getD d n 0 := by
  cases t with
  | jmsFlavio =>
    exact ⟨_, _, jmsToFlavio_closed hp hP ht C, jmsToFlavio_closed hp hP ht C',
      bval_local (by rw [bmarks_blkJmsFlavio hP]; exact consistent_jmsFlavio) hn (jval_local fun k i g hg => h _ g ⟨k, i, rfl, hg⟩)⟩
  | jmsBern =>
    exact ⟨_, _, jmsToBern_closed hp hP ht C, jmsToBern_closed hp hP ht C',
      bval_local (by rw [bmarks_scaleBy, bmarks_blkJmsBern hP]; exact consistent_jmsBern) hn
        (jval_local fun k i g hg => h _ g ⟨k, i, rfl, hg⟩)⟩
  | jmsEos => exact absurd rfl hE
  | jmsFormFlavor =>
    exact ⟨_, _, jmsToFormFlavor_closed hp hP ht C, jmsToFormFlavor_closed hp hP ht C',
      bval_local (consistent_ofPairs (by rw [bmarks_blkFormFlavor hP]; exact consistent_formFlavor)) hn
        (jval_local fun k i g hg => h _ g ⟨k, i, rfl, hg⟩)⟩
  | bernFlavio =>
    exact ⟨_, _, bernToFlavio_closed hp hP ht C, bernToFlavio_closed hp hP ht C',
      bval_local (by rw [bmarks_divideBy, bmarks_blkBernFlavio hP]; exact consistent_bernFlavio) hn h⟩
  | flavioBern =>
    exact ⟨_, _, flavioToBern_closed hp hP ht C, flavioToBern_closed hp hP ht C',
      bval_local (by rw [bmarks_scaleBy, bmarks_blkFlavioBern hP]; exact consistent_flavioBern) hn h⟩

/-! ### Consequences -/

/-- Only fields from a set occur. -/
def Spec.Flavour.Within (act : Kind × Fin 3 → Bool) (f : Flavour) : Prop := ∀ x ∈ f.bar ++ f.fld, act x = true

instance (act : Kind × Fin 3 → Bool) (f : Flavour) : Decidable (f.Within act) := inferInstanceAs (Decidable (∀ x ∈ _, _))

theorem weight_indicator (act : Kind × Fin 3 → Bool) (f : Flavour) :
    f.weight (fun x => if act x then 1 else 0) = if f.Within act then 1 else 0 := by
  have one : ∀ l : List (Kind × Fin 3), (l.map fun x => if act x then (1 : ℂ) else 0).prod = if ∀ x ∈ l, act x = true then 1 else 0 := by
    intro l
    induction l with
    | nil => simp
    | cons a l ih =>
      rw [List.map_cons, List.prod_cons, ih]
      simp only [List.forall_mem_cons]
      split_ifs <;> simp_all
  have hc : (fun x : Kind × Fin 3 => starRingEnd ℂ (if act x then (1 : ℂ) else 0)) = fun x => if act x then 1 else 0 := by
    funext x; split_ifs <;> simp
  unfold Flavour.weight Flavour.Within
  rw [hc, one, one]
  simp only [List.forall_mem_append]
  split_ifs <;> simp_all

/-- The coefficients with active fields: a listing of an effective theory with fewer flavours. -/
def WT.SourceBelow (t : WT) (act : Kind × Fin 3 → Bool) (L L' : List String) : Prop :=
  ∀ n f, t.InFlavour n f → (n ∈ L' ↔ n ∈ L ∧ f.Within act)

/-- The same for the target basis. -/
def WT.TargetBelow (t : WT) (act : Kind × Fin 3 → Bool) (L L' : List String) : Prop :=
  ∀ n f, t.outFlavour n = some f → (n ∈ L' ↔ n ∈ L ∧ f.Within act)

theorem find_restrict {L : List String} {C : Dict String ℂ} (n : String) :
    Dict.getD (Dict.filt (fun k _ => decide (k ∈ L)) C) n 0 = if n ∈ L then Dict.getD C n 0 else 0 := by
  have : Dict.find (Dict.filt (fun k _ => decide (k ∈ L)) C) n = if n ∈ L then Dict.find C n else none := by
    induction C with
    | nil => simp [Dict.filt]
    | cons p C ih =>
      unfold Dict.filt at ih ⊢
      by_cases hL : p.1 ∈ L
      · rw [List.filter_cons_of_pos (by simpa using hL), Dict.find_cons, Dict.find_cons, ih]
        by_cases hn : p.1 = n
        · subst hn; simp [hL]
        · simp [hn]
      · rw [List.filter_cons_of_neg (by simpa using hL), ih, Dict.find_cons]
        by_cases hn : p.1 = n
        · subst hn; simp [hL]
        · simp [hn]
  unfold Dict.getD
  rw [this]
  split_ifs <;> rfl

/-- **C77**: matching at a flavour threshold (the registered matchers between WET, WET-4, WET-3, which drop the coefficients that are
not in the smaller basis) commutes with translation: matching first and translating then has the same result as translating
first and matching then. -/
theorem C77_threshold {E : WEnv} {P : PEnv} {scale : ℝ} {par : Option Par} (hp : penv E scale par = .ok P) (hP : Admissible P)
    (t : WT) (ht : t.Ready E P) (hφ : t = .jmsFlavio ∨ t = .jmsBern ∨ t = .bernFlavio ∨ t = .flavioBern)
    (act : Kind × Fin 3 → Bool) {L L' M M' : List String} (hL : t.SourceBelow act L L') (hM : t.TargetBelow act M M')
    (C : Dict String ℂ) (hC : ∀ n ∈ Dict.keys C, n ∈ L)
    (hD : ∀ d, t.run E C scale par = .ok d → ∀ n ∈ Dict.keys d, n ∈ M) :
    ∃ d e e' D, t.run E C scale par = .ok d ∧ restrictTo M' d scale par = .ok e ∧
      restrictTo L' C scale par = .ok D ∧ t.run E D scale par = .ok e' ∧
      ∀ n, Dict.getD e n 0 = Dict.getD e' n 0 := by
  have hal : t.Allowed (fun x => if act x then 1 else 0) ∧ t.averages = [] := by
    rcases hφ with rfl | rfl | rfl | rfl <;> exact ⟨trivial, rfl⟩
  have hzero : ∀ (d : Dict String ℂ) n, n ∉ Dict.keys d → Dict.getD d n 0 = 0 := by
    intro d n hn
    unfold Dict.getD
    rw [Dict.find_eq_none_iff.2 hn]; rfl
  obtain ⟨S, B, v, fs, eqv, h1, h2, h3, h4⟩ := t.table hp hP ht
  refine ⟨_, _, _, _, h1 C, rfl, rfl, h1 _, fun n => ?_⟩
  have cov := bval_covariant h2 (h3 _ hal.1)
    (h4 C (Dict.filt (fun k _ => decide (k ∈ L')) C) (fun x => if act x then 1 else 0) (fun n f hf => by
      rw [find_restrict, weight_indicator]
      simp only [hL n f hf]
      by_cases hn : n ∈ Dict.keys C
      · by_cases hw : f.Within act
        · simp [hw, hC n hn]
        · simp [hw]
      · rw [hzero _ _ hn]; simp))
  rw [find_restrict]
  by_cases hn : n ∈ Dict.keys (bval (v C) B)
  · rcases consistent_named h2 hn with h | ⟨f, hf⟩
    · rw [hal.2] at h; cases h
    · rw [cov n f hf, weight_indicator]
      simp only [hM n f hf]
      by_cases hw : f.Within act
      · simp [hw, hD _ (h1 C) n hn]
      · simp [hw]
  · have hn' := hn
    rw [keys_bval] at hn'
    rw [hzero _ _ hn, hzero _ _ (by rw [keys_bval]; exact hn'), ite_self]

/-! ### Examples -/

theorem jmsFlavour_plain {k : String} {i : List (Fin 3)} {f : Flavour} (hf : jmsFlavour (k, i) = some f) : Plain k := by
  have h1 : ∀ o ∈ jmsDipoles, Plain o.1 := by decide +kernel
  have h2 : ∀ o ∈ jmsOps, Plain o.name := by decide +kernel
  unfold jmsFlavour at hf
  split at hf
  · obtain ⟨o, ho, -⟩ := Option.map_eq_some_iff.1 hf
    have : o.1 = k := by simpa using List.find?_some ho
    exact this ▸ h1 o (List.mem_of_find?_eq_some ho)
  · obtain ⟨o, ho, -⟩ := Option.map_eq_some_iff.1 hf
    have : o.name = k := by simpa using List.find?_some ho
    exact this ▸ h2 o (List.mem_of_find?_eq_some ho)
  · cases hf

/-- A coefficient of JMS has one flavour. -/
theorem jmsFlavour_unique {k k' : String} {i i' : List (Fin 3)} {f f' : Flavour} (h : jmsFlavour (k, i) = some f)
    (h' : jmsFlavour (k', i') = some f') (e : label k i = label k' i') : f = f' := by
  obtain ⟨rfl, rfl⟩ := label_inj (jmsFlavour_plain h) (jmsFlavour_plain h') e
  rw [h] at h'
  exact Option.some.inj h'

theorem exFl : jmsFlavour ("VedLL", [0, 1, 1, 2]) = some ⟨[(.e, 0), (.d, 1)], [(.e, 1), (.d, 2)]⟩ ∧
    label "VedLL" [0, 1, 1, 2] = "VedLL_1223" := by decide +kernel

/-- Multiplying the muon field by `i` multiplies `C9` of b → s e mu by `i` in flavio: from the JMS coefficient `VedLL_1223` (barred e,
mu; barred s, b). -/
example : ∃ d d', jmsToFlavio exEnv [("VedLL_1223", 2)] 160 none = .ok d ∧
    jmsToFlavio exEnv [("VedLL_1223", 2 * Complex.I)] 160 none = .ok d' ∧
    Dict.getD d' "C9_bsemu" 0 = Complex.I * Dict.getD d "C9_bsemu" 0 := by
  obtain ⟨d, d', h1, h2, -, h3⟩ := C76_flavour exEnv_ok exP_admissible .jmsFlavio allJms_listing
    (fun x => if x = (.e, 1) then Complex.I else 1) trivial [("VedLL_1223", 2)] [("VedLL_1223", 2 * Complex.I)] (by
      rintro n f ⟨k, i, rfl, hf⟩
      by_cases h : label k i = "VedLL_1223"
      · have := jmsFlavour_unique hf exFl.1 (h.trans exFl.2.symm)
        subst this
        rw [h]
        simp [Dict.getD, Dict.find, Flavour.weight]
        ring
      · simp [Dict.getD, Dict.find, Ne.symm h])
  refine ⟨d, d', h1, h2, ?_⟩
  rw [h3 "C9_bsemu" ⟨[(.d, 1), (.e, 0)], [(.d, 2), (.e, 1)]⟩ (by decide +kernel)]
  simp [Flavour.weight]

/-- Below the bottom threshold. -/
def noBottom (x : Kind × Fin 3) : Bool := decide (x ≠ (.d, 2))

open Classical in
/-- The part of the JMS basis without bottom quarks. -/
noncomputable def jms4 : List String := allJms.filter fun n => decide (∀ f, WT.InFlavour .jmsFlavio n f → f.Within noBottom)

/-- The part of the flavio basis without bottom quarks. -/
def flavio4 : List String := keysFlavio.filter fun n => match flavioFlavour n with
  | some f => decide (f.Within noBottom)
  | none => false

/-- C77 for an operator with and one without bottom quarks. -/
example : ∃ d e e' D, jmsToFlavio exEnv [("VedLL_1223", 2), ("VddLL_1212", 3)] 160 none = .ok d ∧ restrictTo flavio4 d 160 none = .ok e ∧
    restrictTo jms4 [("VedLL_1223", 2), ("VddLL_1212", 3)] 160 none = .ok D ∧ jmsToFlavio exEnv D 160 none = .ok e' ∧
    ∀ n, Dict.getD e n 0 = Dict.getD e' n 0 := by
  have hmem : ∀ p ∈ jmsRanges, ∀ i : List (Fin 3), i.length = p.2.length → label p.1 i ∈ allJms := fun p hp i hi =>
    List.mem_flatMap.2 ⟨p, hp, List.mem_map.2 ⟨i, (mem_allIdx (jmsRank_spec p hp).2).2 hi, rfl⟩⟩
  refine C77_threshold exEnv_ok exP_admissible .jmsFlavio allJms_listing (.inl rfl) noBottom (L := allJms) (M := keysFlavio) ?_ ?_ _ ?_ ?_
  · rintro n f ⟨k, i, rfl, hf⟩
    unfold jms4
    rw [List.mem_filter, @decide_eq_true_iff _ (Classical.propDecidable _)]
    refine and_congr_right fun _ => ⟨fun h => h f ⟨k, i, rfl, hf⟩, ?_⟩
    rintro h f' ⟨k', i', e, hf'⟩
    rwa [← jmsFlavour_unique hf hf' e]
  · intro n f hf
    change flavioFlavour n = some f at hf
    unfold flavio4
    rw [List.mem_filter, hf]
    simp
  · intro n hn
    simp only [Dict.keys, List.map_cons, List.map_nil, List.mem_cons, List.not_mem_nil, or_false] at hn
    rcases hn with rfl | rfl
    · have := hmem ("VedLL", [3, 3, 3, 3]) (by decide +kernel) [0, 1, 1, 2] rfl
      rwa [exFl.2] at this
    · have := hmem ("VddLL", [3, 3, 3, 3]) (by decide +kernel) [0, 1, 0, 1] rfl
      have e : label "VddLL" [0, 1, 0, 1] = "VddLL_1212" := by decide +kernel
      rwa [e] at this
  · intro d hd n hn
    change jmsToFlavio _ _ _ _ = _ at hd
    rw [jmsToFlavio_closed exEnv_ok exP_admissible allJms_listing] at hd
    injection hd with hd
    subst hd
    rw [keys_bval, bkeys_blkJmsFlavio exP_admissible] at hn
    exact hn

end Verif
