import Verif.Lemmas.MatchEW
import Verif.Props.Numbers
import Verif.Props.Validate
import Verif.Props.SmeftTrans

/-! C49, C50, C54: matching of the Standard Model, names of the result, restriction to fewer quarks. -/

set_option autoImplicit false

namespace Verif

open Spec

/-! ### Results of matching as objects -/

/-- The numeric dictionary without zeros, as kept by `WC.match` and `WC.translate`. -/
noncomputable def nz (d : Dict String ℂ) : Dict String ℂ := Dict.filt (fun _ v => decide (v ≠ 0)) d

theorem applyFn_inv {fl : String → Option ℝ} {fn : Fn} {eft basis : String} {w w' : WC} {params : Option Params}
    (h : applyFn fl fn eft basis w params = .ok w') : ∃ d out, w.dict fl = .ok d ∧ fn d w.scale params = .ok out ∧
      w' = ⟨eft, basis, w.scale, .obj (dict2values (nz out)), .none, []⟩ := by
  unfold applyFn at h
  cases hd : w.dict fl with
  | error e => rw [hd] at h; cases h
  | ok d =>
    rw [hd] at h
    simp only [bind, Except.bind] at h
    cases ho : fn d w.scale params with
    | error e => rw [ho] at h; cases h
    | ok out =>
      rw [ho] at h
      refine ⟨d, out, rfl, ho, ?_⟩
      simp [newWC, pyFloat, setAttrs, pure, Except.pure, Dict.find, Dict.filt, bind, Except.bind] at h
      rw [← h]
      simp [nz, Dict.filt]

theorem keys_dict2values (d : Dict String ℂ) : Dict.keys (dict2values d) = Dict.keys d := by
  unfold dict2values; exact Dict.keys_mapVals _ _

/-- A function whose results have only names listed in the target basis gives objects that validate. -/
theorem applyFn_validates {fl : String → Option ℝ} {fn : Fn} {eft basis : String} {w w' : WC} {params : Option Params}
    (st : Store) {i b : Id} {l : List String} (he : st.lookup .eft [eft] = .ok i)
    (hb : st.lookup .basis [eft, basis] = .ok b) (hl : (readAllWcs st b).2 = .ok l)
    (hf : ∀ d out, fn d w.scale params = .ok out → ∀ k ∈ Dict.keys out, k ∈ l)
    (h : applyFn fl fn eft basis w params = .ok w') : validateWC st w' = .ok () := by
  obtain ⟨d, out, -, ho, rfl⟩ := applyFn_inv h
  refine ((C09_wc_validation st _).2.1).2 ⟨i, b, _, l, he, hb, rfl, hl, fun k hk => ?_⟩
  rw [keys_dict2values] at hk
  exact hf d out ho k ((Dict.keys_filt_sublist _ _).subset hk)

/-! ### C54 -/

/-- **C54**: matching to a theory with fewer quarks keeps exactly the coefficients of the target basis, with
unchanged values. It never fails, and parameters and scale play no role. -/
theorem C54_restriction (L : List String) (C : Dict String ℂ) (hC : Dict.WF C) (scale : ℝ) (par : Option Par) :
    ∃ D, restrictTo L C scale par = .ok D ∧ ∀ k, Dict.find D k = if k ∈ L then Dict.find C k else none := by
  refine ⟨_, rfl, fun k => ?_⟩
  rw [Dict.find_filt hC]
  by_cases h : k ∈ L
  · simp only [h, decide_true, if_true]
    cases Dict.find C k <;> simp
  · simp only [h, decide_false, if_false]
    cases Dict.find C k <;> simp

/-- **C54**: a chain of matchings keeps exactly the coefficients contained in all the bases passed; in particular
matching twice to the same basis is matching once. -/
theorem C54_chain (Ls : List (List String)) (C : Dict String ℂ) (hC : Dict.WF C) (scale : ℝ) (par : Option Par) :
    ∃ D, Ls.foldlM (fun D L => restrictTo L D scale par) C = .ok D ∧ Dict.WF D ∧
      (∀ k, Dict.find D k = if ∀ L ∈ Ls, k ∈ L then Dict.find C k else none) ∧
      ∀ L ∈ Ls, restrictTo L D scale par = .ok D := by
  induction Ls generalizing C with
  | nil => exact ⟨C, rfl, hC, by simp, by simp⟩
  | cons L Ls ih =>
    obtain ⟨D0, h0, hf0⟩ := C54_restriction L C hC scale par
    have hw0 : Dict.WF D0 := by
      obtain rfl : _ = D0 := Except.ok.inj h0
      exact Dict.WF_filt hC
    obtain ⟨D, h1, h2, h3, h4⟩ := ih D0 hw0
    have hfind : ∀ k, Dict.find D k = if ∀ L' ∈ L :: Ls, k ∈ L' then Dict.find C k else none := by
      intro k
      rw [h3 k, hf0 k]
      by_cases hL : k ∈ L
      · simp [hL]
      · simp [hL]
    refine ⟨D, ?_, h2, hfind, fun L' hL' => ?_⟩
    · rw [List.foldlM_cons, h0, ok_bind]; exact h1
    · rcases List.mem_cons.1 hL' with rfl | hm
      · refine congrArg Except.ok ?_
        refine List.filter_eq_self.2 fun p hp => ?_
        have hk : p.1 ∈ Dict.keys D := List.mem_map.2 ⟨p, hp, rfl⟩
        rw [← Dict.find_isSome_iff, hfind] at hk
        split at hk
        · next h => simpa using h L' (by simp)
        · simp at hk
      · exact h4 L' hm

/-- **C54**: the result, as an object, validates against the target basis. -/
theorem C54_validates (fl : String → Option ℝ) (st : Store) (eft basis : String) {i b : Id} {L : List String}
    (he : st.lookup .eft [eft] = .ok i) (hb : st.lookup .basis [eft, basis] = .ok b) (hl : (readAllWcs st b).2 = .ok L)
    (w w' : WC) (par : Option Par) (h : applyFn fl (restrictTo L) eft basis w par = .ok w') :
    validateWC st w' = .ok () := by
  refine applyFn_validates st he hb hl (fun d out ho k hk => ?_) h
  obtain rfl : _ = out := Except.ok.inj ho
  obtain ⟨v, -, hc⟩ := Dict.mem_keys_filt.1 hk
  exact of_decide_eq_true hc

/-- Two steps on a set of three coefficients. -/
example : [["C7_bs", "C9_bsee"], ["C9_bsee", "CT_us"]].foldlM (fun D L => restrictTo L D 5 none)
    [("C7_bs", 1), ("C9_bsee", 2), ("CVLL_bsbs", 3)] = .ok [("C9_bsee", 2)] := by
  simp [restrictTo, Dict.filt, bind, Except.bind, List.foldlM, pure, Except.pure]

/-! ### C50 -/

theorem matchAll_keys {ckm : ℝ → ℝ → ℝ → ℝ → M3} {L : List String} {default : Par} {d r : Dict String ℂ}
    {par : Option Par} (h : matchAll ckm L default d par = .ok r) : ∀ k ∈ Dict.keys r, k ∈ L := by
  intro k hk
  unfold matchAll at h
  dsimp only at h
  cases h1 : wcxf2arrays d with
  | error e => rw [h1] at h; cases h
  | ok A =>
    rw [h1, ok_bind] at h
    cases h2 : symmetrize A with
    | error e => rw [h2] at h; cases h
    | ok A2 =>
      rw [h2, ok_bind] at h
      cases h3 : matchAllArray (Dict.put (addMissing A2) "vT" (.num 246.22)) (withPar default par) with
      | error e => rw [h3] at h; cases h
      | ok CW =>
        rw [h3, ok_bind] at h
        cases h4 : rotateDown ckm CW (withPar default par) with
        | error e => rw [h4] at h; cases h
        | ok CW2 =>
          rw [h4, ok_bind] at h
          obtain rfl := Except.ok.inj h
          obtain ⟨v, -, hc⟩ := Dict.mem_keys_filt.1 hk
          exact of_decide_eq_true hc

/-- **C50**: every coefficient produced by matching from Warsaw up or Warsaw belongs to the JMS basis. -/
theorem C50_names (ckm : ℝ → ℝ → ℝ → ℝ → M3) (up L : List String) (default : Par) (d r : Dict String ℂ) (scale : ℝ)
    (par : Option Par) (h : warsawUpToJms ckm L default d scale par = .ok r ∨ warsawToJms ckm up L default d scale par = .ok r) :
    ∀ k ∈ Dict.keys r, k ∈ L := by
  rcases h with h | h
  · exact matchAll_keys h
  · unfold warsawToJms at h
    cases h1 : warsawToWarsawUp ckm up default d par with
    | error e => rw [h1] at h; cases h
    | ok D => rw [h1, ok_bind] at h; exact matchAll_keys h

/-- **C50**: the matched object validates, whatever the input, if the theory and the basis are registered and `L` is
the list of coefficients of the registered basis. -/
theorem C50_validates (fl : String → Option ℝ) (st : Store) {i b : Id} {L : List String}
    (he : st.lookup .eft ["WET"] = .ok i) (hb : st.lookup .basis ["WET", "JMS"] = .ok b) (hl : (readAllWcs st b).2 = .ok L)
    (ckm : ℝ → ℝ → ℝ → ℝ → M3) (up : List String) (default : Par) (w w' : WC) (par : Option Par)
    (h : applyFn fl (warsawUpToJms ckm L default) "WET" "JMS" w par = .ok w' ∨
      applyFn fl (warsawToJms ckm up L default) "WET" "JMS" w par = .ok w') :
    validateWC st w' = .ok () := by
  rcases h with h | h
  · exact applyFn_validates st he hb hl (fun d out ho => C50_names ckm up L default d out w.scale par (.inl ho)) h
  · exact applyFn_validates st he hb hl (fun d out ho => C50_names ckm up L default d out w.scale par (.inr ho)) h

/-! ### C49 -/

theorem sub_self_arr (a : Arr) : a.sub a = a.zeroed := by
  cases a <;> simp [Arr.sub, Arr.zeroed]

theorem rotateRule_zero (V : M3) (k : String) : rotateRule V k 0 = 0 := by
  unfold rotateRule
  split_ifs <;> funext i <;> simp

theorem rotEntry_zero (V : M3) (k : String) (a : Arr) : rotEntry V k a.zeroed = a.zeroed := by
  cases a with
  | ten T => exact congrArg Arr.ten (rotateRule_zero V k)
  | _ => rfl

theorem ent_zeroed (a : Arr) (i : List (Fin 3)) : a.zeroed.ent i = 0 := by
  cases a <;> simp only [Arr.zeroed, Arr.ent] <;> split <;> first | rfl | skip
  all_goals simp_all
  · next h => rw [← h]; rfl
  · next h => rw [← h]; rfl

theorem flatSrc_zero {d : Dict String ℂ} (hz : ∀ k, Dict.getD d k 0 = 0) : flatSrc d = (flatSrc d).zero := by
  have he : ∀ k, entries d k = fun _ => 0 := fun k => funext fun i => hz _
  have hf : ∀ k op, fullArr d k op = arrOf op fun _ => 0 := fun k op => by
    unfold fullArr; rw [he, complete_zero]
  have hG : ∀ k, preArr d k .boson = (preArr d k .boson).zeroed := by
    intro k
    unfold preArr
    split_ifs with h
    · rfl
    · rw [hf]; rfl
  unfold Src.zero flatSrc
  rw [Src.mk.injEq]
  refine ⟨funext fun k => ?_, funext fun k => ?_, by rw [hz]; rfl, hG _, hG _⟩
  · split
    · next x y _ => funext i; rw [hf]; rfl
    · rfl
  · split
    · next x y z w _ => funext i; rw [hf]; rfl
    · rfl

/-- All coefficients vanish. -/
def AllZero (d : Dict String ℂ) : Prop := ∀ p ∈ d, p.2 = 0

theorem AllZero.getD {d : Dict String ℂ} (h : AllZero d) (k : String) : Dict.getD d k 0 = 0 := by
  unfold Dict.getD
  cases hf : Dict.find d k with
  | none => rfl
  | some v => exact h _ (Dict.mem_of_find hf)

theorem AllZero.nz {d : Dict String ℂ} (h : AllZero d) : nz d = [] := by
  unfold Verif.nz Dict.filt
  rw [List.filter_eq_nil_iff]
  intro p hp
  simp [h p hp]

theorem matchAll_zero {ckm : ℝ → ℝ → ℝ → ℝ → M3} {L : List String} {default : Par} {d r : Dict String ℂ}
    {par : Option Par} (hw : Dict.WF d) (hd : ∀ key ∈ Dict.keys d, IsFlat key) (hz : ∀ k, Dict.getD d k 0 = 0)
    (h : matchAll ckm L default d par = .ok r) : AllZero r := by
  rw [matchAll_eq ckm L default d par hw hd, ← flatSrc_zero hz] at h
  cases h1 : ewOf (flatSrc d) (withPar default par) with
  | error e => rw [h1] at h; cases h
  | ok w =>
    simp only [h1, ok_bind] at h
    cases h2 : ckmOf ckm (withPar default par) with
    | error e => rw [h2] at h; cases h
    | ok V =>
      rw [h2, ok_bind] at h
      obtain rfl := Except.ok.inj h
      rintro ⟨key, v⟩ hp
      have hp := (List.mem_filter.1 hp).1
      have hf := Dict.find_of_mem (arrays2wcxf_wf _) hp
      obtain ⟨k, a, i, hk, -, -, rfl⟩ := flat_some (matched_wf _ _ _ _) (matched_plain _ _ _ _) hf
      obtain ⟨⟨k', f⟩, hm, e⟩ := List.mem_map.1 (Dict.mem_of_find hk)
      obtain ⟨rfl, rfl⟩ := Prod.mk.inj e
      dsimp only
      rw [← flatSrc_zero hz, sub_self_arr, rotEntry_zero, ent_zeroed]

theorem rotateWarsaw_zero {Uq : M3 → M3} {ckm : ℝ → ℝ → ℝ → ℝ → M3} {up : List String} {default : Par}
    {d D : Dict String ℂ} {par : Option Par} (hw : Dict.WF d) (hd : ∀ key ∈ Dict.keys d, IsFlat key)
    (hz : ∀ k, Dict.getD d k 0 = 0) (h : rotateWarsaw Uq ckm up default d par = .ok D) :
    Dict.WF D ∧ (∀ key ∈ Dict.keys D, IsFlat key) ∧ ∀ k, Dict.getD D k 0 = 0 := by
  cases hV : ckmOf ckm (withPar default par) with
  | error e =>
    exfalso
    unfold rotateWarsaw at h
    dsimp only at h
    cases h1 : wcxf2arrays d with
    | error e => rw [h1] at h; cases h
    | ok A =>
      rw [h1, ok_bind] at h
      cases h2 : symmetrize A with
      | error e => rw [h2] at h; cases h
      | ok A2 => rw [h2, ok_bind, hV] at h; cases h
  | ok V =>
    obtain ⟨D', h1, h2, h3, h4⟩ := rotateWarsaw_spec Uq ckm up default d par V hV hw hd
    obtain rfl : D' = D := Except.ok.inj (h1.symm.trans h)
    refine ⟨h2, fun key hk => (h3 key hk).2, fun key => ?_⟩
    by_cases hk : key ∈ Dict.keys D'
    · obtain ⟨k, op, i, he⟩ := (h3 key hk).2
      rw [h4 key k op i he]
      have : entries d k = fun _ => 0 := funext fun i => hz _
      rw [this, complete_zero, rotated_zero]
      split_ifs
      · obtain ⟨-, hi, -⟩ := he; exact fn_arrOf hi
      · rfl
    · unfold Dict.getD; rw [Dict.find_eq_none_iff.2 hk]; rfl

/-- **C49**: an all-zero coefficient set (in particular the empty one) in Warsaw up or Warsaw is matched to an all-zero
one, of which nothing is left when zeros are dropped. This holds for all parameters for which the matching returns. -/
theorem C49_zero (ckm : ℝ → ℝ → ℝ → ℝ → M3) (up L : List String) (default : Par) (d r : Dict String ℂ) (scale : ℝ)
    (par : Option Par) (hw : Dict.WF d) (hd : ∀ key ∈ Dict.keys d, IsFlat key) (hz : AllZero d)
    (h : warsawUpToJms ckm L default d scale par = .ok r ∨ warsawToJms ckm up L default d scale par = .ok r) :
    AllZero r ∧ nz r = [] := by
  have key : AllZero r := by
    rcases h with h | h
    · exact matchAll_zero hw hd hz.getD h
    · unfold warsawToJms at h
      cases h1 : warsawToWarsawUp ckm up default d par with
      | error e => rw [h1] at h; cases h
      | ok D =>
        rw [h1, ok_bind] at h
        obtain ⟨w1, w2, w3⟩ := rotateWarsaw_zero hw hd hz.getD h1
        exact matchAll_zero w1 w2 w3 h
  exact ⟨key, key.nz⟩

/-- **C49**: it does return whenever the weak mixing angle is real and the CKM parameters are given. -/
theorem C49_returns (ckm : ℝ → ℝ → ℝ → ℝ → M3) (L : List String) (default : Par) (d : Dict String ℂ) (scale : ℝ)
    (par : Option Par) (hw : Dict.WF d) (hd : ∀ key ∈ Dict.keys d, IsFlat key) (hz : AllZero d) {GF mW mZ alpha : ℝ}
    (hp : PhysicalEW (withPar default par) GF mW mZ alpha) {V : M3} (hV : ckmOf ckm (withPar default par) = .ok V) :
    ∃ r, warsawUpToJms ckm L default d scale par = .ok r ∧ nz r = [] := by
  obtain ⟨w, h1, -⟩ := ew_ok hp (noShift_zero (flatSrc d))
  have h2 := matchAll_eq ckm L default d par hw hd
  rw [flatSrc_zero hz.getD] at h2
  have hzz : ((flatSrc d).zero).zero = (flatSrc d).zero := by rw [← flatSrc_zero hz.getD, ← flatSrc_zero hz.getD]
  rw [hzz, h1, ok_bind, ok_bind, hV, ok_bind] at h2
  exact ⟨_, h2, (C49_zero ckm [] L default d _ scale par hw hd hz (.inl h2)).2⟩

/-- The default parameters, with two coefficients set to zero, in a basis that lists coefficients with a Standard Model
contribution. -/
example : ∃ r, warsawUpToJms (fun _ _ _ _ => exV) ["VddLL_1122", "VnueLL_1221", "G"] defaultPar
    [("phiq1_12", 0), ("G", 0)] 91 none = .ok r ∧ nz r = [] ∧ Dict.keys r ≠ [] := by
  have hfl : ∀ key ∈ Dict.keys ([("phiq1_12", 0), ("G", 0)] : Dict String ℂ), IsFlat key := by
    intro key hk
    simp only [Dict.keys, List.map_cons, List.map_nil, List.mem_cons, List.not_mem_nil, or_false] at hk
    rcases hk with rfl | rfl
    · exact ⟨"phiq1", .two (b .q) (n .q), [0, 1], by decide +kernel, rfl, by decide +kernel⟩
    · exact ⟨"G", .boson, [], by decide +kernel, rfl, rfl⟩
  have hw : Dict.WF ([("phiq1_12", 0), ("G", 0)] : Dict String ℂ) := by simp [Dict.WF, Dict.keys]
  have hz : AllZero [("phiq1_12", 0), ("G", 0)] := by
    intro p hp
    simp only [List.mem_cons, List.not_mem_nil, or_false] at hp
    rcases hp with rfl | rfl <;> rfl
  have hV : ckmOf (fun _ _ _ _ => exV) (withPar defaultPar none) = .ok exV := by
    simp [ckmOf, withPar, defaultPar, Dict.get, Dict.find, bind, Except.bind, pure, Except.pure]
  obtain ⟨w, h1, -⟩ := ew_ok default_physical (noShift_zero (flatSrc [("phiq1_12", 0), ("G", 0)]))
  have h2 := matchAll_eq (fun _ _ _ _ => exV) ["VddLL_1122", "VnueLL_1221", "G"] defaultPar _ none hw hfl
  rw [← flatSrc_zero hz.getD] at h1 h2
  rw [show withPar defaultPar none = defaultPar from rfl] at h2 hV
  rw [h1, ok_bind, ok_bind, hV, ok_bind] at h2
  refine ⟨_, h2, (C49_zero _ [] _ _ _ _ 91 none hw hfl hz (.inl h2)).2, ?_⟩
  intro he
  have hm : ("VddLL", fun C w => Arr.ten (C.tn "qq1" + C.tn "qq3" - w.kz 2 • epr_st (zdl C w) (zdl C w))) ∈ matchRules := by
    simp [matchRules, rulesLL]
  have hf := find_flat (matched_wf exV (flatSrc [("phiq1_12", 0), ("G", 0)]) w w) (matched_plain _ _ _ _)
    (find_matched _ _ _ _ hm) (i := [0, 0, 1, 1]) (by
      simp only [Arr.sub, rotEntry, Arr.idxs]; decide)
  have hk : "VddLL_1122" ∈ Dict.keys (Dict.filt (fun k _ => decide (k ∈ ["VddLL_1122", "VnueLL_1221", "G"]))
      (arrays2wcxf (matched exV (flatSrc [("phiq1_12", 0), ("G", 0)]) w w))) := by
    rw [Dict.mem_keys_filt]
    exact ⟨_, Dict.mem_of_find (k := "VddLL_1122") hf, by simp⟩
  rw [he] at hk
  simp at hk

end Verif
