import Verif.Spec.Targets
import Verif.Props.Flavour
import Verif.Props.Pipeline

/-! C95: the translators between WET bases return the coefficients of the target basis, so that the translated object is valid. -/

set_option autoImplicit false

namespace Verif

open Spec

/-- Names of the coefficients that a translator returns. -/
def WT.targets : WT → List String
  | .jmsFlavio | .bernFlavio => flavioTargets
  | .jmsBern => bernTargets
  | .flavioBern => bernFromFlavio
  | .jmsEos => eosTargets
  | .jmsFormFlavor => formFlavorTargets

/-! ### The names of the tables -/

theorem mem_words_of {a b : List String} {x y : String} (hx : x ∈ a) (hy : y ∈ b) : x ++ y ∈ words a b :=
  List.mem_flatMap.2 ⟨x, hx, List.mem_map.2 ⟨y, hy, rfl⟩⟩

theorem words_of_map {a a' b : List String} {y n : String} (h : n ∈ a.map (· ++ y)) (ha : ∀ x ∈ a, x ∈ a') (hy : y ∈ b) :
    n ∈ words a' b := by
  obtain ⟨x, hx, rfl⟩ := List.mem_map.1 h
  exact mem_words_of (ha x hx) hy

theorem perm_of_subset {l l' : List String} (hn : l.Nodup) (hs : ∀ n ∈ l, n ∈ l') (hl : l'.length ≤ l.length) : l.Perm l' :=
  (List.subperm_of_subset hn hs).perm_of_length_le hl

theorem keysFlavio_perm : keysFlavio.Perm flavioTargets := by
  refine perm_of_subset keysFlavio_nodup (fun n hn => ?_) (by decide +kernel)
  have hI : ∀ qq ∈ ["bs", "bd", "sd"], qq ++ qq ∈ ["bsbs", "bdbd", "sdsd"] := by decide +kernel
  have hL : ∀ l ∈ leptonPairs, indLepFl (nameLep "sb" l) ∈ words ["bs", "bd"] (words leptons leptons) ∧
      indLepFl (nameLep "db" l) ∈ words ["bs", "bd"] (words leptons leptons) := by decide +kernel
  have hN : ∀ l ∈ leptonPairs,
      indNuFl (nameLep "sb" l) ∈ words ["bs", "bd"] (words ["nu"] (words leptons (words ["nu"] leptons))) ∧
      indNuFl (nameLep "db" l) ∈ words ["bs", "bd"] (words ["nu"] (words leptons (words ["nu"] leptons))) ∧
      indNuFl (nameLep "ds" l) ∈ words ["sdnu"] (words leptons (words ["nu"] leptons)) := by decide +kernel
  unfold flavioTargets flavioNames flavioSdNuNu
  unfold keysFlavio at hn
  simp only [List.mem_append, List.mem_flatMap] at hn ⊢
  rcases hn with ((⟨qq, hq, hn⟩ | ⟨x, hx, hn⟩) | ⟨l, hl, (hn | hn) | ((hn | hn) | hn)⟩) | (hn | hn)
  · exact .inl (.inl (.inl (.inl (.inl (words_of_map hn (by simp) (hI qq hq))))))
  · exact .inl (.inl (.inl (.inl (.inr (words_of_map hn (by simp) (indII_mem x hx).2)))))
  · exact .inl (.inl (.inr (words_of_map hn (by simp) (hN l hl).1)))
  · exact .inl (.inl (.inl (.inr (words_of_map hn (by simp) (hL l hl).1))))
  · exact .inl (.inl (.inr (words_of_map hn (by simp) (hN l hl).2.1)))
  · exact .inl (.inl (.inl (.inr (words_of_map hn (by simp) (hL l hl).2))))
  · exact .inr (words_of_map hn (by simp) (hN l hl).2.2)
  · exact .inl (.inr (words_of_map hn (by simp) (by simp)))
  · exact .inl (.inr (words_of_map hn (by simp) (by simp)))

theorem indLep_words : ∀ l ∈ leptonPairs, indLep (nameLep "sb" l) ∈ words ["sb", "db"] (words leptons leptons) ∧
    indLep (nameLep "db" l) ∈ words ["sb", "db"] (words leptons leptons) ∧
    indLep (nameLep "ds" l) ∈ words ["sb", "db", "ds"] (words leptons leptons) := by decide +kernel

theorem indI_mem : ∀ qq ∈ ["sb", "db", "ds"], qq ++ qq ∈ ["sbsb", "dbdb", "dsds"] := by decide +kernel

theorem words_grow_left {a a' b : List String} {n : String} (h : n ∈ words a b) (ha : ∀ x ∈ a, x ∈ a') : n ∈ words a' b := by
  obtain ⟨x, hx, h⟩ := List.mem_flatMap.1 h
  obtain ⟨y, hy, rfl⟩ := List.mem_map.1 h
  exact mem_words_of (ha x hx) hy

theorem keysFlavioBern_perm : keysFlavioBern.Perm bernFromFlavio := by
  refine perm_of_subset keysFlavioBern_nodup (fun n hn => ?_) (by decide +kernel)
  unfold bernFromFlavio
  unfold keysFlavioBern at hn
  simp only [List.mem_append, List.mem_flatMap] at hn ⊢
  rcases hn with ((⟨qq, hq, hn⟩ | ⟨x, hx, hn⟩) | ⟨l, hl, hn | hn⟩) | (hn | hn)
  · exact .inl (.inl (.inl (words_of_map hn (by simp) (indI_mem qq hq))))
  · exact .inl (.inl (.inr (words_of_map hn (by simp) ((indII_mem x hx).1))))
  · exact .inl (.inr (words_of_map hn (by simp) (indLep_words l hl).1))
  · exact .inl (.inr (words_of_map hn (by simp) (indLep_words l hl).2.1))
  · exact .inr (words_of_map hn (by simp) (by simp))
  · exact .inr (words_of_map hn (by simp) (by simp))

theorem keysJmsBern_perm : keysJmsBern.Perm bernTargets := by
  refine perm_of_subset keysJmsBern_nodup (fun n hn => ?_) (by decide +kernel)
  have hV : ∀ x ∈ namesV, (x ∈ ["sbss", "dbdd", "dbds", "sbsd", "bsbd", "dsdd"] ∨ x ∈ ["dbbb", "sbbb", "dsss"]) ∧
        x ∈ ["sbss", "sbbb", "dbdd", "dbbb", "dsdd", "dsss", "dbds", "sbsd"] ∨
      ¬ (x ∈ ["sbss", "dbdd", "dbds", "sbsd", "bsbd", "dsdd"] ∨ x ∈ ["dbbb", "sbbb", "dsss"]) ∧
        x ∈ words ["sb", "db", "ds"] (words ["u", "c"] ["u", "c"]) ++ ["sbdd", "dbss", "dsbb"] := by decide +kernel
  have three : ∀ y ∈ ["sb", "db"], y ∈ ["sb", "db", "ds"] := by simp
  unfold bernTargets bernNames
  unfold keysJmsBern at hn
  simp only [List.mem_append, List.mem_flatMap] at hn ⊢
  rcases hn with (((⟨qq, hq, hn⟩ | ⟨x, hx, hn⟩) | ⟨x, hx, hn⟩) | ⟨l, hl, hn | hn | hn⟩) | (hn | hn | hn)
  · exact .inl (.inl (.inl (.inl (.inl (.inl (words_of_map hn (by simp) (indI_mem qq hq)))))))
  · exact .inl (.inl (.inl (.inl (.inl (.inr (words_of_map hn (by simp) ((indII_mem x hx).1)))))))
  · unfold keysV at hn
    rcases hV x hx with ⟨h, h'⟩ | ⟨h, h'⟩
    · refine .inr (words_of_map (a := ["1", "3", "5", "7", "9", "1p", "3p", "5p", "7p", "9p"]) ?_ (by simp) h')
      split_ifs at hn <;> first | exact hn | (exfalso; tauto)
    · have h1 := fun h1 => h (.inl h1)
      have h2 := fun h2 => h (.inr h2)
      rw [if_neg h1, if_neg h2] at hn
      split_ifs at hn
      · exact .inl (.inr (words_of_map hn (by simp) h'))
      · cases hn
  · exact .inl (.inl (.inl (.inl (.inr (words_of_map hn (by simp) (words_grow_left (indLep_words l hl).1 three))))))
  · exact .inl (.inl (.inl (.inl (.inr (words_of_map hn (by simp) (words_grow_left (indLep_words l hl).2.1 three))))))
  · exact .inl (.inl (.inl (.inl (.inr (words_of_map hn (by simp) (indLep_words l hl).2.2)))))
  · exact .inl (.inl (.inl (.inr (words_of_map hn (by simp) (by simp)))))
  · exact .inl (.inl (.inl (.inr (words_of_map hn (by simp) (by simp)))))
  · exact .inl (.inl (.inr (words_of_map hn (by simp) (by simp))))

theorem bkeys_bmarks {S : Type} (b : Block S) : bkeys b = (bmarks b).map Prod.fst := by
  simp [bkeys, bmarks]

theorem mEos_names : (∀ n ∈ mEos.map Prod.fst, n ∈ eosTargets) ∧ (∀ n ∈ eosTargets, n ∈ mEos.map Prod.fst) ∧ eosTargets.Nodup := by
  decide +kernel

theorem mFormFlavor_names : (∀ n ∈ mFormFlavor.map Prod.fst, n ∈ formFlavorTargets) ∧
    (∀ n ∈ formFlavorTargets, n ∈ mFormFlavor.map Prod.fst) ∧ formFlavorTargets.Nodup := by
  decide +kernel

theorem ofPairs_perm {S : Type} {b : Block S} {l : List String} (h : (∀ n ∈ (bmarks b).map Prod.fst, n ∈ l) ∧
    (∀ n ∈ l, n ∈ (bmarks b).map Prod.fst) ∧ l.Nodup) : (bkeys (Dict.ofPairs (ν := Ex S) b)).Perm l := by
  have e : bkeys (Dict.ofPairs (ν := Ex S) b) = Dict.keys (Dict.ofPairs (ν := Ex S) b) := rfl
  rw [e]
  refine (List.perm_ext_iff_of_nodup (Dict.WF_ofPairs _) h.2.2).2 fun n => ?_
  unfold Dict.ofPairs
  rw [Dict.mem_keys_upd]
  refine ⟨fun hn => h.1 n ?_, fun hn => .inr ?_⟩
  · rcases hn with hn | hn
    · cases hn
    · rw [← bkeys_bmarks]; exact hn
  · have := h.2.1 n hn
    rw [← bkeys_bmarks] at this
    exact this

theorem WT.targets_nodup (t : WT) : t.targets.Nodup := by
  cases t with
  | jmsFlavio => exact keysFlavio_perm.nodup keysFlavio_nodup
  | bernFlavio => exact keysFlavio_perm.nodup keysFlavio_nodup
  | jmsBern => exact keysJmsBern_perm.nodup keysJmsBern_nodup
  | flavioBern => exact keysFlavioBern_perm.nodup keysFlavioBern_nodup
  | jmsEos => exact mEos_names.2.2
  | jmsFormFlavor => exact mFormFlavor_names.2.2

/-! ### C95 -/

/-- **C95, names.** A translator between WET bases always returns the same coefficients, each of them once: those of the target
basis. -/
theorem C95_names {E : WEnv} {P : PEnv} {scale : ℝ} {par : Option Par} (hp : penv E scale par = .ok P) (hP : Admissible P)
    (t : WT) (ht : t.Ready E P) (C : Dict String ℂ) :
    ∃ d, t.run E C scale par = .ok d ∧ (Dict.keys d).Perm t.targets ∧ (Dict.keys d).Nodup := by
  suffices h : ∃ d, t.run E C scale par = .ok d ∧ (Dict.keys d).Perm t.targets by
    obtain ⟨d, h1, h2⟩ := h
    exact ⟨d, h1, h2, h2.nodup_iff.2 t.targets_nodup⟩
  cases t with
  | jmsFlavio =>
    exact ⟨_, jmsToFlavio_closed hp hP ht C, by rw [keys_bval, bkeys_blkJmsFlavio hP]; exact keysFlavio_perm⟩
  | jmsBern =>
    exact ⟨_, jmsToBern_closed hp hP ht C, by rw [keys_bval, bkeys_scaleBy, bkeys_blkJmsBern hP]; exact keysJmsBern_perm⟩
  | jmsEos =>
    exact ⟨_, jmsToEos_closed hp hP ht.2 ht.1 C, by
      rw [keys_bval]; exact ofPairs_perm (by rw [bmarks_blkEos hP ht.2]; exact mEos_names)⟩
  | jmsFormFlavor =>
    exact ⟨_, jmsToFormFlavor_closed hp hP ht C, by
      rw [keys_bval]; exact ofPairs_perm (by rw [bmarks_blkFormFlavor hP]; exact mFormFlavor_names)⟩
  | bernFlavio =>
    exact ⟨_, bernToFlavio_closed hp hP ht C, by rw [keys_bval, bkeys_divideBy, bkeys_blkBernFlavio hP]; exact keysFlavio_perm⟩
  | flavioBern =>
    exact ⟨_, flavioToBern_closed hp hP ht C, by
      rw [keys_bval, bkeys_scaleBy, bkeys_blkFlavioBern hP]; exact keysFlavioBern_perm⟩

/-- **C95, fewer flavours.** If the source has only fields from some set, so have the coefficients of the result that do not vanish
(other than the averages over neutrinos in FormFlavor). Names in EOS do not mention all fields. -/
theorem C95_active {E : WEnv} {P : PEnv} {scale : ℝ} {par : Option Par} (hp : penv E scale par = .ok P) (hP : Admissible P)
    (t : WT) (ht : t.Ready E P) (hE : t ≠ .jmsEos) (act : Kind × Fin 3 → Bool) (C : Dict String ℂ)
    (hC : ∀ n f, t.InFlavour n f → Dict.getD C n 0 ≠ 0 → f.Within act) :
    ∃ d, t.run E C scale par = .ok d ∧ (Dict.keys d).Nodup ∧
      ∀ n, Dict.getD d n 0 ≠ 0 → n ∈ t.targets ∧ (n ∈ t.averages ∨ ∃ f, t.outFlavour n = some f ∧ f.Within act) := by
  obtain ⟨d, hd, hperm, hnd⟩ := C95_names hp hP t ht C
  obtain ⟨S, B, v, fs, eqv, h1, h2, h3, h4⟩ := t.table hp hP ht
  have hal : t.Allowed (fun x => if act x then 1 else 0) := by
    cases t <;> trivial
  have e : d = bval (v C) B := Except.ok.inj (hd.symm.trans (h1 C))
  refine ⟨d, hd, hnd, fun n hn => ?_⟩
  have hk : n ∈ Dict.keys d := by
    by_contra hk
    apply hn
    unfold Dict.getD
    rw [Dict.find_eq_none_iff.2 hk]; rfl
  refine ⟨hperm.mem_iff.1 hk, ?_⟩
  subst e
  rcases consistent_named h2 hk with h | ⟨f, hf⟩
  · exact .inl h
  refine .inr ⟨f, hf, ?_⟩
  by_contra hw
  have cov := bval_covariant h2 (h3 _ hal) (h4 C C (fun x => if act x then 1 else 0) (fun n f hf => by
    rw [weight_indicator]
    by_cases h0 : Dict.getD C n 0 = 0
    · rw [h0, mul_zero]
    · rw [if_pos (hC n f hf h0), one_mul])) n f hf
  rw [weight_indicator, if_neg hw, zero_mul] at cov
  exact hn cov

/-- The coefficients of a result that can appear in the translated object. -/
theorem mem_nz {d : Dict String ℂ} (h : Dict.WF d) {n : String} (hn : n ∈ Dict.keys (nz d)) : Dict.getD d n 0 ≠ 0 := by
  obtain ⟨p, hp, rfl⟩ := List.mem_map.1 hn
  obtain ⟨h1, h2⟩ := List.mem_filter.1 hp
  unfold Dict.getD
  rw [Dict.find_of_mem h h1]
  simpa using h2

/-- The names that a translated object may have. With `act` everything, and always for EOS and FormFlavor, these are all names that
the translator returns. -/
def WT.Covers (t : WT) (act : Kind × Fin 3 → Bool) (C : Dict String ℂ) (l : List String) : Prop :=
  (∀ n ∈ t.targets, n ∈ l) ∨
  (t = .jmsFlavio ∨ t = .jmsBern ∨ t = .bernFlavio ∨ t = .flavioBern) ∧
    (∀ n f, t.InFlavour n f → Dict.getD C n 0 ≠ 0 → f.Within act) ∧
    ∀ n ∈ t.targets, ∀ f, t.outFlavour n = some f → f.Within act → n ∈ l

/-- **C95, objects.** In the installed package: an object translated by one of the WET translators (for five, four or three flavours)
passes the validation, provided that the EFT and the target basis are defined and that the basis lists the names of
the target, in a theory with fewer flavours those with active fields only (the source then having active fields only as well). -/
theorem C95_validates (E : REnv) (p : Par) (files : List Verif.Op) (hf : ∀ op ∈ files, IsDefinition op) (fl : String → Option ℝ)
    (w : WC) (par : Option Par) (toB : String) (t : WT) (hreg : ([w.eft, w.basis, toB], fun p => t.run (E.wet p)) ∈ translators E)
    (P : PEnv) (hp : penv (E.wet p) w.scale par = .ok P) (hP : Admissible P) (ht : t.Ready (E.wet p) P)
    (C : Dict String ℂ) (hd : w.dict fl = .ok C) (i b : Id) (l : List String)
    (he : (imported E p files).lookup .eft [w.eft] = .ok i) (hb : (imported E p files).lookup .basis [w.eft, toB] = .ok b)
    (hl : (readAllWcs (imported E p files) b).2 = .ok l) (act : Kind × Fin 3 → Bool) (hcov : t.Covers act C l) :
    ∃ d, w.translate fl (imported E p files) toB par = .ok ⟨w.eft, toB, w.scale, .obj (dict2values d), .none, []⟩ ∧ Dict.WF d ∧
      (∀ n ∈ Dict.keys d, n ∈ t.targets ∧ n ∈ l) ∧
      validateWC (imported E p files) ⟨w.eft, toB, w.scale, .obj (dict2values d), .none, []⟩ = .ok () := by
  have key : ∃ d, t.run (E.wet p) C w.scale par = .ok d ∧ Dict.WF d ∧ ∀ n, Dict.getD d n 0 ≠ 0 → n ∈ t.targets ∧ n ∈ l := by
    rcases hcov with h | ⟨h1, h2, h3⟩
    · obtain ⟨d, a1, a2, a3⟩ := C95_names hp hP t ht C
      refine ⟨d, a1, a3, fun n hn => ?_⟩
      have hk : n ∈ Dict.keys d := by
        by_contra hk
        apply hn
        unfold Dict.getD
        rw [Dict.find_eq_none_iff.2 hk]; rfl
      exact ⟨a2.mem_iff.1 hk, h n (a2.mem_iff.1 hk)⟩
    · have hE : t ≠ .jmsEos := by rcases h1 with rfl | rfl | rfl | rfl <;> simp
      obtain ⟨d, a1, a2, a3⟩ := C95_active hp hP t ht hE act C h2
      refine ⟨d, a1, a2, fun n hn => ?_⟩
      obtain ⟨b1, b2 | ⟨f, b2, b3⟩⟩ := a3 n hn
      · rcases h1 with rfl | rfl | rfl | rfl <;> cases b2
      · exact ⟨b1, h3 n b1 f b2 b3⟩
  obtain ⟨d, k1, k2, k3⟩ := key
  have htr : w.translate fl (imported E p files) toB par = .ok ⟨w.eft, toB, w.scale, .obj (dict2values (nz d)), .none, []⟩ := by
    rw [(C94_installed E p files hf fl w par).1 toB _ hreg, applyFn_eq, hd]
    change (t.run (E.wet p) C w.scale par).bind _ = _
    rw [k1]; rfl
  refine ⟨nz d, htr, Dict.WF_filt k2, fun n hn => k3 n (mem_nz k2 hn), ?_⟩
  refine ((C09_wc_validation _ _).2.1).2 ⟨i, b, _, l, he, hb, rfl, hl, fun n hn => ?_⟩
  rw [keys_dict2values] at hn
  exact (k3 n (mem_nz k2 hn)).2

/-- **C95, files.** `wcxf translate TO f --output g` and then `wcxf validate wc g` both end with status 0. The libraries are assumed to
keep the document that is written. -/
theorem C95_commands (E : REnv) (p : Par) (files : List Verif.Op) (hf : ∀ op ∈ files, IsDefinition op) (T : Env)
    (hT : T.st = imported E p files) (W : World) (f g text fmt : String) (htext : W.file f = some text) (hgf : g ≠ f) (w : WC)
    (hload : loadWC T.cd T.fl text = .ok w) (toB : String) (t : WT)
    (hreg : ([w.eft, w.basis, toB], fun p => t.run (E.wet p)) ∈ translators E)
    (P : PEnv) (hp : penv (E.wet p) w.scale none = .ok P) (hP : Admissible P) (ht : t.Ready (E.wet p) P)
    (C : Dict String ℂ) (hd : w.dict T.fl = .ok C) (i b : Id) (l : List String)
    (he : (imported E p files).lookup .eft [w.eft] = .ok i) (hb : (imported E p files).lookup .basis [w.eft, toB] = .ok b)
    (hl : (readAllWcs (imported E p files) b).2 = .ok l) (act : Kind × Fin 3 → Bool) (hcov : t.Covers act C l)
    (hfmt : IsJson fmt ∨ IsYaml fmt) (hcd : ∀ w1, w.translate T.fl T.st toB none = .ok w1 → Faithful T.cd fmt (wcDoc w1))
    (o o' : Bool) :
    (wcxfMain T W (.translate toB f (some g) fmt) o).2 = .status 0 ∧
    (wcxfMain T (W.after (wcxfMain T W (.translate toB f (some g) fmt) o).1) (.validate "wc" g) o').2 = .status 0 := by
  obtain ⟨d, h1, h2, h3, -⟩ := C95_validates E p files hf T.fl w none toB t hreg P hp hP ht C hd i b l he hb hl act hcov
  rw [← hT] at h1
  have hbody : (Cmd.translate toB f (some g) fmt).body T ((W.file f).getD "") =
      dump T.cd (WC.attrs ⟨w.eft, toB, w.scale, .obj (dict2values d), .none, []⟩) fmt "" := by
    simp only [Cmd.body, htext, Option.getD_some, hload, h1]
  obtain ⟨a1, ⟨tx, w', a2, a3, -⟩, -⟩ := command_writes T W (.translate toB f (some g) fmt) o f g fmt
    rfl (by simp [htext]) rfl hgf _ _ _ d h2 hbody hfmt (hcd _ h1)
  refine ⟨a1, ?_⟩
  obtain ⟨tx', w'', b1, b2, b3, b4, -, b5, -⟩ := C15_dump_load_wc T.cd T.fl _ ⟨by simp [Dict.WF, Dict.keys], by simp [Dict.keys]⟩
    fmt hfmt (hcd _ h1)
  have htx : tx = tx' := by
    rw [(C59_partial T W _ o f g rfl (by simp [htext]) rfl hgf).1, hbody, b1] at a2
    exact (Option.some.inj a2).symm
  subst htx
  have hval : validateWC T.st w'' = .ok () := by
    obtain ⟨vs', hvs⟩ := b5.obj_inv
    rw [hvs] at b5
    cases b5 with
    | obj hk _ =>
      rw [hT]
      refine ((C09_wc_validation _ _).2.1).2 ⟨i, b, vs', l, by rw [b3]; exact he, by rw [b3, b4]; exact hb, hvs, hl, fun n hn => ?_⟩
      have := hk.mem_iff.2 hn
      rw [keys_dict2values] at this
      exact (h3 n this).2
  generalize W.after (wcxfMain T W (.translate toB f (some g) fmt) o).1 = W' at a2
  have hv : validateCmd T "wc" tx = .ok true := by
    simp [validateCmd, b2, hval, bind, Except.bind, pure, Except.pure]
  simp [wcxfMain, Cmd.file, Cmd.output, Cmd.body, World.after, a2, hv, ending, Except.map]

/-! ### Cases -/

/-- Case of `C95_names`: every translator, on a set with one JMS, one Bern and one flavio name. -/
example (t : WT) (ht : t.Ready exEnv exP) :
    ∃ d, t.run exEnv [("VedLL_1223", 2), ("1dsds", 1), ("CVLL_sdsd", 3)] 160 none = .ok d ∧ (Dict.keys d).Perm t.targets ∧
      (Dict.keys d).Nodup := C95_names exEnv_ok exP_admissible t ht _

example : WT.jmsFlavio.Ready exEnv exP ∧ flavioTargets.length = 500 ∧ bernTargets.length = 1010 ∧ eosTargets.length = 40 ∧
    formFlavorTargets.length = 76 ∧ "C9p_bdmutau" ∈ flavioTargets ∧ "10psbuc" ∈ bernTargets := by
  refine ⟨allJms_listing, ?_⟩
  decide +kernel

/-- Only down and strange quarks. -/
def onlyDS : Kind × Fin 3 → Bool := fun x => decide (x = (.d, 0) ∨ x = (.d, 1))

def exThree : List String := ["CVLL_sdsd", "CSLL_sdsd", "CTLL_sdsd", "CVLR_sdsd", "CVRR_sdsd", "CSRR_sdsd", "CTRR_sdsd", "CSLR_sdsd"]

theorem exThree_covers : WT.bernFlavio.Covers onlyDS [("1dsds", 1)] exThree := by
  have h1 : ∀ n ∈ flavioTargets, ∀ f ∈ flavioFlavour n, f.Within onlyDS → n ∈ exThree := by decide +kernel
  have h2 : ∃ f, bernFlavour "1dsds" = some f ∧ f.Within onlyDS := by
    exact ⟨_, rfl, by decide +kernel⟩
  refine .inr ⟨by simp, fun n f hf hn => ?_, fun n hn f hf => h1 n hn f hf⟩
  obtain ⟨f', h3, h4⟩ := h2
  have : n = "1dsds" := by
    by_contra h
    exact hn (by simp [Dict.getD, Dict.find_cons, Ne.symm h])
  subst this
  have : f = f' := Option.some.inj (Eq.trans (Eq.symm hf) h3)
  exact this ▸ h4

noncomputable def exReg : REnv := ⟨exEnv.ckm, fun _ _ => 0, exEnv.rd, fun _ _ => bernNames⟩

def exFiles : List Verif.Op :=
  [.newEFT "WET-3" [("a", .null)] [], .newBasis "WET-3" "flavio" [("a", .obj (exThree.map fun n => (n, .null)))] []]

set_option maxRecDepth 20000 in
theorem exFiles_defined : (imported exReg defaultPar exFiles).lookup .eft ["WET-3"] = .ok 32 ∧
    (imported exReg defaultPar exFiles).lookup .basis ["WET-3", "flavio"] = .ok 33 ∧
    (readAllWcs (imported exReg defaultPar exFiles) 33).2 = .ok exThree := ⟨rfl, rfl, rfl⟩

/-- Case of `C95_validates` and `C95_commands`: three flavours, from Bern to flavio. -/
example (fl : String → Option ℝ) : ∃ (T : Env) (W : World) (w w1 : WC),
    T.st = imported exReg defaultPar exFiles ∧ W.file "f" = some "0" ∧ loadWC T.cd T.fl "0" = .ok w ∧ w.dict fl = .ok [("1dsds", 1)] ∧
    w.translate fl T.st "flavio" none = .ok w1 ∧ validateWC T.st w1 = .ok () ∧
    (wcxfMain T (W.after (wcxfMain T W (.translate "flavio" "f" (some "g") "json") false).1) (.validate "wc" "g") false).2 =
      .status 0 := by
  classical
  let w : WC := ⟨"WET-3", "Bern", 160, .obj (dict2values [("1dsds", 1)]), .none, []⟩
  have hfiles : ∀ op ∈ exFiles, IsDefinition op := by simp [exFiles, IsDefinition]
  have hp : penv (exReg.wet defaultPar) 160 none = .ok exP := exEnv_ok
  have hd : w.dict fl = .ok [("1dsds", 1)] := dict_result _ _ _ _ _
  have hreg : ([w.eft, w.basis, "flavio"], fun p => WT.bernFlavio.run (exReg.wet p)) ∈ translators exReg := by
    simp [translators, WT.run, w]
  obtain ⟨d, h1, -, -, h2⟩ := C95_validates exReg defaultPar exFiles hfiles fl w none "flavio" .bernFlavio hreg
    exP hp exP_admissible (fun k hk => hk) _ hd _ _ _ exFiles_defined.1 exFiles_defined.2.1 exFiles_defined.2.2 onlyDS exThree_covers
  let w1 : WC := ⟨"WET-3", "flavio", 160, .obj (dict2values d), .none, []⟩
  let cd : Codec := ⟨fun _ => "1", fun _ => "", fun t => some (if t = "0" then wcDoc w else wcDoc w1), fun _ => none⟩
  obtain ⟨T, hTc, hTf, hTs⟩ : ∃ T : Env, T.cd = cd ∧ T.fl = fl ∧ T.st = imported exReg defaultPar exFiles :=
    ⟨⟨cd, fl, fun _ => .ok true, _⟩, rfl, rfl, rfl⟩
  have hj : IsJson "json" := by simp [IsJson]
  have hjson : lower "json" = "json" := by decide +kernel
  have hny : ¬ IsYaml "json" := fun h => absurd ((lower_eq_iff _ _).2 h) (by rw [hjson]; decide)
  have l0 : loadWC cd fl "0" = .ok w := rfl
  have := (C95_commands exReg defaultPar exFiles hfiles T hTs ⟨fun q => if q = "f" then some "0" else none, fun _ => false⟩
    "f" "g" "0" "json" (by simp) (by decide) w (by rw [hTc, hTf]; exact l0) "flavio" .bernFlavio hreg exP hp exP_admissible
    (fun k hk => hk) _ (by rw [hTf]; exact hd) _ _ _ exFiles_defined.1 exFiles_defined.2.1 exFiles_defined.2.2 onlyDS exThree_covers
    (.inl hj) (fun w2 hw2 => by
      rw [hTf, hTs, h1] at hw2
      obtain rfl := Except.ok.inj hw2
      rw [hTc]
      exact ⟨fun _ => ⟨_, Same.refl _, .inl (by simp [cd, w1, w])⟩, fun hy => absurd hy hny⟩) false false).2
  exact ⟨T, _, w, w1, hTs, by simp, by rw [hTc, hTf]; exact l0, hd, by rw [hTs]; exact h1, by rw [hTs]; exact h2, this⟩

end Verif
