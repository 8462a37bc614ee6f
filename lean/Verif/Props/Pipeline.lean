import Verif.Model.Install
import Verif.Props.Cli
import Verif.Props.Serial
import Verif.Props.Numbers
import Verif.Props.SmeftTrans
import Verif.Props.MatchComp
import Verif.Props.FlavorKit

/-!
C94: what `translate` and `match` do in the installed package, on objects and on files.
-/

set_option autoImplicit false

namespace Verif

open Spec

/-- The definition of an EFT or of a basis. -/
def Spec.IsDefinition : Verif.Op → Prop
  | .newEFT .. => True
  | .newBasis .. => True
  | _ => False

/-! ### The registries after the import -/

theorem importOps_targets (E : REnv) (p : Par) : (importOps E p).map Op.target =
    ((matchers E).map fun x => some (Cls.matcher, x.1)) ++ (translators E).map fun x => some (Cls.translator, x.1) := rfl

theorem importOps_nodup (E : REnv) (p : Par) : ((importOps E p).map Op.target).Nodup := by
  simp only [importOps, matchers, translators, regMatcher, regTranslator, List.filterMap_cons, List.filterMap_nil,
    List.map_cons, List.map_nil, List.map_append, Op.target]
  decide +kernel

/-- An operation that defines something keeps a name without object free unless it defines this name. -/
theorem run_absent {c : Cls} (hc : c ≠ .base) {n : Name} : ∀ (ops : List Verif.Op) (st : Store), Good st →
    (∀ op ∈ ops, op.onFour) → (∀ op ∈ ops, ∃ c' n', op.target = some (c', n')) →
    (∀ op ∈ ops, op.target ≠ some (c, n)) → (∀ i, st.lookup c n ≠ .ok i) →
    ∀ i, (runLog st ops).1.lookup c n ≠ .ok i := by
  intro ops
  induction ops with
  | nil => intro st _ _ _ _ h; exact h
  | cons op ops ih =>
    intro st hg h4 hn ht h
    refine ih _ (good_exec hg op (h4 op (by simp))) (fun o ho => h4 o (by simp [ho])) (fun o ho => hn o (by simp [ho]))
      (fun o ho => ht o (by simp [ho])) fun i => ?_
    obtain ⟨c', n', hcn⟩ := hn op (by simp)
    have he := exec_instances_new st op hcn
    by_cases hcc : c = c'
    · subst hcc
      rw [lookup_of_register hg.noBase hc he, if_neg (by rintro rfl; exact ht op (by simp) hcn)]
      have := h i
      rw [hg.lookup_eq] at this
      cases hi : st.instances c with
      | none => simp
      | some d => rw [hi] at this; exact this
    · rw [lookup_of_register_other hg.noBase (target_ne_base hcn) he hcc]; exact h i

theorem importOps_new (E : REnv) (p : Par) (op : Verif.Op) (h : op ∈ importOps E p) :
    op.onFour ∧ ∃ c n, op.target = some (c, n) ∧ (c = .matcher ∧ n ∈ Dict.keys (matchers E) ∨
      c = .translator ∧ n ∈ Dict.keys (translators E)) := by
  have ht : op.target ∈ (importOps E p).map Op.target := List.mem_map_of_mem h
  rw [importOps_targets, List.mem_append, List.mem_map, List.mem_map] at ht
  have h4 : ∀ c n, op.target = some (c, n) → op.onFour := by
    intro c n hh; cases op <;> simp [Op.target, Op.onFour] at hh ⊢
  rcases ht with ⟨x, hx, he⟩ | ⟨x, hx, he⟩
  · exact ⟨h4 _ _ he.symm, _, _, he.symm, .inl ⟨rfl, List.mem_map_of_mem hx⟩⟩
  · exact ⟨h4 _ _ he.symm, _, _, he.symm, .inr ⟨rfl, List.mem_map_of_mem hx⟩⟩

theorem definition_new {op : Verif.Op} (h : IsDefinition op) :
    op.onFour ∧ ∃ c n, op.target = some (c, n) ∧ (c = .eft ∨ c = .basis) := by
  cases op <;> simp [IsDefinition, Op.target, Op.onFour] at h ⊢

/-- A registration during the import is found afterwards. -/
theorem imported_found (E : REnv) (p : Par) (files : List Verif.Op) (hf : ∀ op ∈ files, IsDefinition op) {op : Verif.Op}
    (hop : op ∈ importOps E p) {c : Cls} {n : Name} (ht : op.target = some (c, n)) {o : Obj}
    (ho : ∀ st, (exec st op).1.objs[st.objs.length]? = some o) (hb : ∀ b, o ≠ .basis b) :
    ∃ i, (imported E p files).lookup c n = .ok i ∧ (imported E p files).objs[i]? = some o := by
  have hc : c = .matcher ∨ c = .translator := by
    obtain ⟨-, c', n', h1, h2⟩ := importOps_new E p op hop
    rw [ht] at h1; cases h1
    tauto
  obtain ⟨pre, post, hs⟩ := List.append_of_mem hop
  have hnd := importOps_nodup E p
  have h4 : ∀ op' ∈ importOps E p, op'.onFour := fun op' h => (importOps_new E p op' h).1
  rw [hs] at h4 hnd
  have hpre : ∀ op' ∈ pre, op'.onFour := fun op' h => h4 op' (by simp [h])
  have hg := good_run pre hpre
  have hrun : imported E p files = (runLog (exec (run pre) op).1 (post ++ files)).1 := by
    unfold imported run
    rw [hs, List.append_assoc, runLog_append]; rfl
  have hl : (exec (run pre) op).1.lookup c n = .ok (run pre).objs.length := by
    rw [lookup_of_register hg.noBase (target_ne_base ht) (exec_instances_new _ op ht)]; simp
  have key : ∀ (ops' : List Verif.Op) (st : Store), Good st → (∀ op ∈ ops', op.onFour) → (∀ op ∈ ops', op.spares c n) →
      st.lookup c n = .ok (run pre).objs.length → st.objs[(run pre).objs.length]? = some o →
      (runLog st ops').1.lookup c n = .ok (run pre).objs.length ∧ (runLog st ops').1.objs[(run pre).objs.length]? = some o := by
    intro ops'
    induction ops' with
    | nil => intro st _ _ _ h1 h2; exact ⟨h1, h2⟩
    | cons op ops' ih =>
      intro st hg h4 hs h1 h2
      exact ih _ (good_exec hg op (h4 op (by simp))) (fun o ho => h4 o (by simp [ho]))
        (fun o ho => hs o (by simp [ho])) (exec_spares hg op (h4 op (by simp)) (hs op (by simp)) h1)
        (exec_keeps_obj op h2 hb)
  have hnew : ∀ op' : Verif.Op, (∃ x, op'.target = some x) → op'.target ≠ some (c, n) → op'.spares c n := by
    rintro op' ⟨x, hx⟩ hne
    refine ⟨hne, ?_, ?_⟩ <;> (rintro rfl; cases hx)
  refine ⟨(run pre).objs.length, ?_⟩
  rw [hrun]
  refine key _ _ (good_exec hg op (h4 op (by simp))) ?_ ?_ hl (ho _)
  · intro op' h
    rcases List.mem_append.1 h with h | h
    · exact h4 op' (by simp [h])
    · exact (definition_new (hf op' h)).1
  · intro op' h
    rcases List.mem_append.1 h with h | h
    · obtain ⟨-, c', n', h1, -⟩ := importOps_new E p op' (by rw [hs]; simp [h])
      refine hnew op' ⟨_, h1⟩ fun hh => ?_
      rw [List.map_append, List.map_cons] at hnd
      have := (List.nodup_cons.1 (List.nodup_append.1 hnd).2.1).1
      rw [ht, ← hh] at this
      exact this (List.mem_map_of_mem h)
    · obtain ⟨-, c', n', h1, h2⟩ := definition_new (hf op' h)
      refine hnew op' ⟨_, h1⟩ fun hh => ?_
      rw [h1] at hh; cases hh
      rcases hc with rfl | rfl <;> simp at h2

/-- A name not registered during the import is not found afterwards. -/
theorem imported_absent (E : REnv) (p : Par) (files : List Verif.Op) (hf : ∀ op ∈ files, IsDefinition op) {c : Cls} {n : Name}
    (h : c = .matcher ∧ n ∉ Dict.keys (matchers E) ∨ c = .translator ∧ n ∉ Dict.keys (translators E)) (i : Id) :
    (imported E p files).lookup c n ≠ .ok i := by
  refine run_absent (by rcases h with h | h <;> simp [h.1]) _ _ (good_run [] (by simp)) ?_ ?_ ?_ ?_ i
  · intro op ho
    rcases List.mem_append.1 ho with ho | ho
    · exact (importOps_new E p op ho).1
    · exact (definition_new (hf op ho)).1
  · intro op ho
    rcases List.mem_append.1 ho with ho | ho
    · obtain ⟨-, c', n', h1, -⟩ := importOps_new E p op ho; exact ⟨_, _, h1⟩
    · obtain ⟨-, c', n', h1, -⟩ := definition_new (hf op ho); exact ⟨_, _, h1⟩
  · intro op ho hh
    rcases List.mem_append.1 ho with ho | ho
    · obtain ⟨-, c', n', h1, h2⟩ := importOps_new E p op ho
      rw [h1] at hh; cases hh
      rcases h with ⟨rfl, h⟩ | ⟨rfl, h⟩ <;> simp [h] at h2
    · obtain ⟨-, c', n', h1, h2⟩ := definition_new (hf op ho)
      rw [h1] at hh; cases hh
      rcases h with ⟨rfl, h⟩ | ⟨rfl, h⟩ <;> simp at h2
  · intro j; simp [run, runLog, Store.lookup, Store.registry, Store.empty]

/-- **C94, which function is called.** In the installed package, translating an object applies the function that
translators/__init__.py defines for this EFT and these two bases, with the default parameters of the package, and raises
`ValueError` if there is none. The same for matching. -/
theorem C94_installed (E : REnv) (p : Par) (files : List Verif.Op) (hf : ∀ op ∈ files, IsDefinition op)
    (fl : String → Option ℝ) (w : WC) (par : Option Par) :
    (∀ toB f, ([w.eft, w.basis, toB], f) ∈ translators E →
      w.translate fl (imported E p files) toB par = applyFn fl (f p) w.eft toB w par) ∧
    (∀ toB, [w.eft, w.basis, toB] ∉ Dict.keys (translators E) →
      w.translate fl (imported E p files) toB par = .error (.valueError "No translator found")) ∧
    (∀ toE toB f, ([w.eft, w.basis, toE, toB], f) ∈ matchers E →
      w.matchTo fl (imported E p files) toE toB par = applyFn fl (f p) toE toB w par) ∧
    ∀ toE toB, [w.eft, w.basis, toE, toB] ∉ Dict.keys (matchers E) →
      w.matchTo fl (imported E p files) toE toB par = .error (.valueError "No matcher found") := by
  refine ⟨fun toB f h => ?_, fun toB h => ?_, fun toE toB f h => ?_, fun toE toB h => ?_⟩
  · have hop : Verif.Op.newTranslator w.eft w.basis toB (f p) ∈ importOps E p :=
      List.mem_append_right _ (List.mem_filterMap.2 ⟨_, h, rfl⟩)
    obtain ⟨i, h1, h2⟩ := imported_found E p files hf hop rfl (o := .translator ⟨w.eft, w.basis, toB, f p⟩)
      (fun st => by simp [exec, newTranslator]) (by simp)
    unfold WC.translate
    rw [h1]; dsimp only; rw [h2]
  · have := imported_absent E p files hf (c := .translator) (.inr ⟨rfl, h⟩)
    unfold WC.translate
    cases hl : (imported E p files).lookup .translator [w.eft, w.basis, toB] with
    | error e => rfl
    | ok i => exact absurd hl (this i)
  · have hop : Verif.Op.newMatcher w.eft w.basis toE toB (f p) ∈ importOps E p :=
      List.mem_append_left _ (List.mem_filterMap.2 ⟨_, h, rfl⟩)
    obtain ⟨i, h1, h2⟩ := imported_found E p files hf hop rfl (o := .matcher ⟨w.eft, w.basis, toE, toB, f p⟩)
      (fun st => by simp [exec, newMatcher]) (by simp)
    unfold WC.matchTo
    rw [h1]; dsimp only; rw [h2]
  · have := imported_absent E p files hf (c := .matcher) (.inl ⟨rfl, h⟩)
    unfold WC.matchTo
    cases hl : (imported E p files).lookup .matcher [w.eft, w.basis, toE, toB] with
    | error e => rfl
    | ok i => exact absurd hl (this i)

/-- **C94, the import.** Importing the package with any files of the submodule, whether or not a file stops the import by an
exception, leads to a state to which the other theorems of C94 apply. -/
theorem C94_import (E : REnv) (p : Par) (efts : List EFTFile) (bases children : List BasisFile) :
    ∃ files, (∀ op ∈ files, IsDefinition op) ∧ (importPkg (run (importOps E p)) efts bases children).1 = imported E p files := by
  have hB : ∀ (l : List BasisFile) (st : Store), ∃ files, (∀ op ∈ files, IsDefinition op) ∧
      (importBases st l).1 = (runLog st files).1 := by
    intro l
    induction l with
    | nil => exact fun st => ⟨[], by simp, rfl⟩
    | cons x l ih =>
      intro st
      rw [importBases]
      rcases hx : newBasis st x.eft x.basis x.sectors x.kw with ⟨st', e | i⟩
      · exact ⟨[.newBasis x.eft x.basis x.sectors x.kw], by simp [IsDefinition], by simp [runLog, exec, hx]⟩
      · obtain ⟨files, h1, h2⟩ := ih st'
        refine ⟨.newBasis x.eft x.basis x.sectors x.kw :: files, ?_, ?_⟩
        · intro op ho
          rcases List.mem_cons.1 ho with rfl | ho
          · trivial
          · exact h1 op ho
        · simp only [runLog, exec, hx]; exact h2
  have hE : ∀ (l : List EFTFile) (st : Store), ∃ files, (∀ op ∈ files, IsDefinition op) ∧
      (importEFTs st l).1 = (runLog st files).1 := by
    intro l
    induction l with
    | nil => exact fun st => ⟨[], by simp, rfl⟩
    | cons x l ih =>
      intro st
      rw [importEFTs]
      rcases hx : newEFT st x.eft x.sectors x.kw with ⟨st', e | i⟩
      · exact ⟨[.newEFT x.eft x.sectors x.kw], by simp [IsDefinition], by simp [runLog, exec, hx]⟩
      · obtain ⟨files, h1, h2⟩ := ih st'
        refine ⟨.newEFT x.eft x.sectors x.kw :: files, ?_, ?_⟩
        · intro op ho
          rcases List.mem_cons.1 ho with rfl | ho
          · trivial
          · exact h1 op ho
        · simp only [runLog, exec, hx]; exact h2
  obtain ⟨f1, h1, h2⟩ := hE efts (run (importOps E p))
  have hrun : ∀ l, imported E p l = (runLog (run (importOps E p)) l).1 := fun l => by
    unfold imported run; rw [runLog_append]
  unfold importPkg
  rcases hx : importEFTs (run (importOps E p)) efts with ⟨st', e | i⟩
  · exact ⟨f1, h1, by rw [hrun, ← h2, hx]⟩
  · obtain ⟨f2, h3, h4⟩ := hB (bases ++ children) st'
    refine ⟨f1 ++ f2, fun op ho => (List.mem_append.1 ho).elim (h1 op) (h3 op), ?_⟩
    rw [hrun, runLog_append, ← h2, hx]
    exact h4

/-! ### Objects -/

/-- **C94, objects.** In the installed package, translating an object from the Warsaw to the Warsaw up basis and back gives
an object of the same EFT, basis and scale with the same coefficients (absent ones being zero), for every parameters given
to the two calls: these are ignored. -/
theorem C94_round_trip (E : REnv) (p : Par) (files : List Verif.Op) (hf : ∀ op ∈ files, IsDefinition op)
    (fl : String → Option ℝ) (V : M3) (hV : ckmOf E.ckm p = .ok V) (hunit : V.conjTranspose * V = 1)
    (hwarsaw : ∀ key ∈ E.all "SMEFT" "Warsaw", ∃ k op i, IsEntry key k op i ∧ Indep op i)
    (hup : ∀ k op i, IsOp k op → Indep op i → label k i ∈ E.all "SMEFT" "Warsaw up")
    (w : WC) (he : w.eft = "SMEFT") (hb : w.basis = "Warsaw") (C : Dict String ℂ) (hd : w.dict fl = .ok C) (hw : Dict.WF C)
    (hC : ∀ key ∈ Dict.keys C, key ∈ E.all "SMEFT" "Warsaw")
    (hreal : ∀ key k op i, IsEntry key k op i → IsReal op i → (Dict.getD C key 0).im = 0) (par par' : Option Par) :
    ∃ w1 C1, w.translate fl (imported E p files) "Warsaw up" par = .ok w1 ∧
      w1 = ⟨"SMEFT", "Warsaw up", w.scale, .obj (dict2values C1), .none, []⟩ ∧ Dict.WF C1 ∧
      ∀ w1' : WC, w1'.eft = "SMEFT" → w1'.basis = "Warsaw up" → ∀ C1', w1'.dict fl = .ok C1' → Dict.WF C1' →
        (∀ key, Dict.find C1 key = Dict.find C1' key) →
        ∃ w2 C2, w1'.translate fl (imported E p files) "Warsaw" par' = .ok w2 ∧
          w2 = ⟨"SMEFT", "Warsaw", w1'.scale, .obj (dict2values C2), .none, []⟩ ∧ Dict.WF C2 ∧
          ∀ key, Dict.getD C2 key 0 = Dict.getD C key 0 := by
  have hflat : ∀ key ∈ Dict.keys C, IsFlat key := fun key hk => by
    obtain ⟨k, op, i, h, -⟩ := hwarsaw key (hC key hk)
    exact ⟨k, op, i, h⟩
  obtain ⟨C1, h1, -, hback⟩ := C34_round_trip E.ckm p none V hV hunit (E.all "SMEFT" "Warsaw") (E.all "SMEFT" "Warsaw up")
    hwarsaw hup C hw hC hreal
  obtain ⟨C1', h1', hw1, hk1, -⟩ := rotateWarsaw_spec (fun V => V.conjTranspose) E.ckm (E.all "SMEFT" "Warsaw up") p C none V hV hw hflat
  obtain rfl : C1' = C1 := Except.ok.inj (h1'.symm.trans h1)
  have hmem1 : ([w.eft, w.basis, "Warsaw up"], fun p => registeredSmeft (warsawToWarsawUp E.ckm (E.all "SMEFT" "Warsaw up") p)) ∈
      translators E := by rw [he, hb]; simp [translators]
  refine ⟨_, nz C1', ?_, rfl, Dict.WF_filt hw1, ?_⟩
  · rw [(C94_installed E p files hf fl w par).1 _ _ hmem1, applyFn_eq, hd]
    simp only [registeredSmeft, ok_bind, h1, he]
  · intro w1' he' hb' D hD hwD hfind
    have hmem2 : ([w1'.eft, w1'.basis, "Warsaw"], fun p => registeredSmeft (warsawUpToWarsaw E.ckm (E.all "SMEFT" "Warsaw") p)) ∈
        translators E := by rw [he', hb']; simp [translators]
    have hgD : ∀ key, Dict.getD D key 0 = Dict.getD C1' key 0 := fun key => by
      rw [← getD_nz hw1 key]; unfold Dict.getD; rw [hfind]
    have hflat1 : ∀ key ∈ Dict.keys D, IsFlat key := fun key hk => by
      refine (hk1 key ?_).2
      by_contra hn
      have : Dict.find (nz C1') key = none := Dict.find_eq_none_iff.2 fun hh => hn
        (by obtain ⟨v, hv, -⟩ := (Dict.mem_keys_filt (c := fun _ v => decide (v ≠ 0))).1 hh; exact List.mem_map_of_mem hv)
      rw [hfind] at this
      exact Dict.find_eq_none_iff.1 this hk
    obtain ⟨C2, h2, h3⟩ := hback D hwD hflat1 hgD
    obtain ⟨C2', h2', hw2, -, -⟩ := rotateWarsaw_spec (fun V => V) E.ckm (E.all "SMEFT" "Warsaw") p D none V hV hwD hflat1
    obtain rfl : C2' = C2 := Except.ok.inj (h2'.symm.trans h2)
    refine ⟨_, nz C2', ?_, rfl, Dict.WF_filt hw2, fun key => by rw [getD_nz hw2, h3]⟩
    rw [(C94_installed E p files hf fl w1' par').1 _ _ hmem2, applyFn_eq, hD]
    simp only [registeredSmeft, ok_bind, h2, he']

/-- **C94, matching.** In the installed package, matching a Warsaw object to the flavio, EOS or Bern basis gives the same
object or exception as matching it to the JMS basis and translating the result, with the same parameters. -/
theorem C94_match_then_translate (E : REnv) (p : Par) (files : List Verif.Op) (hf : ∀ op ∈ files, IsDefinition op)
    (fl : String → Option ℝ) (w : WC) (he : w.eft = "SMEFT") (hb : w.basis = "Warsaw") (par : Option Par) (B : String)
    (hB : B ∈ ["flavio", "EOS", "Bern"]) :
    w.matchTo fl (imported E p files) "WET" B par = (do
      let w1 ← w.matchTo fl (imported E p files) "WET" "JMS" par
      w1.translate fl (imported E p files) B par) := by
  have hI := fun w => C94_installed E p files hf fl w par
  have hj : ([w.eft, w.basis, "WET", "JMS"], fun p => warsawToJms E.ckm (E.all "SMEFT" "Warsaw up") (E.all "WET" "JMS") p) ∈
      matchers E := by rw [he, hb]; simp [matchers]
  have key : ∀ t : WT, ([w.eft, w.basis, "WET", B],
      fun p => warsawToVia (t.run (E.wet p)) E.ckm (E.all "SMEFT" "Warsaw up") (E.all "WET" "JMS") p) ∈ matchers E →
      (["WET", "JMS", B], fun p => t.run (E.wet p)) ∈ translators E → w.matchTo fl (imported E p files) "WET" B par = (do
      let w1 ← w.matchTo fl (imported E p files) "WET" "JMS" par
      w1.translate fl (imported E p files) B par) := by
    intro t hm ht
    rw [(hI w).2.2.1 _ _ _ hm, (hI w).2.2.1 _ _ _ hj, C52_commutes]
    cases h1 : applyFn fl (warsawToJms E.ckm (E.all "SMEFT" "Warsaw up") (E.all "WET" "JMS") p) "WET" "JMS" w par with
    | error e => rfl
    | ok w1 =>
      simp only [ok_bind]
      obtain ⟨d, out, -, -, h⟩ := applyFn_inv h1
      have h1 : w1.eft = "WET" := by rw [h]
      have h2 : w1.basis = "JMS" := by rw [h]
      have := (hI w1).1 B (fun p => t.run (E.wet p)) (by rw [h1, h2]; exact ht)
      rw [this, h1]
  simp only [List.mem_cons, List.not_mem_nil, or_false] at hB
  rcases hB with rfl | rfl | rfl
  · exact key .jmsFlavio (by rw [he, hb]; simp [matchers, WT.run]) (by simp [translators, WT.run])
  · exact key .jmsEos (by rw [he, hb]; simp [matchers, WT.run]) (by simp [translators, WT.run])
  · exact key .jmsBern (by rw [he, hb]; simp [matchers, WT.run]) (by simp [translators, WT.run])

theorem fkToJmsStep_wf {p : WPar} {s s' : Option ℝ × Dict String ℂ} {kv : String × ℂ} (hw : Dict.WF s.2)
    (h : fkToJmsStep p s kv = .ok s') : Dict.WF s'.2 := by
  unfold fkToJmsStep at h
  split at h
  · cases h; exact Dict.WF_put hw _ _
  · split at h
    · cases h; exact Dict.WF_put hw _ _
    · split at h
      · cases h; exact Dict.WF_put hw _ _
      · split at h
        · cases h; exact Dict.WF_put hw _ _
        · split at h
          · dsimp only at h
            cases h1 : sqrtE (4 * Real.pi * p.alpha_e) with
            | error e => rw [h1] at h; cases h
            | ok e =>
              cases h2 : chAt (kv.1.toList.drop 4).reverse 1 with
              | error e => rw [h1, ok_bind, h2] at h; cases h
              | ok c =>
                cases h3 : boundOr (leptonMass p c s.1) with
                | error e => rw [h1, ok_bind, h2, ok_bind, h3] at h; cases h
                | ok m => rw [h1, ok_bind, h2, ok_bind, h3, ok_bind] at h; cases h; exact Dict.WF_put hw _ _
          · cases h

theorem fkToJms_wf {E : WEnv} {C D : Dict String ℂ} {scale : ℝ} {par : Option Par} (h : fkToJms E C scale par = .ok D) :
    Dict.WF D := by
  unfold fkToJms at h
  cases hp : getParameters E scale par with
  | error e => rw [hp] at h; cases h
  | ok p =>
    rw [hp, ok_bind] at h
    have key : ∀ (C : Dict String ℂ) (s s' : Option ℝ × Dict String ℂ), Dict.WF s.2 →
        C.foldlM (fkToJmsStep p) s = .ok s' → Dict.WF s'.2 := by
      intro C
      induction C with
      | nil => intro s s' hw h; cases h; exact hw
      | cons kv C ih =>
        intro s s' hw h
        rw [List.foldlM_cons] at h
        cases hs : fkToJmsStep p s kv with
        | error e => rw [hs] at h; cases h
        | ok s1 => rw [hs, ok_bind] at h; exact ih s1 s' (fkToJmsStep_wf hw hs) h
    cases hs : List.foldlM (fkToJmsStep p) ((none, []) : Option ℝ × Dict String ℂ) C with
    | error e => rw [hs] at h; cases h
    | ok s => rw [hs, ok_bind] at h; cases h; exact key C _ _ (by simp [Dict.WF, Dict.keys]) hs

/-- **C94, FlavorKit.** In the installed package, translating a FlavorKit object to flavio gives the same object or exception
as translating it to JMS and then to flavio, with the same parameters. -/
theorem C94_flavorkit_via_jms (E : REnv) (p : Par) (files : List Verif.Op) (hf : ∀ op ∈ files, IsDefinition op)
    (fl : String → Option ℝ) (w : WC) (he : w.eft = "WET") (hb : w.basis = "FlavorKit") (par : Option Par) :
    w.translate fl (imported E p files) "flavio" par = (do
      let w1 ← w.translate fl (imported E p files) "JMS" par
      w1.translate fl (imported E p files) "flavio" par) := by
  have hI := fun w => C94_installed E p files hf fl w par
  rw [(hI w).1 "flavio" (fun p => fkToFlavio (E.wet p)) (by rw [he, hb]; simp [translators]),
    (hI w).1 "JMS" (fun p => fkToJms (E.wet p)) (by rw [he, hb]; simp [translators]), he,
    applyFn_comp fl (fkToJms (E.wet p)) (jmsToFlavio (E.wet p)) _ "WET" "JMS" "WET" "flavio" w par]
  · cases h1 : applyFn fl (fkToJms (E.wet p)) "WET" "JMS" w par with
    | error e => rfl
    | ok w1 =>
      simp only [ok_bind]
      obtain ⟨d, out, -, -, h⟩ := applyFn_inv h1
      have h1 : w1.eft = "WET" := by rw [h]
      have h2 : w1.basis = "JMS" := by rw [h]
      rw [(hI w1).1 "flavio" (fun p => jmsToFlavio (E.wet p)) (by rw [h1, h2]; simp [translators]), h1]
  · intro d _
    unfold fkToFlavio
    cases h1 : fkToJms (E.wet p) d w.scale par with
    | error e => rfl
    | ok D =>
      simp only [ok_bind]
      have := C44_absent_zero (E.wet p) .jmsFlavio (nz D) D w.scale par fun k => getD_nz (fkToJms_wf h1) k
      simp only [WT.run] at this
      rw [this]

/-! ### Files -/

/-- A command that writes an object to another file than its input: it ends with status 0, the file loads as an object
with the same fields and coefficients, and no other file changes. -/
theorem command_writes (E : Env) (W : World) (c : Cmd) (outFirst : Bool) (f g fmt : String) (hf : c.file = some f)
    (hr : (W.file f).isSome) (ho : c.output = some g) (hne : g ≠ f) (e b : String) (sc : ℝ) (C : Dict String ℂ) (hC : Dict.WF C)
    (hbody : c.body E ((W.file f).getD "") = dump E.cd (WC.attrs ⟨e, b, sc, .obj (dict2values C), .none, []⟩) fmt "")
    (hfmt : IsJson fmt ∨ IsYaml fmt) (hcd : Faithful E.cd fmt (wcDoc ⟨e, b, sc, .obj (dict2values C), .none, []⟩)) :
    (wcxfMain E W c outFirst).2 = .status 0 ∧
    (∃ t w', (W.after (wcxfMain E W c outFirst).1).file g = some t ∧ loadWC E.cd E.fl t = .ok w' ∧ w'.eft = e ∧ w'.basis = b ∧
      w'.scale = sc ∧ ∃ C', w'.dict E.fl = .ok C' ∧ Dict.WF C' ∧ ∀ k, Dict.find C k = Dict.find C' k) ∧
    ∀ q, q ≠ g → (W.after (wcxfMain E W c outFirst).1).file q = W.file q := by
  have hconv := (C11_numbers_round_trip E.fl C).1
  have hkeys := (convertValues_keys hconv).1
  obtain ⟨t, w', ht, hl, h1, h2, h3, -, -, h4⟩ := C15_dump_load_wc E.cd E.fl _ ⟨by simp [Dict.WF, Dict.keys], by simp [Dict.keys]⟩ fmt hfmt hcd
  obtain ⟨C', h5, h6, h7⟩ := h4 _ _ rfl (by unfold Dict.WF; rw [← hkeys]; exact hC) hconv
  rw [ht] at hbody
  refine ⟨?_, ⟨t, w', ?_, hl, h1, h2, h3, C', h5, h6.nodup_iff.1 hC, h7⟩, ?_⟩
  · have hw : (W.after [.truncate g]).file f = W.file f := after_other W _ f (by simpa [Action.path] using hne)
    unfold wcxfMain
    rw [hf, ho]
    dsimp only [Option.map_some, Option.toList_some]
    rw [hw, hbody, if_pos (by split <;> exact hr)]
    rfl
  · rw [(C59_partial E W c outFirst f g hf hr ho hne).1, hbody]
  · intro q hq
    have := (C58_only_output E W (wcxfMain E W c outFirst).1.length).1 c outFirst q (by rw [ho]; simpa using hq.symm)
    rwa [List.take_length] at this

/-- **C94, files.** With the installed package: `wcxf translate "Warsaw up" f --output g` and then
`wcxf translate Warsaw g --output h` both end with status 0, and `h` then is a file with the EFT, basis, scale and
coefficients of `f` (absent ones being zero); `h` may be `f`. Files other than `g` and `h` are unchanged. The libraries are
assumed to keep the two documents that are written. -/
theorem C94_commands (E : REnv) (p : Par) (files : List Verif.Op) (hf : ∀ op ∈ files, IsDefinition op)
    (V : M3) (hV : ckmOf E.ckm p = .ok V) (hunit : V.conjTranspose * V = 1)
    (hwarsaw : ∀ key ∈ E.all "SMEFT" "Warsaw", ∃ k op i, IsEntry key k op i ∧ Indep op i)
    (hup : ∀ k op i, IsOp k op → Indep op i → label k i ∈ E.all "SMEFT" "Warsaw up")
    (T : Env) (hT : T.st = imported E p files) (W : World) (f g h text : String) (htext : W.file f = some text) (hgf : g ≠ f)
    (hhg : h ≠ g) (w : WC) (hload : loadWC T.cd T.fl text = .ok w) (he : w.eft = "SMEFT") (hb : w.basis = "Warsaw")
    (C : Dict String ℂ) (hd : w.dict T.fl = .ok C) (hw : Dict.WF C) (hC : ∀ key ∈ Dict.keys C, key ∈ E.all "SMEFT" "Warsaw")
    (hreal : ∀ key k op i, IsEntry key k op i → IsReal op i → (Dict.getD C key 0).im = 0) (fmt fmt' : String)
    (hfmt : IsJson fmt ∨ IsYaml fmt) (hfmt' : IsJson fmt' ∨ IsYaml fmt')
    (hcd : ∀ w1, w.translate T.fl T.st "Warsaw up" none = .ok w1 → Faithful T.cd fmt (wcDoc w1)) (o1 o2 : Bool)
    (W1 : World) (hW1 : W1 = W.after (wcxfMain T W (.translate "Warsaw up" f (some g) fmt) o1).1)
    (hcd' : ∀ t w1 w2, W1.file g = some t → loadWC T.cd T.fl t = .ok w1 → w1.translate T.fl T.st "Warsaw" none = .ok w2 →
      Faithful T.cd fmt' (wcDoc w2)) (W2 : World) (hW2 : W2 = W1.after (wcxfMain T W1 (.translate "Warsaw" g (some h) fmt') o2).1) :
    (wcxfMain T W (.translate "Warsaw up" f (some g) fmt) o1).2 = .status 0 ∧
    (wcxfMain T W1 (.translate "Warsaw" g (some h) fmt') o2).2 = .status 0 ∧
    (∃ t w2 C2, W2.file h = some t ∧ loadWC T.cd T.fl t = .ok w2 ∧ w2.eft = "SMEFT" ∧ w2.basis = "Warsaw" ∧
      w2.scale = w.scale ∧ w2.dict T.fl = .ok C2 ∧ ∀ key, Dict.getD C2 key 0 = Dict.getD C key 0) ∧
    ∀ q, q ≠ g → q ≠ h → W2.file q = W.file q := by
  obtain ⟨w1, C1, h1, hw1, hwf1, hback⟩ := C94_round_trip E p files hf T.fl V hV hunit hwarsaw hup w he hb C hd hw hC hreal none none
  rw [← hT] at h1 hback
  have hcd1 := hcd w1 h1
  subst hw1
  obtain ⟨a1, ⟨t, w', a2, a3, a4, a5, a6, C1', a7, a8, a9⟩, a10⟩ := command_writes T W (.translate "Warsaw up" f (some g) fmt) o1 f g fmt
    rfl (by simp [htext]) rfl hgf _ _ _ C1 hwf1
    (by simp only [Cmd.body, htext, Option.getD_some, hload, h1]) hfmt hcd1
  rw [← hW1] at a2 a10
  obtain ⟨w2, C2, h2, hw2, hwf2, hval⟩ := hback w' a4 a5 C1' a7 a8 a9
  have hcd2 := hcd' t w' w2 a2 a3 h2
  subst hw2
  obtain ⟨b1, ⟨t2, w'', b2, b3, b4, b5, b6, C2', b7, b8, b9⟩, b10⟩ := command_writes T W1 (.translate "Warsaw" g (some h) fmt') o2 g h fmt'
    rfl (by simp [a2]) rfl hhg _ _ _ C2 hwf2
    (by simp only [Cmd.body, a2, Option.getD_some, a3, h2]) hfmt' hcd2
  rw [← hW2] at b2 b10
  refine ⟨a1, b1, ⟨t2, w'', C2', b2, b3, b4, b5, by rw [b6, a6], b7, fun key => ?_⟩, fun q hq hq' => by rw [b10 q hq', a10 q hq]⟩
  rw [← hval key]; unfold Dict.getD; rw [b9]

/-- How a command with an output file other than the input file ends. -/
theorem command_ending (E : Env) (W : World) (c : Cmd) (outFirst : Bool) (f g : String) (hf : c.file = some f)
    (hr : (W.file f).isSome) (ho : c.output = some g) (hne : g ≠ f) :
    (wcxfMain E W c outFirst).2 = ending (c.body E ((W.file f).getD "")).2 := by
  have hw : (W.after [.truncate g]).file f = W.file f := after_other W _ f (by simpa [Action.path] using hne)
  unfold wcxfMain
  rw [hf, ho]
  dsimp only [Option.map_some, Option.toList_some]
  rw [hw, if_pos (by split <;> exact hr)]

/-- **C94, matching of files.** With the installed package: if matching the Warsaw file `f` to the JMS basis succeeds and
the libraries keep the result, then `wcxf match WET JMS f --output g` and `wcxf translate B g --output h` leave exactly the
same text in `h`, and end the same way, as `wcxf match WET B f --output h` alone. -/
theorem C94_match_files (E : REnv) (p : Par) (files : List Verif.Op) (hf : ∀ op ∈ files, IsDefinition op)
    (T : Env) (hT : T.st = imported E p files) (W : World) (f g h text : String) (htext : W.file f = some text) (hgf : g ≠ f)
    (hhg : h ≠ g) (hhf : h ≠ f) (w w1 : WC) (hload : loadWC T.cd T.fl text = .ok w) (he : w.eft = "SMEFT")
    (hb : w.basis = "Warsaw") (hm : w.matchTo T.fl T.st "WET" "JMS" none = .ok w1) (fmt fmt' : String)
    (hfmt : IsJson fmt ∨ IsYaml fmt) (hcd : Faithful T.cd fmt (wcDoc w1)) (B : String) (hB : B ∈ ["flavio", "EOS", "Bern"])
    (o1 o2 o3 : Bool) (W1 : World) (hW1 : W1 = W.after (wcxfMain T W (.matchTo "WET" "JMS" f (some g) fmt) o1).1) :
    (wcxfMain T W (.matchTo "WET" "JMS" f (some g) fmt) o1).2 = .status 0 ∧
    (W1.after (wcxfMain T W1 (.translate B g (some h) fmt') o2).1).file h =
      (W.after (wcxfMain T W (.matchTo "WET" B f (some h) fmt') o3).1).file h ∧
    (wcxfMain T W1 (.translate B g (some h) fmt') o2).2 = (wcxfMain T W (.matchTo "WET" B f (some h) fmt') o3).2 := by
  have hdir := C94_match_then_translate E p files hf T.fl w he hb none B hB
  rw [← hT, hm, ok_bind] at hdir
  have hj : ([w.eft, w.basis, "WET", "JMS"], fun p => warsawToJms E.ckm (E.all "SMEFT" "Warsaw up") (E.all "WET" "JMS") p) ∈
      matchers E := by rw [he, hb]; simp [matchers]
  have hm' := hm
  rw [hT, (C94_installed E p files hf T.fl w none).2.2.1 _ _ _ hj] at hm'
  obtain ⟨d, out, -, hout, rfl⟩ := applyFn_inv hm'
  have hwf : Dict.WF (nz out) := by
    refine Dict.WF_filt ?_
    unfold warsawToJms at hout
    cases hu : warsawToWarsawUp E.ckm (E.all "SMEFT" "Warsaw up") p d none with
    | error e => rw [hu] at hout; cases hout
    | ok D => rw [hu] at hout; exact matchAll_wf hout
  obtain ⟨a1, ⟨t, w', a2, a3, a4, a5, a6, C1', a7, a8, a9⟩, a10⟩ := command_writes T W (.matchTo "WET" "JMS" f (some g) fmt) o1 f g fmt
    rfl (by simp [htext]) rfl hgf _ _ _ (nz out) hwf
    (by simp only [Cmd.body, htext, Option.getD_some, hload, hm]) hfmt hcd
  rw [← hW1] at a2 a10
  -- the loaded object is translated like the object that was written
  have htr : w'.translate T.fl T.st B none =
      WC.translate T.fl T.st ⟨"WET", "JMS", w.scale, .obj (dict2values (nz out)), .none, []⟩ B none := by
    have key : ∀ t : WT, (["WET", "JMS", B], fun p => t.run (E.wet p)) ∈ translators E →
        w'.translate T.fl T.st B none =
          WC.translate T.fl T.st ⟨"WET", "JMS", w.scale, .obj (dict2values (nz out)), .none, []⟩ B none := by
      intro t ht
      rw [hT, (C94_installed E p files hf T.fl w' none).1 B _ (by rw [a4, a5]; exact ht),
        (C94_installed E p files hf T.fl _ none).1 B _ ht, applyFn_eq, applyFn_eq, a7, a4, a6,
        WC.dict_of_noCache rfl, (C11_numbers_round_trip T.fl (nz out)).1]
      simp only [ok_bind]
      rw [C44_absent_zero (E.wet p) t C1' (nz out) w.scale none fun k => by unfold Dict.getD; rw [a9]]
    simp only [List.mem_cons, List.not_mem_nil, or_false] at hB
    rcases hB with rfl | rfl | rfl
    · exact key .jmsFlavio (by simp [translators, WT.run])
    · exact key .jmsEos (by simp [translators, WT.run])
    · exact key .jmsBern (by simp [translators, WT.run])
  have hbody : (Cmd.translate B g (some h) fmt').body T ((W1.file g).getD "") =
      (Cmd.matchTo "WET" B f (some h) fmt').body T ((W.file f).getD "") := by
    simp only [Cmd.body, a2, htext, Option.getD_some, a3, hload, htr, hdir]
  refine ⟨a1, ?_, ?_⟩
  · rw [(C59_partial T W1 _ o2 g h rfl (by simp [a2]) rfl hhg).1, (C59_partial T W _ o3 f h rfl (by simp [htext]) rfl hhf).1, hbody]
  · rw [command_ending T W1 _ o2 g h rfl (by simp [a2]) rfl hhg, command_ending T W _ o3 f h rfl (by simp [htext]) rfl hhf, hbody]

/-! ### Cases -/

/-- An environment in which the Warsaw basis has the single coefficient `phiq1_12`. -/
noncomputable def exInst : REnv :=
  ⟨fun _ _ _ _ => exV, fun _ _ => 0, exEnv.rd, fun _ b => if b = "Warsaw" then ["phiq1_12"] else if b = "JMS" then dipL else allFlat⟩

/-- Case of `C94_round_trip` and `C94_commands`: a file with one off-diagonal coefficient is translated and translated
back, the second command overwriting the first file. -/
example (fl : String → Option ℝ) : ∃ (T : Env) (W : World) (w w2 : WC) (C2 : Dict String ℂ),
    T.st = imported exInst defaultPar [.newEFT "SMEFT" [] []] ∧ W.file "f" = some "0" ∧ loadWC T.cd T.fl "0" = .ok w ∧
    w.dict T.fl = .ok [("phiq1_12", 1)] ∧
    let W1 := W.after (wcxfMain T W (.translate "Warsaw up" "f" (some "g") "json") false).1
    let W2 := W1.after (wcxfMain T W1 (.translate "Warsaw" "g" (some "f") "json") true).1
    W1.file "g" = some "1" ∧ W2.file "f" = some "2" ∧ loadWC T.cd T.fl "2" = .ok w2 ∧ w2.dict T.fl = .ok C2 ∧
      ∀ key, Dict.getD C2 key 0 = Dict.getD [("phiq1_12", (1 : ℂ))] key 0 := by
  classical
  have hfiles : ∀ op ∈ [Verif.Op.newEFT "SMEFT" [] []], IsDefinition op := by simp [IsDefinition]
  have hop : IsOp "phiq1" (.two (b .q) (n .q)) := by decide +kernel
  have hl : "phiq1_12" = label "phiq1" [0, 1] := by decide +kernel
  have hE : IsEntry "phiq1_12" "phiq1" (.two (b .q) (n .q)) [0, 1] := ⟨hop, rfl, hl⟩
  have hwarsaw : ∀ key ∈ exInst.all "SMEFT" "Warsaw", ∃ k op i, IsEntry key k op i ∧ Indep op i := by
    intro key hk
    have : key ∈ ["phiq1_12"] := by simpa [exInst] using hk
    obtain rfl := List.mem_singleton.1 this
    exact ⟨"phiq1", _, [0, 1], hE, fun c _ => by decide⟩
  have hup : ∀ k op i, IsOp k op → Indep op i → label k i ∈ exInst.all "SMEFT" "Warsaw up" := by
    intro k op i h1 h2
    have : exInst.all "SMEFT" "Warsaw up" = allFlat := by simp [exInst]
    rw [this]; exact mem_allFlat h1 h2
  let w : WC := ⟨"SMEFT", "Warsaw", 1000, .obj (dict2values [("phiq1_12", 1)]), .none, []⟩
  have hd : w.dict fl = .ok [("phiq1_12", 1)] := by
    rw [WC.dict_of_noCache rfl]; exact (C11_numbers_round_trip fl _).1
  have hwf : Dict.WF [("phiq1_12", (1 : ℂ))] := by simp [Dict.WF, Dict.keys]
  have hC : ∀ key ∈ Dict.keys [("phiq1_12", (1 : ℂ))], key ∈ exInst.all "SMEFT" "Warsaw" := by simp [Dict.keys, exInst]
  have hreal : ∀ key k op i, IsEntry key k op i → IsReal op i → (Dict.getD [("phiq1_12", (1 : ℂ))] key 0).im = 0 := by
    intro key k op i he hr
    simp only [Dict.getD, Dict.find_cons]
    split <;> simp
  obtain ⟨w1, C1, h1, hw1, hwf1, hback⟩ := C94_round_trip exInst defaultPar _ hfiles fl exV rfl exV_unitary hwarsaw hup w rfl rfl _ hd
    hwf hC hreal none none
  have hd1 : w1.dict fl = .ok C1 := by
    rw [hw1, WC.dict_of_noCache rfl]; exact (C11_numbers_round_trip fl _).1
  obtain ⟨w2, C2, h2, hw2, -, -⟩ := hback w1 (by rw [hw1]) (by rw [hw1]) C1 hd1 hwf1 fun _ => rfl
  have hdoc : wcDoc w2 ≠ wcDoc w1 := by
    rw [hw1, hw2]; simp [wcDoc]
  let cd : Codec := ⟨fun j => if j = wcDoc w1 then "1" else "2", fun _ => "",
    fun t => some (if t = "0" then wcDoc w else if t = "1" then wcDoc w1 else wcDoc w2), fun _ => none⟩
  obtain ⟨T, hTc, hTf, hTs⟩ : ∃ T : Env, T.cd = cd ∧ T.fl = fl ∧ T.st = imported exInst defaultPar [.newEFT "SMEFT" [] []] :=
    ⟨⟨cd, fl, fun _ => .ok true, _⟩, rfl, rfl, rfl⟩
  let W : World := ⟨fun q => if q = "f" then some "0" else none, fun _ => false⟩
  have l0 : loadWC cd fl "0" = .ok w := rfl
  have l1 : loadWC cd fl "1" = .ok w1 := by subst hw1; rfl
  have l2 : loadWC cd fl "2" = .ok w2 := by subst hw2; rfl
  have hjson : lower "json" = "json" := by decide +kernel
  have dump1 : dump cd w1.attrs "json" "" = ("1", .ok ()) := by
    rw [wc_dump cd w1 _ _ (by rw [hw1]; simp [Dict.keys]), if_pos hjson]; simp [cd]
  have dump2 : dump cd w2.attrs "json" "" = ("2", .ok ()) := by
    rw [wc_dump cd w2 _ _ (by rw [hw2]; simp [Dict.keys]), if_pos hjson]; simp [cd, hdoc]
  have g1 : (W.after (wcxfMain T W (.translate "Warsaw up" "f" (some "g") "json") false).1).file "g" = some "1" := by
    rw [(C59_partial T W _ false "f" "g" rfl (by simp [W]) rfl (by decide)).1]
    have : (W.file "f").getD "" = "0" := by simp [W]
    rw [this]
    simp only [Cmd.body, hTc, hTf, hTs, l0, h1, dump1]
  have hj : IsJson "json" := by simp [IsJson]
  have hny : ¬ IsYaml "json" := fun h => absurd ((lower_eq_iff _ _).2 h) (by rw [hjson]; decide)
  have f1 : ∀ w1', w.translate T.fl T.st "Warsaw up" none = .ok w1' → Faithful T.cd "json" (wcDoc w1') := by
    intro w1' hh
    rw [hTf, hTs] at hh
    rw [hTc]
    obtain rfl : w1 = w1' := Except.ok.inj (h1.symm.trans hh)
    exact ⟨fun _ => ⟨_, Same.refl _, .inl (by simp [cd])⟩, fun hy => absurd hy hny⟩
  have f2 : ∀ t w1' w2', (W.after (wcxfMain T W (.translate "Warsaw up" "f" (some "g") "json") false).1).file "g" = some t →
      loadWC T.cd T.fl t = .ok w1' → w1'.translate T.fl T.st "Warsaw" none = .ok w2' → Faithful T.cd "json" (wcDoc w2') := by
    intro t w1' w2' ht hl hh
    rw [hTc, hTf] at hl
    rw [hTf, hTs] at hh
    rw [hTc]
    rw [g1] at ht
    obtain rfl := Option.some.inj ht
    obtain rfl : w1 = w1' := Except.ok.inj (l1.symm.trans hl)
    obtain rfl : w2 = w2' := Except.ok.inj (h2.symm.trans hh)
    exact ⟨fun _ => ⟨_, Same.refl _, .inl (by simp [cd, hdoc])⟩, fun hy => absurd hy hny⟩
  have := C94_commands exInst defaultPar _ hfiles exV rfl exV_unitary hwarsaw hup T hTs W
    "f" "g" "f" "0" (by simp [W]) (by decide) (by decide) w (by rw [hTc, hTf]; exact l0) rfl rfl _ (by rw [hTf]; exact hd) hwf hC hreal "json" "json" (.inl hj) (.inl hj) f1 false true
    _ rfl f2 _ rfl
  obtain ⟨-, -, ⟨t, w2', C2', b1, b2, -, -, -, b3, b4⟩, -⟩ := this
  have g2 : t = "2" := by
    rw [(C59_partial T _ _ true "g" "f" rfl (by simp [g1]) rfl (by decide)).1, g1] at b1
    simp only [Option.getD_some, Cmd.body, hTc, hTf, hTs, l1, h2, dump2] at b1
    cases b1; rfl
  subst g2
  exact ⟨T, W, w, w2', C2', hTs, by simp [W], by rw [hTc, hTf]; exact l0, by rw [hTf]; exact hd, g1, b1, b2, b3, b4⟩

/-- Case of `C94_match_files`: a file with a dipole coefficient is matched. -/
example (fl : String → Option ℝ) (B : String) (hB : B ∈ ["flavio", "EOS", "Bern"]) : ∃ (T : Env) (W : World) (w w1 : WC),
    T.st = imported exInst defaultPar [] ∧ W.file "f" = some "0" ∧ loadWC T.cd T.fl "0" = .ok w ∧
    w.matchTo T.fl T.st "WET" "JMS" none = .ok w1 ∧
    let W1 := W.after (wcxfMain T W (.matchTo "WET" "JMS" "f" (some "g") "yaml") false).1
    (W1.after (wcxfMain T W1 (.translate B "g" (some "h") "json") false).1).file "h" =
      (W.after (wcxfMain T W (.matchTo "WET" B "f" (some "h") "json") false).1).file "h" := by
  classical
  let w : WC := ⟨"SMEFT", "Warsaw", 160, .obj (dict2values exDip), .none, []⟩
  obtain ⟨D1, a1, a2, a3, a4, a5⟩ := exDip_path (ckm := exEnv.ckm) (V := exV) none rfl
  obtain ⟨r1, v1, h1, h2, h3, h4⟩ := exDip_match exEnv.ckm D1 a2 a3 a4 none default_physical ⟨exV, rfl⟩
  have h : applyFn fl (warsawToJms exEnv.ckm allFlat dipL defaultPar) "WET" "JMS" w none =
      .ok ⟨"WET", "JMS", 160, .obj (dict2values (nz r1)), .none, []⟩ := by
    rw [applyFn_eq, dict_result, ok_bind, warsawToJms, a1, ok_bind, h1]; rfl
  have hL1 : exInst.all "SMEFT" "Warsaw up" = allFlat := by simp [exInst]
  have hL2 : exInst.all "WET" "JMS" = dipL := by simp [exInst]
  have hm : w.matchTo fl (imported exInst defaultPar []) "WET" "JMS" none =
      .ok ⟨"WET", "JMS", 160, .obj (dict2values (nz r1)), .none, []⟩ := by
    rw [(C94_installed exInst defaultPar [] (by simp) fl w none).2.2.1 "WET" "JMS"
      (fun p => warsawToJms exInst.ckm (exInst.all "SMEFT" "Warsaw up") (exInst.all "WET" "JMS") p) (by simp [matchers, w]), hL1, hL2]
    exact h
  let w1 : WC := ⟨"WET", "JMS", 160, .obj (dict2values (nz r1)), .none, []⟩
  let cd : Codec := ⟨fun _ => "", fun _ => "1", fun _ => none, fun t => some (if t = "0" then wcDoc w else wcDoc w1)⟩
  obtain ⟨T, hTc, hTf, hTs⟩ : ∃ T : Env, T.cd = cd ∧ T.fl = fl ∧ T.st = imported exInst defaultPar [] :=
    ⟨⟨cd, fl, fun _ => .ok true, _⟩, rfl, rfl, rfl⟩
  let W : World := ⟨fun q => if q = "f" then some "0" else none, fun _ => false⟩
  have hy : IsYaml "yaml" := by simp [IsYaml]
  have hyaml : lower "yaml" = "yaml" := by decide +kernel
  have hnj : ¬ IsJson "yaml" := fun h => absurd ((lower_eq_iff _ _).2 h) (by rw [hyaml]; decide)
  have l0 : loadWC cd fl "0" = .ok w := rfl
  refine ⟨T, W, w, w1, hTs, by simp [W], by rw [hTc, hTf]; exact l0, by rw [hTf, hTs]; exact hm, ?_⟩
  exact (C94_match_files exInst defaultPar [] (by simp) T hTs W "f" "g" "h" "0" (by simp [W]) (by decide) (by decide) (by decide) w w1
    (by rw [hTc, hTf]; exact l0) rfl rfl (by rw [hTf, hTs]; exact hm) "yaml" "json" (.inr hy)
    (by rw [hTc]; exact ⟨fun hj => absurd hj hnj, fun _ => ⟨_, Same.refl _, .inr ⟨rfl, by simp [cd]⟩⟩⟩) B hB false false false _ rfl).2.1

/-- Case of `C94_flavorkit_via_jms`: a set of FlavorKit coefficients is translated in both ways with success. -/
example (fl : String → Option ℝ) : ∃ (E : REnv) (w w2 : WC), w.eft = "WET" ∧ w.basis = "FlavorKit" ∧ w.dict fl = .ok exFkSet ∧
    w.translate fl (imported E defaultPar []) "flavio" none = .ok w2 ∧ (do
      let w1 ← w.translate fl (imported E defaultPar []) "JMS" none
      w1.translate fl (imported E defaultPar []) "flavio" none) = .ok w2 := by
  let E : REnv := ⟨exEnv.ckm, fun _ _ => 0, exEnv.rd, fun _ b => if b = "JMS" then allJms else if b = "Bern" then bernNames else flavioNames⟩
  have hE : E.wet defaultPar = exEnv := by
    unfold REnv.wet exEnv
    simp only [E]
    rw [if_pos trivial, if_neg (by decide), if_pos trivial, if_neg (by decide), if_neg (by decide)]
    rfl
  let w : WC := ⟨"WET", "FlavorKit", 160, .obj (dict2values exFkSet), .none, []⟩
  have hd : w.dict fl = .ok exFkSet := dict_result fl _ _ _ _
  obtain ⟨d, h1, -⟩ := C48_round_partial exFk exFkParams exFkSet_WF exFkSet_names
  obtain ⟨o, ho⟩ := C45_total exEnv_ok exP_admissible .jmsFlavio (exEnv_ready .jmsFlavio) d
  have hfn : fkToFlavio (E.wet defaultPar) exFkSet 160 none = .ok o := by
    rw [hE, fkToFlavio, h1]; exact ho
  have key := (C94_installed E defaultPar [] (by simp) fl w none).1 "flavio" (fun p => fkToFlavio (E.wet p)) (by simp [translators, w])
  obtain ⟨w2, h2, -⟩ := applyFn_ok fl (fkToFlavio (E.wet defaultPar)) "WET" "flavio" w none hd hfn
  have h3 : w.translate fl (imported E defaultPar []) "flavio" none = .ok w2 := key.trans h2
  exact ⟨E, w, w2, rfl, rfl, hd, h3, (C94_flavorkit_via_jms E defaultPar [] (by simp) fl w rfl rfl none).symm.trans h3⟩

end Verif
