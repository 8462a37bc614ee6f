import Verif.Model.WCOps
import Verif.Lemmas.WCLemmas
import Verif.Lemmas.BasisLemmas
import Mathlib.Data.List.Induction

/-!
C11–C14: numbers in files, the numeric dictionary, translation and matching.
-/

set_option autoImplicit false

namespace Verif

/-! ### C11 -/

theorem toNumber_toComplexDict (fl : String → Option ℝ) (v : ℂ) :
    toNumber fl (toComplexDict v) = .ok v := by
  unfold toComplexDict
  by_cases h : v.im = 0
  · rw [if_neg (by simpa using h)]
    have : ((v.re : ℝ) : ℂ) = v := by apply Complex.ext <;> simp [h]
    simp [toNumber, pyFloat, bind, Except.bind, pure, Except.pure, this]
  · rw [if_pos h]
    have : ((v.re : ℝ) : ℂ) + Complex.I * ((v.im : ℝ) : ℂ) = v := by
      apply Complex.ext <;> simp
    simp [toNumber, pyFloat, Dict.getD, Dict.find, bind, Except.bind, pure, Except.pure, this]

/-- **C11.** Writing any dictionary of complex numbers as file values and reading it back gives the very
same dictionary (keys, order, numbers); the written entries are in the same order, and an entry is
written as a plain number exactly if it is real. -/
theorem C11_numbers_round_trip (fl : String → Option ℝ) (d : Dict String ℂ) :
    convertValues fl (.obj (dict2values d)) = .ok d ∧
    Dict.keys (dict2values d) = Dict.keys d ∧
    (∀ p ∈ dict2values d, ∃ v, (p.1, v) ∈ d ∧ ((∃ x, p.2 = .num x) ↔ v.im = 0) ∧
      (v.im ≠ 0 → p.2 = .obj [("Re", .num v.re), ("Im", .num v.im)])) := by
  refine ⟨?_, Dict.keys_mapVals _ _, ?_⟩
  · induction d with
    | nil => rfl
    | cons p d ih =>
      exact convertValues_obj_cons fl (p.1, toComplexDict p.2) (dict2values d)
        (toNumber_toComplexDict fl p.2) ih
  · intro p hp
    simp only [dict2values, Dict.mapVals, List.mem_map] at hp
    obtain ⟨q, hq, rfl⟩ := hp
    refine ⟨q.2, hq, ?_, ?_⟩
    · unfold toComplexDict
      by_cases h : q.2.im = 0 <;> simp [h]
    · intro h
      unfold toComplexDict
      simp [h]

/-- Concrete case of C11. -/
example (fl : String → Option ℝ) :
    dict2values [("a", (2 : ℂ)), ("b", Complex.I)] =
      [("a", .num 2), ("b", .obj [("Re", .num 0), ("Im", .num 1)])] ∧
    convertValues fl (.obj [("a", .num 2), ("b", .obj [("Re", .num 0), ("Im", .num 1)])]) =
      .ok [("a", (2 : ℂ)), ("b", Complex.I)] := by
  have h : dict2values [("a", (2 : ℂ)), ("b", Complex.I)] =
      [("a", .num 2), ("b", .obj [("Re", .num 0), ("Im", .num 1)])] := by
    simp [dict2values, Dict.mapVals, toComplexDict]
  exact ⟨h, h ▸ (C11_numbers_round_trip fl _).1⟩

/-! ### C12 -/

/-- **C12 is false.** After a read, a changed value is not seen by the next read. -/
theorem C12_refuted (fl : String → Option ℝ) :
    let w : WC := ⟨"WET", "JMS", 5, .obj [("C1", .num 1)], .none, []⟩
    let w' := wrun fl w [.read, .setItem "C1" (.num 2)]
    w'.values = .obj [("C1", .num 2)] ∧ w'.dict fl = .ok [("C1", 1)] ∧
    convertValues fl w'.values = .ok [("C1", 2)] := by
  simp [wrun, WOp.exec, WC.readDict, convertValues, itemsOf, toNumber, pyFloat, bind, Except.bind,
    List.mapM_cons, List.mapM_nil, pure, Except.pure, Dict.put, WC.dict]

/-- Modifying operation. -/
def WOp.modifies : WOp → Bool
  | .read => false
  | _ => true

/-- **C12, the part that holds.** Starting from a fresh object, after any modifications (and reads that
failed) followed by any number of reads, a read returns the conversion of the current values; it
has the same keys in the same order and converts entry by entry. Missing from C12: modifications
after a successful read. -/
theorem C12_partial (fl : String → Option ℝ) (w : WC) (hw : w.cache = .none) (ops1 ops2 : List WOp)
    (h1 : ∀ pre : List WOp, pre ++ [.read] <+: ops1 → ∃ e, (wrun fl w pre).dict fl = .error e)
    (h2 : ∀ op ∈ ops2, op.modifies = false) :
    let w' := wrun fl w (ops1 ++ ops2)
    w'.dict fl = convertValues fl w'.values ∧
    (∀ vs d, w'.values = .obj vs → w'.dict fl = .ok d → Dict.keys d = Dict.keys vs ∧
      ∀ (i : Nat) (p : String × JVal) (q : String × ℂ), vs[i]? = some p → d[i]? = some q →
        q.1 = p.1 ∧ toNumber fl p.2 = .ok q.2) := by
  intro w'
  -- the cache is empty after `ops1`
  have hnone : (wrun fl w ops1).cache = .none := by
    clear w'
    induction ops1 using List.reverseRecOn with
    | nil => exact hw
    | append_singleton l op ih =>
      have hl := ih (fun pre hp => h1 pre (hp.trans (List.prefix_append _ _)))
      have hstep : wrun fl w (l ++ [op]) = WOp.exec fl (wrun fl w l) op := by
        simp [wrun, List.foldl_append]
      rw [hstep]
      cases op with
      | read =>
        obtain ⟨e, he⟩ := h1 l List.prefix_rfl
        rw [WC.dict_of_noCache hl] at he
        simp only [WOp.exec, WC.readDict, hl, he]
      | setValues j => exact hl
      | setItem k x =>
        simp only [WOp.exec]
        split <;> exact hl
  -- reads keep: cache empty or equal to the conversion
  have hinv : ∀ (ops : List WOp) (v : WC), (∀ op ∈ ops, op.modifies = false) →
      (v.cache = .none ∨ ∃ d, v.cache = .nums d ∧ convertValues fl v.values = .ok d) →
      ((ops.foldl (WOp.exec fl) v).cache = .none ∨ ∃ d, (ops.foldl (WOp.exec fl) v).cache = .nums d ∧
        convertValues fl (ops.foldl (WOp.exec fl) v).values = .ok d) := by
    intro ops
    induction ops with
    | nil => intro v _ hv; exact hv
    | cons op ops ih =>
      intro v hm hv
      apply ih _ (fun o ho => hm o (by simp [ho]))
      cases op with
      | read =>
        simp only [WOp.exec, WC.readDict]
        rcases hv with hv | ⟨d, hv, hd⟩
        · rw [hv]
          cases hcv : convertValues fl v.values with
          | error e => left; exact hv
          | ok d => right; exact ⟨d, rfl, hcv⟩
        · rw [hv]; right; exact ⟨d, hv, hd⟩
      | setValues j =>
        have := hm (.setValues j) (by simp)
        simp [WOp.modifies] at this
      | setItem k x =>
        have := hm (.setItem k x) (by simp)
        simp [WOp.modifies] at this
  have hw' : w' = ops2.foldl (WOp.exec fl) (wrun fl w ops1) := by
    simp only [w', wrun, List.foldl_append]
  have hfin := hinv ops2 (wrun fl w ops1) h2 (Or.inl hnone)
  rw [← hw'] at hfin
  have hmain : w'.dict fl = convertValues fl w'.values := by
    rcases hfin with h | ⟨d, h, hd⟩
    · exact WC.dict_of_noCache h
    · unfold WC.dict WC.readDict
      rw [h, hd]
  refine ⟨hmain, ?_⟩
  intro vs d hvs hd
  rw [hmain, hvs] at hd
  exact convertValues_keys hd

/-- Concrete case of `C12_partial`: modify, then read twice. -/
example (fl : String → Option ℝ) :
    let w : WC := ⟨"WET", "JMS", 5, .obj [("C1", .num 1)], .none, []⟩
    (∀ pre : List WOp, pre ++ [.read] <+: [WOp.setItem "C1" (.num 2)] →
      ∃ e, (wrun fl w pre).dict fl = .error e) ∧
    (wrun fl w ([WOp.setItem "C1" (.num 2)] ++ [.read, .read])).dict fl = .ok [("C1", 2)] := by
  constructor
  · rintro pre ⟨t, ht⟩
    rcases pre with _ | ⟨a, pre⟩
    · simp at ht
    · simp at ht
  · simp [wrun, WOp.exec, WC.readDict, convertValues, itemsOf, toNumber, pyFloat, bind, Except.bind,
      List.mapM_cons, List.mapM_nil, pure, Except.pure, Dict.put, WC.dict]

/-! ### C13, C14 -/

theorem applyFn_ok (fl : String → Option ℝ) (fn : Fn) (eft basis : String) (w : WC)
    (params : Option Params) {d out : Dict String ℂ} (hd : w.dict fl = .ok d)
    (hf : fn d w.scale params = .ok out) :
    ∃ w', applyFn fl fn eft basis w params = .ok w' ∧ w'.eft = eft ∧ w'.basis = basis ∧
      w'.scale = w.scale ∧ w'.extra = [] ∧
      w'.dict fl = .ok (out.filter fun p => decide (p.2 ≠ 0)) := by
  refine ⟨⟨eft, basis, w.scale, .obj (dict2values (Dict.filt (fun _ v => decide (v ≠ 0)) out)), .none, []⟩,
    ?_, rfl, rfl, rfl, rfl, ?_⟩
  · simp [applyFn, hd, hf, bind, Except.bind, newWC, pyFloat, setAttrs, pure, Except.pure, Dict.find,
      Dict.filt]
  · rw [WC.dict_of_noCache rfl]
    exact (C11_numbers_round_trip fl _).1

/-- **C13.** In every reachable state. If no translator is registered for (EFT, basis, target),
translation raises `ValueError`. Otherwise the registered function `f` is used: an exception of
reading the input or of `f` is passed on, and if `f` returns, the result has the same EFT and scale,
the requested basis, and its numeric dictionary is exactly the output of `f` without the zero
entries (in the same order). -/
theorem C13_translate (ops : List Op) (h4 : ∀ op ∈ ops, op.onFour) (fl : String → Option ℝ) (w : WC)
    (toB : String) (params : Option Params) :
    ((∀ i, (run ops).lookup .translator [w.eft, w.basis, toB] ≠ .ok i) →
      w.translate fl (run ops) toB params = .error (.valueError "No translator found")) ∧
    (∀ i, (run ops).lookup .translator [w.eft, w.basis, toB] = .ok i →
      ∃ f, (run ops).objs[i]? = some (.translator ⟨w.eft, w.basis, toB, f⟩) ∧
        (∀ e, w.dict fl = .error e → w.translate fl (run ops) toB params = .error e) ∧
        (∀ d e, w.dict fl = .ok d → f d w.scale params = .error e →
          w.translate fl (run ops) toB params = .error e) ∧
        (∀ d out, w.dict fl = .ok d → f d w.scale params = .ok out →
          ∃ w', w.translate fl (run ops) toB params = .ok w' ∧ w'.eft = w.eft ∧ w'.basis = toB ∧
            w'.scale = w.scale ∧ w'.dict fl = .ok (out.filter fun p => decide (p.2 ≠ 0)))) := by
  have h := good_run ops h4
  unfold WC.translate
  constructor
  · intro hno
    cases hl : (run ops).lookup .translator [w.eft, w.basis, toB] with
    | ok i => exact absurd hl (hno i)
    | error e => rfl
  · intro i hl
    obtain ⟨o, ho, hi⟩ := h.lookup_ident hl
    cases o with
    | translator t =>
      obtain ⟨te, tf, tt, f⟩ := t
      simp only [Obj.ident, Prod.mk.injEq, List.cons.injEq, and_true, true_and] at hi
      obtain ⟨rfl, rfl, rfl⟩ := hi
      refine ⟨f, ho, ?_, ?_, ?_⟩
      · intro e he
        rw [hl]; dsimp only; rw [ho]
        simp [applyFn, he, bind, Except.bind]
      · intro d e hd he
        rw [hl]; dsimp only; rw [ho]
        simp [applyFn, hd, he, bind, Except.bind]
      · intro d out hd ho'
        rw [hl]; dsimp only; rw [ho]
        obtain ⟨w', h1, h2, h3, h5, _, h6⟩ := applyFn_ok fl f w.eft tt w params hd ho'
        exact ⟨w', h1, h2, h3, h5, h6⟩
    | _ => simp [Obj.ident] at hi

/-- **C14.** The same for matching: `ValueError` exactly if no matcher is registered for the pair, target
EFT and basis as requested, scale kept, output of the function without zeros. -/
theorem C14_match (ops : List Op) (h4 : ∀ op ∈ ops, op.onFour) (fl : String → Option ℝ) (w : WC)
    (toE toB : String) (params : Option Params) :
    ((∀ i, (run ops).lookup .matcher [w.eft, w.basis, toE, toB] ≠ .ok i) →
      w.matchTo fl (run ops) toE toB params = .error (.valueError "No matcher found")) ∧
    (∀ i, (run ops).lookup .matcher [w.eft, w.basis, toE, toB] = .ok i →
      ∃ f, (run ops).objs[i]? = some (.matcher ⟨w.eft, w.basis, toE, toB, f⟩) ∧
        (∀ e, w.dict fl = .error e → w.matchTo fl (run ops) toE toB params = .error e) ∧
        (∀ d e, w.dict fl = .ok d → f d w.scale params = .error e →
          w.matchTo fl (run ops) toE toB params = .error e) ∧
        (∀ d out, w.dict fl = .ok d → f d w.scale params = .ok out →
          ∃ w', w.matchTo fl (run ops) toE toB params = .ok w' ∧ w'.eft = toE ∧ w'.basis = toB ∧
            w'.scale = w.scale ∧ w'.dict fl = .ok (out.filter fun p => decide (p.2 ≠ 0)))) := by
  have h := good_run ops h4
  unfold WC.matchTo
  constructor
  · intro hno
    cases hl : (run ops).lookup .matcher [w.eft, w.basis, toE, toB] with
    | ok i => exact absurd hl (hno i)
    | error e => rfl
  · intro i hl
    obtain ⟨o, ho, hi⟩ := h.lookup_ident hl
    cases o with
    | matcher t =>
      obtain ⟨te, tf, te', tt, f⟩ := t
      simp only [Obj.ident, Prod.mk.injEq, List.cons.injEq, and_true, true_and] at hi
      obtain ⟨rfl, rfl, rfl, rfl⟩ := hi
      refine ⟨f, ho, ?_, ?_, ?_⟩
      · intro e he
        rw [hl]; dsimp only; rw [ho]
        simp [applyFn, he, bind, Except.bind]
      · intro d e hd he
        rw [hl]; dsimp only; rw [ho]
        simp [applyFn, hd, he, bind, Except.bind]
      · intro d out hd ho'
        rw [hl]; dsimp only; rw [ho]
        obtain ⟨w', h1, h2, h3, h5, _, h6⟩ := applyFn_ok fl f te' tt w params hd ho'
        exact ⟨w', h1, h2, h3, h5, h6⟩
    | _ => simp [Obj.ident] at hi

/-- Non-basis objects are never changed. -/
theorem exec_keeps_obj {st : Store} (op : Op) {i : Id} {o : Obj} (ho : st.objs[i]? = some o)
    (hb : ∀ b, o ≠ .basis b) : (exec st op).1.objs[i]? = some o := by
  have hlt := (List.getElem?_eq_some_iff.1 ho).1
  cases op with
  | newEFT e s kw =>
    simp only [exec, newEFT]
    split <;> simp only [register_objs] <;> rw [List.getElem?_append_left hlt, ho]
  | newBasis e b s kw =>
    simp only [exec]; rw [newBasis_objs_old st e b s kw hlt, ho]
  | newTranslator e f t fn =>
    simp only [exec, newTranslator, register_objs]; rw [List.getElem?_append_left hlt, ho]
  | newMatcher e f e' t fn =>
    simp only [exec, newMatcher, register_objs]; rw [List.getElem?_append_left hlt, ho]
  | del c n =>
    simp only [exec, Store.delete]
    split
    · split <;> exact ho
    · exact ho
  | clear c => exact ho
  | allWcs j =>
    simp only [exec]
    rcases readAllWcs_objs st j with he | ⟨b, _, _, hj, _, _, _, he, _⟩
    · rw [he]; exact ho
    · rw [he]
      simp only [Store.setObj]
      by_cases hij : j = i
      · subst hij
        rw [ho] at hj
        simp only [Option.some.injEq] at hj
        exact absurd hj (hb b)
      · rw [List.getElem?_set_ne hij, ho]

/-- The operation does not touch the registration `(c, n)`. -/
def Op.spares (op : Op) (c : Cls) (n : Name) : Prop :=
  op.target ≠ some (c, n) ∧ op ≠ .del c n ∧ op ≠ .clear c

theorem exec_spares {st : Store} (h : Good st) (op : Op) (h4 : op.onFour) {c : Cls} {n : Name} {i : Id}
    (hs : op.spares c n) (hl : st.lookup c n = .ok i) : (exec st op).1.lookup c n = .ok i := by
  obtain ⟨ht, hd, hc⟩ := hs
  have hg := good_exec h op h4
  by_cases hn : ∃ c' n', op.target = some (c', n')
  · obtain ⟨c', n', hn⟩ := hn
    have he := exec_instances_new st op hn
    by_cases hcc : c = c'
    · subst hcc
      have hnn : n' ≠ n := by rintro rfl; exact ht hn
      rw [lookup_of_register h.noBase (target_ne_base hn) he, if_neg hnn]
      rw [h.lookup_eq] at hl
      cases hi : st.instances c with
      | none => rw [hi] at hl; simp at hl
      | some d => rw [hi] at hl; exact hl
    · rw [lookup_of_register_other h.noBase (target_ne_base hn) he hcc]; exact hl
  · cases op with
    | del c' n' =>
      rw [hg.lookup_eq]
      rw [h.lookup_eq] at hl
      cases hi : st.instances c with
      | none => rw [hi] at hl; simp at hl
      | some d =>
        rw [hi] at hl
        dsimp only at hl
        simp only [exec]
        rcases delete_of_noBase h.noBase c' n' with he | he
        · rw [he]
          by_cases hcc : c = c'
          · subst hcc
            rw [Function.update_self, hi]
            simp only [Option.map_some]
            rw [Dict.get_ok_iff] at hl ⊢
            have hnn : n' ≠ n := by rintro rfl; exact hd rfl
            rw [Dict.find_del (h.wf c d hi), if_neg hnn]; exact hl
          · rw [Function.update_of_ne hcc, hi]; exact hl
        · rw [he, hi]; exact hl
    | clear c' =>
      have hcc : c ≠ c' := by rintro rfl; exact hc rfl
      rw [hg.lookup_eq]
      rw [h.lookup_eq] at hl
      simp only [exec, Store.clearAll]
      rw [Function.update_of_ne hcc]; exact hl
    | allWcs j =>
      simp only [exec]
      unfold Store.lookup Store.registry at hl ⊢
      rw [readAllWcs_instances]; exact hl
    | _ => simp [Op.target] at hn

/-- **C13/C14, which function is used.** The function of the latest registration: after registering
`fn` and any further operations that do not touch that registration, translating applies `fn`. -/
theorem C13_uses_latest (ops ops' : List Op) (h4 : ∀ op ∈ ops, op.onFour) (h4' : ∀ op ∈ ops', op.onFour)
    (fl : String → Option ℝ) (w : WC) (toB : String) (fn : Fn) (params : Option Params)
    (hs : ∀ op ∈ ops', op.spares .translator [w.eft, w.basis, toB]) :
    w.translate fl (run (ops ++ .newTranslator w.eft w.basis toB fn :: ops')) toB params =
      applyFn fl fn w.eft toB w params := by
  have hrun : run (ops ++ .newTranslator w.eft w.basis toB fn :: ops') =
      (runLog (exec (run ops) (.newTranslator w.eft w.basis toB fn)).1 ops').1 := by
    unfold run; rw [runLog_append]; rfl
  have h := good_run ops h4
  have hg := good_exec h (.newTranslator w.eft w.basis toB fn) trivial
  have hl : (exec (run ops) (.newTranslator w.eft w.basis toB fn)).1.lookup .translator
      [w.eft, w.basis, toB] = .ok (run ops).objs.length := by
    rw [lookup_of_register h.noBase (by simp)
      (exec_instances_new (run ops) (.newTranslator w.eft w.basis toB fn) rfl)]
    simp
  have ho : (exec (run ops) (.newTranslator w.eft w.basis toB fn)).1.objs[(run ops).objs.length]? =
      some (.translator ⟨w.eft, w.basis, toB, fn⟩) := by
    simp [exec, newTranslator]
  have key : ∀ (ops' : List Op) (st : Store), Good st → (∀ op ∈ ops', op.onFour) →
      (∀ op ∈ ops', op.spares .translator [w.eft, w.basis, toB]) →
      st.lookup .translator [w.eft, w.basis, toB] = .ok (run ops).objs.length →
      st.objs[(run ops).objs.length]? = some (.translator ⟨w.eft, w.basis, toB, fn⟩) →
      (runLog st ops').1.lookup .translator [w.eft, w.basis, toB] = .ok (run ops).objs.length ∧
      (runLog st ops').1.objs[(run ops).objs.length]? =
        some (.translator ⟨w.eft, w.basis, toB, fn⟩) := by
    intro ops'
    induction ops' with
    | nil => intro st _ _ _ h1 h2; exact ⟨h1, h2⟩
    | cons op ops' ih =>
      intro st hg h4 hs h1 h2
      exact ih _ (good_exec hg op (h4 op (by simp))) (fun o ho => h4 o (by simp [ho]))
        (fun o ho => hs o (by simp [ho])) (exec_spares hg op (h4 op (by simp)) (hs op (by simp)) h1)
        (exec_keeps_obj op h2 (by simp))
  obtain ⟨h1, h2⟩ := key ops' _ hg h4' hs hl ho
  unfold WC.translate
  rw [hrun, h1]
  dsimp only
  rw [h2]

/-- Concrete case of C13/C14: a function producing a zero entry, registered twice. -/
example (fl : String → Option ℝ) :
    let f : Fn := fun _ _ _ => .ok [("a", 1), ("b", 0)]
    let ops : List Op := [.newTranslator "E" "A" "B" (fun d _ _ => .ok d), .newTranslator "E" "A" "B" f,
      .newMatcher "E" "A" "F" "B" f, .clear .basis]
    let w : WC := ⟨"E", "A", 5, .obj [("x", .num 3)], .none, []⟩
    (w.translate fl (run ops) "C" none = .error (.valueError "No translator found")) ∧
    (∃ w', w.translate fl (run ops) "B" none = .ok w' ∧ w'.eft = "E" ∧ w'.basis = "B" ∧ w'.scale = 5 ∧
      w'.dict fl = .ok [("a", 1)]) ∧
    (∃ w', w.matchTo fl (run ops) "F" "B" none = .ok w' ∧ w'.eft = "F" ∧ w'.basis = "B" ∧ w'.scale = 5 ∧
      w'.dict fl = .ok [("a", 1)]) := by
  intro f ops w
  have h4 : ∀ op ∈ ops, op.onFour := by simp [ops, Op.onFour]
  have hd : w.dict fl = .ok [("x", 3)] := by
    simp [w, WC.dict, WC.readDict, convertValues, itemsOf, toNumber, pyFloat, bind, Except.bind,
      List.mapM_cons, List.mapM_nil, pure, Except.pure]
  refine ⟨rfl, ?_, ?_⟩
  · obtain ⟨g, hg, _, _, h⟩ := (C13_translate ops h4 fl w "B" none).2 1 rfl
    have hf : g = f := by
      have : (run ops).objs[1]? = some (.translator ⟨"E", "A", "B", f⟩) := rfl
      rw [this] at hg; cases hg; rfl
    subst hf
    obtain ⟨w', h1, h2, h3, h5, h6⟩ := h _ _ hd rfl
    exact ⟨w', h1, h2, h3, h5, by simpa using h6⟩
  · obtain ⟨g, hg, _, _, h⟩ := (C14_match ops h4 fl w "F" "B" none).2 2 rfl
    have hf : g = f := by
      have : (run ops).objs[2]? = some (.matcher ⟨"E", "A", "F", "B", f⟩) := rfl
      rw [this] at hg; cases hg; rfl
    subst hf
    obtain ⟨w', h1, h2, h3, h5, h6⟩ := h _ _ hd rfl
    exact ⟨w', h1, h2, h3, h5, by simpa using h6⟩

end Verif
