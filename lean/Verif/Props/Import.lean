import Verif.Lemmas.ImportLemmas
import Verif.Lemmas.WCLemmas
import Mathlib.Data.List.Induction
import Mathlib.Data.List.Flatten

/-!
C07: package import and the order of the definition files.
-/

set_option autoImplicit false

namespace Verif

/-- Two states define the same EFTs and bases: same names, same sectors (for bases up to the order of
sectors), same coefficient lists (for bases up to order). -/
structure Spec.SameDefs (st st' : Store) : Prop where
  eftNames : ∀ n, (∃ i, st.lookup .eft n = .ok i) ↔ ∃ i, st'.lookup .eft n = .ok i
  efts : ∀ n i i', st.lookup .eft n = .ok i → st'.lookup .eft n = .ok i' →
    ∃ s, sectorsOf st i = .ok s ∧ sectorsOf st' i' = .ok s
  basisNames : ∀ n, (∃ i, st.lookup .basis n = .ok i) ↔ ∃ i, st'.lookup .basis n = .ok i
  bases : ∀ n i i', st.lookup .basis n = .ok i → st'.lookup .basis n = .ok i' →
    ∃ s s', sectorsOf st i = .ok s ∧ sectorsOf st' i' = .ok s' ∧ s.Perm s'
  wcs : ∀ n i i' l, st.lookup .basis n = .ok i → st'.lookup .basis n = .ok i' → (readAllWcs st i).2 = .ok l →
    ∃ l', (readAllWcs st' i').2 = .ok l' ∧ l.Perm l'

/-- Children of the same parent that define the same sector define it identically. -/
def Spec.Agree (children : List BasisFile) : Prop :=
  ∀ c ∈ children, ∀ c' ∈ children, c.eft = c'.eft → c.parent = c'.parent →
    ∀ k v v', Dict.find c.sectors k = some v → Dict.find c'.sectors k = some v' → v = v'

open Spec

/-- **C07 is false.** Two children of the same parent that define the same sector differently: the
sectors of the parent and of both children depend on the order in which the files are listed. -/
theorem C07_refuted :
    let p : BasisFile := ⟨"WET", "P", [("a", .obj [("C0", .null)])], []⟩
    let c : BasisFile := ⟨"WET", "C", [("a", .obj [("C1", .null)])], [("parent", .str "P")]⟩
    let d : BasisFile := ⟨"WET", "D", [("a", .obj [("C2", .null)])], [("parent", .str "P")]⟩
    let r := importPkg .empty [] [p] [c, d]
    let r' := importPkg .empty [] [p] [d, c]
    r.2 = .ok () ∧ r'.2 = .ok () ∧
    r.1.lookup .basis ["WET", "C"] = .ok 1 ∧ (readAllWcs r.1 1).2 = .ok ["C2"] ∧
    r'.1.lookup .basis ["WET", "C"] = .ok 2 ∧ (readAllWcs r'.1 2).2 = .ok ["C1"] ∧
    r.1.lookup .basis ["WET", "P"] = .ok 0 ∧ (readAllWcs r.1 0).2 = .ok ["C2"] ∧
    r'.1.lookup .basis ["WET", "P"] = .ok 0 ∧ (readAllWcs r'.1 0).2 = .ok ["C1"] :=
  ⟨rfl, rfl, rfl, rfl, rfl, rfl, rfl, rfl, rfl, rfl⟩

theorem find_foldl_upd (s : Sectors) (cs : List BasisFile) (hw : ∀ c ∈ cs, Dict.WF c.sectors)
    (ha : ∀ c ∈ cs, ∀ c' ∈ cs, ∀ k v v', Dict.find c.sectors k = some v →
      Dict.find c'.sectors k = some v' → v = v') (k : String) (v : JVal) :
    Dict.find (cs.foldl (fun d c => Dict.upd d c.sectors) s) k = some v ↔
      (∃ c ∈ cs, Dict.find c.sectors k = some v) ∨
      ((∀ c ∈ cs, Dict.find c.sectors k = none) ∧ Dict.find s k = some v) := by
  induction cs using List.reverseRecOn with
  | nil => simp
  | append_singleton l c ih =>
    have ih := ih (fun c hc => hw c (by simp [hc])) (fun c hc c' hc' => ha c (by simp [hc]) c' (by simp [hc']))
    rw [List.foldl_append]
    simp only [List.foldl_cons, List.foldl_nil]
    rw [Dict.find_upd (hw c (by simp))]
    cases hc : Dict.find c.sectors k with
    | none =>
      simp only [Option.none_or, ih, List.mem_append, List.mem_singleton]
      constructor
      · rintro (⟨x, hx, hv⟩ | ⟨h1, h2⟩)
        · exact Or.inl ⟨x, Or.inl hx, hv⟩
        · refine Or.inr ⟨?_, h2⟩
          rintro x (hx | rfl)
          · exact h1 x hx
          · exact hc
      · rintro (⟨x, hx | rfl, hv⟩ | ⟨h1, h2⟩)
        · exact Or.inl ⟨x, hx, hv⟩
        · rw [hc] at hv; cases hv
        · exact Or.inr ⟨fun x hx => h1 x (Or.inl hx), h2⟩
    | some w =>
      simp only [Option.some_or, Option.some.injEq, List.mem_append, List.mem_singleton]
      constructor
      · rintro rfl; exact Or.inl ⟨c, Or.inr rfl, hc⟩
      · rintro (⟨x, hx, hv⟩ | ⟨h1, _⟩)
        · exact ha c (by simp) x (by simpa using hx) k w v hc hv
        · rw [h1 c (Or.inr rfl)] at hc; cases hc

theorem WF_foldl_upd (s : Sectors) (cs : List BasisFile) (hs : Dict.WF s) :
    Dict.WF (cs.foldl (fun d c => Dict.upd d c.sectors) s) := by
  induction cs generalizing s with
  | nil => exact hs
  | cons c cs ih => exact ih _ (Dict.WF_upd hs _)

theorem perm_of_find {d d' : Sectors} (h : Dict.WF d) (h' : Dict.WF d')
    (hf : ∀ k v, Dict.find d k = some v ↔ Dict.find d' k = some v) : d.Perm d' := by
  apply (List.perm_ext_iff_of_nodup h.of_map h'.of_map).2
  rintro ⟨k, v⟩
  rw [← Dict.find_eq_some_iff h, ← Dict.find_eq_some_iff h', hf]

/-- The merged sectors do not depend on the order of agreeing children. -/
theorem content_perm (f : BasisFile) {cs cs' : List BasisFile} (hp : cs.Perm cs') (hf : Dict.WF f.sectors)
    (hw : ∀ c ∈ cs, Dict.WF c.sectors) (ha : Agree cs) : (content f cs).Perm (content f cs') := by
  unfold content
  have hp' := hp.filter fun c => c.childOf f
  have hch : ∀ c ∈ cs.filter (fun c => c.childOf f), c ∈ cs ∧ c.eft = f.eft ∧ c.parent = some f.basis := by
    intro c hc
    simpa [BasisFile.childOf] using hc
  have hag : ∀ c ∈ cs.filter (fun c => c.childOf f), ∀ c' ∈ cs.filter (fun c => c.childOf f), ∀ k v v',
      Dict.find c.sectors k = some v → Dict.find c'.sectors k = some v' → v = v' := by
    intro c hc c' hc'
    obtain ⟨h1, h2, h3⟩ := hch c hc
    obtain ⟨h1', h2', h3'⟩ := hch c' hc'
    exact ha c h1 c' h1' (h2.trans h2'.symm) (h3.trans h3'.symm)
  apply perm_of_find (WF_foldl_upd _ _ hf) (WF_foldl_upd _ _ hf)
  intro k v
  rw [find_foldl_upd _ _ (fun c hc => hw c (hch c hc).1) hag,
    find_foldl_upd _ _ (fun c hc => hw c (hch c (hp'.mem_iff.2 hc)).1)
      (fun c hc c' hc' => hag c (hp'.mem_iff.2 hc) c' (hp'.mem_iff.2 hc'))]
  simp only [hp'.mem_iff]

theorem namesOf_perm {s s' : Sectors} (hp : s.Perm s') {l : List String} (h : namesOf s = .ok l) :
    ∃ l', namesOf s' = .ok l' ∧ l.Perm l' := by
  unfold namesOf at h ⊢
  set g : String × JVal → List String := fun p => (iterNames p.2).toOption.getD [] with hgdef
  have hall : ∀ p ∈ s, ∃ y, iterNames p.2 = .ok y := by
    apply (mapM_ok_iff (fun p : String × JVal => iterNames p.2) s).1
    cases hm : s.mapM (fun p => iterNames p.2) with
    | error e => rw [hm] at h; cases h
    | ok r => exact ⟨r, rfl⟩
  have hg : ∀ p ∈ s, iterNames p.2 = .ok (g p) := by
    intro p hp
    obtain ⟨y, hy⟩ := hall p hp
    simp [hgdef, hy, Except.toOption]
  have e1 := mapM_ok_map (fun p : String × JVal => iterNames p.2) id g s hg
  have e2 := mapM_ok_map (fun p : String × JVal => iterNames p.2) id g s' (fun p hp' => hg p (hp.mem_iff.2 hp'))
  simp only [List.map_id] at e1 e2
  rw [e1] at h
  rw [e2]
  simp only [bind, Except.bind, pure, Except.pure, Except.ok.injEq] at h ⊢
  exact ⟨_, rfl, h ▸ (hp.map g).flatten⟩

theorem readAllWcs_fresh {st : Store} {i : Id} {o : BasisObj} {s : Sectors}
    (h : st.objs[i]? = some (Obj.basis o)) (ha : o.allWcs = some none) (hs : sectorsOf st i = .ok s) :
    (readAllWcs st i).2 = namesOf s := by
  unfold readAllWcs
  rw [h]
  dsimp only
  rw [ha]
  dsimp only
  rw [hs]
  dsimp only
  cases namesOf s <;> rfl

/-- Each registered basis after the import: it is a file, and its sectors are the merged contents of the
top-level file it belongs to. -/
theorem impInv_lookup {st : Store} {A : String × String → Nat} {bs cs : List BasisFile}
    (h : ImpInv st A bs cs) {n : Name} {i : Id} (hn : st.lookup .basis n = .ok i) :
    ∃ (g f : BasisFile) (o : BasisObj), g ∈ bs ++ cs ∧ n = [g.eft, g.basis] ∧ f ∈ bs ∧
      (g = f ∨ (g ∈ cs ∧ g.childOf f = true)) ∧ st.objs[i]? = some (Obj.basis o) ∧ o.extra = g.kw ∧
      o.allWcs = some none ∧ sectorsOf st i = .ok (content f cs) := by
  obtain ⟨g, hg, rfl⟩ := h.only n i hn
  rcases List.mem_append.1 hg with hb | hc
  · obtain ⟨i', o, h1, h2, h3, h4, h5, h6⟩ := h.base g hb
    rw [hn] at h1; cases h1
    refine ⟨g, g, o, hg, rfl, hb, Or.inl rfl, h2, h3, h4, ?_⟩
    rw [sectorsOf_basis h2, h5]
    simp [h6]
  · obtain ⟨i', o, f, hf, hcf, h1, h2, h3, h4, h5⟩ := h.child g hc
    rw [hn] at h1; cases h1
    obtain ⟨_, _, _, _, _, _, _, h6⟩ := h.base f hf
    refine ⟨g, f, o, hg, rfl, hf, Or.inr ⟨hc, hcf⟩, h2, h3, h4, ?_⟩
    rw [sectorsOf_basis h2, h5]
    simp [h6]

theorem impInv_isName {st : Store} {A : String × String → Nat} {bs cs : List BasisFile}
    (h : ImpInv st A bs cs) (n : Name) :
    (∃ i, st.lookup .basis n = .ok i) ↔ ∃ g ∈ bs ++ cs, n = [g.eft, g.basis] := by
  constructor
  · rintro ⟨i, hi⟩; exact h.only n i hi
  · rintro ⟨g, hg, rfl⟩
    rcases List.mem_append.1 hg with hb | hc
    · obtain ⟨i, o, h1, _⟩ := h.base g hb; exact ⟨i, h1⟩
    · obtain ⟨i, o, f, _, _, h1, _⟩ := h.child g hc; exact ⟨i, h1⟩

theorem FilesOk.perm {efts efts' : List EFTFile} {bases bases' children children' : List BasisFile}
    (h : FilesOk efts bases children) (he : efts.Perm efts') (hb : bases.Perm bases')
    (hc : children.Perm children') : FilesOk efts' bases' children' where
  eftNames := (he.map _).nodup_iff.1 h.eftNames
  eftKw := fun f hf => h.eftKw f (he.mem_iff.2 hf)
  names := ((hb.append hc).map _).nodup_iff.1 h.names
  kw := fun f hf => h.kw f ((hb.append hc).mem_iff.2 hf)
  wf := fun f hf => h.wf f ((hb.append hc).mem_iff.2 hf)
  noParent := fun f hf => h.noParent f (hb.mem_iff.2 hf)
  parent := fun c hcm => by
    obtain ⟨f, hf, hcf⟩ := h.parent c (hc.mem_iff.2 hcm)
    exact ⟨f, hb.mem_iff.1 hf, hcf⟩

/-- Files determined by their registry key. -/
theorem key_inj {l : List BasisFile} (h : (l.map BasisFile.key).Nodup) {f g : BasisFile} (hf : f ∈ l)
    (hg : g ∈ l) (he : f.key = g.key) : f = g :=
  List.inj_on_of_nodup_map h hf hg he

/-- **C07, the part that holds.** For files with distinct names whose children name top-level files as
parents (so no child is the parent of a child), and whose children of one parent agree on common
sectors (in particular if each parent has at most one child): for every order of the three file
lists the import succeeds and defines the same EFTs and bases, with the same sectors and the same
coefficient lists. `ops0` are the translators and matchers registered before. Missing from C07:
children of one parent that define a sector differently. -/
theorem C07_partial (ops0 : List Op)
    (h0 : ∀ op ∈ ops0, (∃ e f t fn, op = .newTranslator e f t fn) ∨ ∃ e f e' t fn, op = .newMatcher e f e' t fn)
    (efts efts' : List EFTFile) (bases bases' children children' : List BasisFile)
    (h : FilesOk efts bases children) (hagree : Agree children)
    (he : efts.Perm efts') (hb : bases.Perm bases') (hc : children.Perm children') :
    (importPkg (run ops0) efts bases children).2 = .ok () ∧
    (importPkg (run ops0) efts' bases' children').2 = .ok () ∧
    SameDefs (importPkg (run ops0) efts bases children).1 (importPkg (run ops0) efts' bases' children').1 := by
  have h4 : ∀ op ∈ ops0, op.onFour := by
    intro op hop
    rcases h0 op hop with ⟨e, f, t, fn, rfl⟩ | ⟨e, f, e', t, fn, rfl⟩ <;> trivial
  have hg := good_run ops0 h4
  have hnone : ∀ c, c = Cls.eft ∨ c = Cls.basis → ∀ n i, (run ops0).lookup c n ≠ .ok i := by
    have : ∀ (ops : List Op) (st : Store), Good st →
        (∀ op ∈ ops, (∃ e f t fn, op = .newTranslator e f t fn) ∨ ∃ e f e' t fn, op = .newMatcher e f e' t fn) →
        ∀ c, c = Cls.eft ∨ c = Cls.basis → ∀ n, (runLog st ops).1.lookup c n = st.lookup c n := by
      intro ops
      induction ops with
      | nil => intro st _ _ c _ n; rfl
      | cons op ops ih =>
        intro st hst hops c hc n
        have hop := hops op (by simp)
        have hon : op.onFour := by
          rcases hop with ⟨e, f, t, fn, rfl⟩ | ⟨e, f, e', t, fn, rfl⟩ <;> trivial
        have := ih (exec st op).1 (good_exec hst op hon) (fun o ho => hops o (by simp [ho])) c hc n
        simp only [runLog]
        rw [this]
        rcases hop with ⟨e, f, t, fn, rfl⟩ | ⟨e, f, e', t, fn, rfl⟩
        · exact lookup_of_register_other hst.noBase (c := .translator) (by simp)
            (exec_instances_new st (.newTranslator e f t fn) rfl) (by rcases hc with rfl | rfl <;> simp) n
        · exact lookup_of_register_other hst.noBase (c := .matcher) (by simp)
            (exec_instances_new st (.newMatcher e f e' t fn) rfl) (by rcases hc with rfl | rfl <;> simp) n
    intro c hc n i hi
    unfold run at hi
    rw [this ops0 .empty good_empty h0 c hc n] at hi
    simp [Store.lookup, Store.registry, Store.empty] at hi
  have h' := h.perm he hb hc
  obtain ⟨hok, hE, A, hI⟩ := importPkg_closed hg (hnone .eft (Or.inl rfl)) (hnone .basis (Or.inr rfl)) h
  obtain ⟨hok', hE', A', hI'⟩ := importPkg_closed hg (hnone .eft (Or.inl rfl)) (hnone .basis (Or.inr rfl)) h'
  refine ⟨hok, hok', ?_⟩
  -- the same pair of files behind the two lookups
  have pair : ∀ n i i', (importPkg (run ops0) efts bases children).1.lookup .basis n = .ok i →
      (importPkg (run ops0) efts' bases' children').1.lookup .basis n = .ok i' →
      ∃ (f : BasisFile) (o o' : BasisObj), f ∈ bases ∧
        (importPkg (run ops0) efts bases children).1.objs[i]? = some (Obj.basis o) ∧ o.allWcs = some none ∧
        (importPkg (run ops0) efts' bases' children').1.objs[i']? = some (Obj.basis o') ∧
        o'.allWcs = some none ∧
        sectorsOf (importPkg (run ops0) efts bases children).1 i = .ok (content f children) ∧
        sectorsOf (importPkg (run ops0) efts' bases' children').1 i' = .ok (content f children') := by
    intro n i i' hi hi'
    obtain ⟨g, f, o, hg1, hn1, hf1, hgf, ho, _, hw, hs⟩ := impInv_lookup hI hi
    obtain ⟨g', f', o', hg2, hn2, hf2, hgf', ho', _, hw', hs'⟩ := impInv_lookup hI' hi'
    have hgg : g' = g := by
      apply key_inj h.names ((hb.append hc).mem_iff.2 hg2) hg1
      rw [hn1] at hn2
      simp only [List.cons.injEq, and_true] at hn2
      simp [BasisFile.key, hn2.1, hn2.2]
    subst hgg
    have hf2' : f' ∈ bases := hb.mem_iff.2 hf2
    have hff : f' = f := by
      have hdisj : ∀ x ∈ bases, x ∉ children := by
        intro x hx hx'
        have hn := h.names
        rw [List.map_append] at hn
        exact (List.nodup_append.1 hn).2.2 _ (List.mem_map_of_mem hx) _ (List.mem_map_of_mem hx') rfl
      rcases hgf with rfl | ⟨hgc, hcf⟩ <;> rcases hgf' with e | ⟨hgc', hcf'⟩
      · exact e.symm
      · exact absurd (hc.mem_iff.2 hgc') (hdisj _ hf1)
      · exact absurd hgc (hdisj _ (e ▸ hf2'))
      · apply key_inj h.names (by simp [hf2']) (by simp [hf1])
        simp only [BasisFile.childOf, decide_eq_true_eq] at hcf hcf'
        have h1 : f'.eft = f.eft := hcf'.1.symm.trans hcf.1
        have h2 : f'.basis = f.basis := by
          have := hcf'.2.symm.trans hcf.2; simpa using this
        simp [BasisFile.key, h1, h2]
    subst hff
    exact ⟨f', o, o', hf1, ho, hw, ho', hw', hs, hs'⟩
  have hperm : ∀ f ∈ bases, (content f children).Perm (content f children') := fun f hf =>
    content_perm f hc (h.wf f (by simp [hf])) (fun c hc => h.wf c (by simp [hc])) hagree
  constructor
  · intro n
    have k1 : ∀ (st : Store) (es : List EFTFile), EftInv st es →
        ((∃ i, st.lookup .eft n = .ok i) ↔ ∃ f ∈ es, n = [f.eft]) := by
      intro st es hinv
      constructor
      · rintro ⟨i, hi⟩; exact hinv.only n i hi
      · rintro ⟨f, hf, rfl⟩; obtain ⟨i, hi, _⟩ := hinv.here f hf; exact ⟨i, hi⟩
    rw [k1 _ _ hE, k1 _ _ hE']
    simp only [he.mem_iff]
  · intro n i i' hi hi'
    obtain ⟨f, hf, rfl⟩ := hE.only n i hi
    obtain ⟨j, hj, ho⟩ := hE.here f hf
    obtain ⟨j', hj', ho'⟩ := hE'.here f (he.mem_iff.1 hf)
    rw [hi] at hj; cases hj
    rw [hi'] at hj'; cases hj'
    exact ⟨f.sectors, by unfold sectorsOf; rw [ho], by unfold sectorsOf; rw [ho']⟩
  · intro n
    rw [impInv_isName hI, impInv_isName hI']
    simp only [(hb.append hc).mem_iff]
  · intro n i i' hi hi'
    obtain ⟨f, o, o', hf, _, _, _, _, hs, hs'⟩ := pair n i i' hi hi'
    exact ⟨_, _, hs, hs', hperm f hf⟩
  · intro n i i' l hi hi' hl
    obtain ⟨f, o, o', hf, ho, hw, ho', hw', hs, hs'⟩ := pair n i i' hi hi'
    rw [readAllWcs_fresh ho hw hs] at hl
    obtain ⟨l', hl', hp'⟩ := namesOf_perm (hperm f hf) hl
    exact ⟨l', by rw [readAllWcs_fresh ho' hw' hs', hl'], hp'⟩

/-- At most one child per parent implies agreement. -/
theorem agree_of_single {children : List BasisFile}
    (h : ∀ c ∈ children, ∀ c' ∈ children, c.eft = c'.eft → c.parent = c'.parent → c = c') : Agree children := by
  intro c hc c' hc' h1 h2 k v v' hv hv'
  have := h c hc c' hc' h1 h2
  subst this
  rw [hv] at hv'; simpa using hv'

/-- Concrete case of `C07_partial`: two top-level files and a child, in two orders. -/
example :
    let e : EFTFile := ⟨"WET", [("a", .null), ("x", .null)], []⟩
    let p : BasisFile := ⟨"WET", "P", [("a", .obj [("C0", .null)])], []⟩
    let q : BasisFile := ⟨"WET", "Q", [("a", .obj [("D0", .null)])], []⟩
    let c : BasisFile := ⟨"WET", "C", [("x", .obj [("C1", .null)])], [("parent", .str "P")]⟩
    FilesOk [e] [p, q] [c] ∧ Agree [c] ∧
    (readAllWcs (importPkg .empty [e] [p, q] [c]).1 3).2 = .ok ["C0", "C1"] ∧
    (importPkg .empty [e] [q, p] [c]).1.lookup .basis ["WET", "C"] = .ok 3 := by
  intro e p q c
  refine ⟨?_, agree_of_single (by simp), rfl, rfl⟩
  constructor <;> simp [e, p, q, c, Dict.keys, BasisFile.key, Dict.find, BasisFile.childOf, BasisFile.parent, Dict.WF]

end Verif
