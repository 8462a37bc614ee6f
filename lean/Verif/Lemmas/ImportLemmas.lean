import Verif.Model.Import
import Verif.Lemmas.BasisLemmas

/-! The state after package import in closed form. -/

set_option autoImplicit false

namespace Verif

namespace BasisFile

/-- Registry key of a basis file. -/
def key (f : BasisFile) : String × String := (f.eft, f.basis)

/-- Parent name given in the file. -/
def parent (f : BasisFile) : Option String :=
  match Dict.find f.kw "parent" with
  | some (.str p) => some p
  | _ => none

/-- `c` names `f` as its parent. -/
def childOf (c f : BasisFile) : Bool := decide (c.eft = f.eft ∧ c.parent = some f.basis)

end BasisFile

/-- Sectors of the basis `f` after its children among `done` have been read, in order. -/
def content (f : BasisFile) (done : List BasisFile) : Sectors :=
  (done.filter fun c => c.childOf f).foldl (fun d c => Dict.upd d c.sectors) f.sectors

theorem content_snoc (f c : BasisFile) (done : List BasisFile) :
    content f (done ++ [c]) =
      if c.childOf f then Dict.upd (content f done) c.sectors else content f done := by
  unfold content
  rw [List.filter_append, List.foldl_append]
  by_cases h : c.childOf f <;> simp [h]

/-- State while the basis files are read: `bs` without parent first, then the children `done`. -/
structure ImpInv (st : Store) (A : String × String → Nat) (bs done : List BasisFile) : Prop where
  good : Good st
  base : ∀ f ∈ bs, ∃ (i : Id) (o : BasisObj), st.lookup .basis [f.eft, f.basis] = .ok i ∧
    st.objs[i]? = some (Obj.basis o) ∧ o.extra = f.kw ∧ o.allWcs = some none ∧ o.sectors = some (A f.key) ∧
    st.heap[A f.key]? = some (content f done)
  inj : ∀ f ∈ bs, ∀ g ∈ bs, A f.key = A g.key → f.key = g.key
  child : ∀ c ∈ done, ∃ (i : Id) (o : BasisObj) (f : BasisFile), f ∈ bs ∧ c.childOf f = true ∧
    st.lookup .basis [c.eft, c.basis] = .ok i ∧ st.objs[i]? = some (Obj.basis o) ∧ o.extra = c.kw ∧
    o.allWcs = some none ∧ o.sectors = some (A f.key)
  only : ∀ n i, st.lookup .basis n = .ok i → ∃ f ∈ bs ++ done, n = [f.eft, f.basis]

theorem lookup_after_basis {st : Store} (hg : Good st) (f : BasisFile) (n : Name) (i : Id) :
    (newBasis st f.eft f.basis f.sectors f.kw).1.lookup .basis n = .ok i ↔
      (n = [f.eft, f.basis] ∧ i = st.objs.length) ∨ (n ≠ [f.eft, f.basis] ∧ st.lookup .basis n = .ok i) := by
  rw [lookup_of_register hg.noBase (by simp) (newBasis_instances st f.eft f.basis f.sectors f.kw),
    hg.lookup_eq]
  by_cases h : [f.eft, f.basis] = n
  · subst h; simp [eq_comm]
  · rw [if_neg h]
    have h' : n ≠ [f.eft, f.basis] := fun e => h e.symm
    cases st.instances .basis <;> simp [h']

theorem impInv_base {st : Store} {A : String × String → Nat} {bs : List BasisFile}
    (h : ImpInv st A bs []) (f : BasisFile) (hf : f.key ∉ bs.map BasisFile.key)
    (hp : Dict.find f.kw "parent" = none)
    (hk : ∀ k ∈ Dict.keys f.kw, k ∉ ["known_translators", "all_wcs"]) :
    (∃ i, (newBasis st f.eft f.basis f.sectors f.kw).2 = .ok i) ∧
    ∃ A', ImpInv (newBasis st f.eft f.basis f.sectors f.kw).1 A' (bs ++ [f]) [] := by
  have hr : (setAttrs ["known_translators", "all_wcs"] f.kw).2 = none := setAttrs_none_iff.2 hk
  obtain ⟨o, ho1, ho2, hobjs, hcase⟩ := newBasis_cases st f.eft f.basis f.sectors f.kw
  have hok : (newBasis st f.eft f.basis f.sectors f.kw).2 = .ok st.objs.length := by
    unfold newBasis
    dsimp only
    rw [hr, setAttrs_ok hr, hp]
  have hc : o.extra = f.kw ∧ o.sectors = some st.heap.length ∧ o.allWcs = some none ∧
      (newBasis st f.eft f.basis f.sectors f.kw).1.heap = st.heap ++ [f.sectors] := by
    rcases hcase with ⟨_, _, _, err, herr⟩ | ⟨_, h1, h2, h3, h4, _⟩ | ⟨_, _, _, _, hpa, _⟩
    · rw [hok] at herr; cases herr
    · exact ⟨h1, h2, h3, h4⟩
    · rw [hp] at hpa; cases hpa
  obtain ⟨hex, hsec, hall, hheap⟩ := hc
  refine ⟨⟨_, hok⟩, Function.update A f.key st.heap.length, ?_⟩
  have hA : ∀ g ∈ bs, Function.update A f.key st.heap.length g.key = A g.key := by
    intro g hg
    apply Function.update_of_ne
    intro e
    exact hf (e ▸ List.mem_map_of_mem hg)
  have hlt : ∀ g ∈ bs, A g.key < st.heap.length := by
    intro g hg
    obtain ⟨i, o, _, hi, _, _, ha, _⟩ := h.base g hg
    exact h.good.addr i o _ hi ha
  constructor
  · exact good_exec h.good (.newBasis f.eft f.basis f.sectors f.kw) trivial
  · intro g hg
    rcases List.mem_append.1 hg with hg | hg
    · obtain ⟨i, o', h1, h2, h3, h4, h5, h6⟩ := h.base g hg
      refine ⟨i, o', ?_, ?_, h3, h4, ?_, ?_⟩
      · rw [lookup_after_basis h.good]
        right
        refine ⟨?_, h1⟩
        intro e
        simp only [List.cons.injEq, and_true] at e
        exact hf (List.mem_map.2 ⟨g, hg, by simp [BasisFile.key, e.1, e.2]⟩)
      · rw [newBasis_objs_old _ _ _ _ _ (List.getElem?_eq_some_iff.1 h2).1, h2]
      · rw [hA g hg]; exact h5
      · rw [hA g hg, hheap, List.getElem?_append_left (hlt g hg)]; exact h6
    · simp only [List.mem_singleton] at hg
      subst hg
      refine ⟨st.objs.length, o, ?_, ?_, hex, hall, ?_, ?_⟩
      · rw [lookup_after_basis h.good]; left; exact ⟨rfl, rfl⟩
      · rw [hobjs]; simp
      · rw [Function.update_self]; exact hsec
      · rw [Function.update_self, hheap]; simp [content]
  · intro g hg g' hg' he
    rcases List.mem_append.1 hg with h1 | h1 <;> rcases List.mem_append.1 hg' with h2 | h2
    · rw [hA g h1, hA g' h2] at he; exact h.inj g h1 g' h2 he
    · rw [hA g h1, List.mem_singleton.1 h2, Function.update_self] at he
      have := hlt g h1; omega
    · rw [hA g' h2, List.mem_singleton.1 h1, Function.update_self] at he
      have := hlt g' h2; omega
    · rw [List.mem_singleton.1 h1, List.mem_singleton.1 h2]
  · intro c hc; simp at hc
  · intro n i hn
    rw [lookup_after_basis h.good] at hn
    rcases hn with ⟨hn, _⟩ | ⟨_, hn⟩
    · exact ⟨f, by simp, hn⟩
    · obtain ⟨g, hg, e⟩ := h.only n i hn
      exact ⟨g, by simp at hg ⊢; tauto, e⟩

theorem impInv_child {st : Store} {A : String × String → Nat} {bs done : List BasisFile}
    (h : ImpInv st A bs done) (c f : BasisFile) (hc : c.key ∉ (bs ++ done).map BasisFile.key)
    (hf : f ∈ bs) (hcf : c.childOf f = true)
    (hk : ∀ k ∈ Dict.keys c.kw, k ∉ ["known_translators", "all_wcs"]) :
    (∃ i, (newBasis st c.eft c.basis c.sectors c.kw).2 = .ok i) ∧
    ImpInv (newBasis st c.eft c.basis c.sectors c.kw).1 A bs (done ++ [c]) := by
  obtain ⟨he, hpar⟩ : c.eft = f.eft ∧ c.parent = some f.basis := by simpa [BasisFile.childOf] using hcf
  have hp : Dict.find c.kw "parent" = some (.str f.basis) := by
    unfold BasisFile.parent at hpar
    split at hpar
    · rename_i p hp; rw [hp]; simpa using hpar
    · simp at hpar
  obtain ⟨pid, po, hl, hpo, _, _, hsec, _⟩ := h.base f hf
  have hne : c.basis ≠ f.basis := by
    intro e
    apply hc
    simp only [List.map_append, List.mem_append]
    left
    exact List.mem_map.2 ⟨f, hf, by simp [BasisFile.key, he, e]⟩
  have hcases := newBasis_parent h.good c.eft c.basis f.basis c.sectors c.kw hp hk
  have haddr : addrOf st pid = some (A f.key) := by unfold addrOf; rw [hpo]; exact hsec
  rw [he] at hcases
  rcases hcases with ⟨pid', a, _, hl', ha, hok, hheap, hobjs⟩ | ⟨hbad, _⟩
  swap
  · rcases hbad with hbad | hbad
    · exact absurd hbad hne
    · rw [hbad pid hl] at haddr; cases haddr
  rw [hl] at hl'; cases hl'
  rw [haddr] at ha; cases ha
  rw [← he] at hok hheap hobjs
  refine ⟨⟨_, hok⟩, ?_⟩
  have hfresh : ∀ g ∈ bs ++ done, [g.eft, g.basis] ≠ [c.eft, c.basis] := by
    intro g hg e
    simp only [List.cons.injEq, and_true] at e
    exact hc (List.mem_map.2 ⟨g, hg, by simp [BasisFile.key, e.1, e.2]⟩)
  have hchild : ∀ g ∈ bs, c.childOf g = decide (g.key = f.key) := by
    intro g hg
    simp only [BasisFile.childOf, BasisFile.key, hpar, he, Prod.mk.injEq, Option.some.injEq]
    apply decide_eq_decide.2
    constructor
    · rintro ⟨h1, h2⟩; exact ⟨h1.symm, h2.symm⟩
    · rintro ⟨h1, h2⟩; exact ⟨h1.symm, h2.symm⟩
  constructor
  · exact good_exec h.good (.newBasis c.eft c.basis c.sectors c.kw) trivial
  · intro g hg
    obtain ⟨i, o', h1, h2, h3, h4, h5, h6⟩ := h.base g hg
    refine ⟨i, o', ?_, ?_, h3, h4, h5, ?_⟩
    · rw [lookup_after_basis h.good]
      exact Or.inr ⟨hfresh g (by simp [hg]), h1⟩
    · rw [newBasis_objs_old _ _ _ _ _ (List.getElem?_eq_some_iff.1 h2).1, h2]
    · rw [hheap, content_snoc, hchild g hg, List.getElem?_modify]
      by_cases hgf : g.key = f.key
      · rw [hgf] at h6
        simp [hgf, h6]
      · have : A f.key ≠ A g.key := fun e => hgf (h.inj f hf g hg e).symm
        simp [hgf, this, h6]
  · exact h.inj
  · intro d hd
    rcases List.mem_append.1 hd with hd | hd
    · obtain ⟨i, o', g, hg, hdg, h1, h2, h3, h4, h5⟩ := h.child d hd
      refine ⟨i, o', g, hg, hdg, ?_, ?_, h3, h4, h5⟩
      · rw [lookup_after_basis h.good]
        exact Or.inr ⟨hfresh d (by simp [hd]), h1⟩
      · rw [newBasis_objs_old _ _ _ _ _ (List.getElem?_eq_some_iff.1 h2).1, h2]
    · simp only [List.mem_singleton] at hd
      subst hd
      refine ⟨st.objs.length, ⟨d.eft, d.basis, d.kw, some (A f.key), some none⟩, f, hf, hcf, ?_, ?_, rfl,
        rfl, rfl⟩
      · rw [lookup_after_basis h.good]; exact Or.inl ⟨rfl, rfl⟩
      · rw [hobjs]; simp
  · intro n i hn
    rw [lookup_after_basis h.good] at hn
    rcases hn with ⟨hn, _⟩ | ⟨_, hn⟩
    · exact ⟨c, by simp, hn⟩
    · obtain ⟨g, hg, e⟩ := h.only n i hn
      exact ⟨g, by simp at hg ⊢; tauto, e⟩

/-- What the definition files have to satisfy for the import to succeed: distinct names, top-level files
without parent, children with a parent among the top-level files, no reserved attribute name. -/
structure FilesOk (efts : List EFTFile) (bases children : List BasisFile) : Prop where
  eftNames : (efts.map EFTFile.eft).Nodup
  eftKw : ∀ f ∈ efts, ∀ k ∈ Dict.keys f.kw, k ∉ ["known_bases", "known_translators"]
  names : ((bases ++ children).map BasisFile.key).Nodup
  kw : ∀ f ∈ bases ++ children, ∀ k ∈ Dict.keys f.kw, k ∉ ["known_translators", "all_wcs"]
  wf : ∀ f ∈ bases ++ children, Dict.WF f.sectors
  noParent : ∀ f ∈ bases, Dict.find f.kw "parent" = none
  parent : ∀ c ∈ children, ∃ f ∈ bases, c.childOf f = true

theorem importBases_append (st : Store) (l l' : List BasisFile) :
    importBases st (l ++ l') = match importBases st l with
      | (st', .error e) => (st', .error e)
      | (st', .ok _) => importBases st' l' := by
  induction l generalizing st with
  | nil => rfl
  | cons f l ih =>
    simp only [List.cons_append, importBases]
    cases h : newBasis st f.eft f.basis f.sectors f.kw with
    | mk st' r => cases r with
      | error e => rfl
      | ok i => exact ih st'

theorem importBases_base {st : Store} {A : String × String → Nat} {bs : List BasisFile}
    (h : ImpInv st A bs []) (l : List BasisFile) (hnd : ((bs ++ l).map BasisFile.key).Nodup)
    (hp : ∀ f ∈ l, Dict.find f.kw "parent" = none)
    (hk : ∀ f ∈ l, ∀ k ∈ Dict.keys f.kw, k ∉ ["known_translators", "all_wcs"]) :
    (importBases st l).2 = .ok () ∧ ∃ A', ImpInv (importBases st l).1 A' (bs ++ l) [] := by
  induction l generalizing st A bs with
  | nil => exact ⟨rfl, A, by simpa [importBases] using h⟩
  | cons f l ih =>
    have hf : f.key ∉ bs.map BasisFile.key := by
      simp only [List.map_append, List.map_cons] at hnd
      have := List.nodup_append.1 hnd
      intro hm
      exact this.2.2 _ hm f.key (by simp) rfl
    obtain ⟨⟨i, hi⟩, A', hinv⟩ := impInv_base h f hf (hp f (by simp)) (hk f (by simp))
    have := ih hinv (by simpa using hnd) (fun g hg => hp g (by simp [hg])) (fun g hg => hk g (by simp [hg]))
    simp only [importBases]
    cases hn : newBasis st f.eft f.basis f.sectors f.kw with
    | mk st' r =>
      rw [hn] at hi this
      dsimp only at hi this
      rw [hi]
      simpa using this

theorem importBases_child {st : Store} {A : String × String → Nat} {bs done : List BasisFile}
    (h : ImpInv st A bs done) (l : List BasisFile) (hnd : ((bs ++ done ++ l).map BasisFile.key).Nodup)
    (hp : ∀ c ∈ l, ∃ f ∈ bs, c.childOf f = true)
    (hk : ∀ f ∈ l, ∀ k ∈ Dict.keys f.kw, k ∉ ["known_translators", "all_wcs"]) :
    (importBases st l).2 = .ok () ∧ ImpInv (importBases st l).1 A bs (done ++ l) := by
  induction l generalizing st done with
  | nil => exact ⟨rfl, by simpa [importBases] using h⟩
  | cons c l ih =>
    have hc : c.key ∉ (bs ++ done).map BasisFile.key := by
      rw [List.map_append (l₂ := c :: l), List.map_cons] at hnd
      have := List.nodup_append.1 hnd
      intro hm
      exact this.2.2 _ hm c.key (by simp) rfl
    obtain ⟨f, hf, hcf⟩ := hp c (by simp)
    obtain ⟨⟨i, hi⟩, hinv⟩ := impInv_child h c f hc hf hcf (hk c (by simp))
    have := ih hinv (by simpa using hnd) (fun g hg => hp g (by simp [hg])) (fun g hg => hk g (by simp [hg]))
    simp only [importBases]
    cases hn : newBasis st c.eft c.basis c.sectors c.kw with
    | mk st' r =>
      rw [hn] at hi this
      dsimp only at hi this
      rw [hi]
      simpa using this

/-- State while the EFT files are read. -/
structure EftInv (st : Store) (es : List EFTFile) : Prop where
  here : ∀ f ∈ es, ∃ i : Id, st.lookup .eft [f.eft] = .ok i ∧
    st.objs[i]? = some (Obj.eft ⟨f.eft, f.sectors, f.kw⟩)
  only : ∀ n i, st.lookup .eft n = .ok i → ∃ f ∈ es, n = [f.eft]

theorem importEFTs_inv {st : Store} {es : List EFTFile} (hg : Good st) (h : EftInv st es)
    (l : List EFTFile) (hnd : ((es ++ l).map EFTFile.eft).Nodup)
    (hk : ∀ f ∈ l, ∀ k ∈ Dict.keys f.kw, k ∉ ["known_bases", "known_translators"]) :
    (importEFTs st l).2 = .ok () ∧ Good (importEFTs st l).1 ∧ EftInv (importEFTs st l).1 (es ++ l) ∧
    ∀ n, (importEFTs st l).1.lookup .basis n = st.lookup .basis n := by
  induction l generalizing st es with
  | nil => exact ⟨rfl, hg, by simpa [importEFTs] using h, fun _ => rfl⟩
  | cons f l ih =>
    have hr : (setAttrs ["known_bases", "known_translators"] f.kw).2 = none :=
      setAttrs_none_iff.2 (hk f (by simp))
    have hobjs : (newEFT st f.eft f.sectors f.kw).1.objs = st.objs ++ [Obj.eft ⟨f.eft, f.sectors, f.kw⟩] ∧
        (newEFT st f.eft f.sectors f.kw).2 = .ok st.objs.length := by
      unfold newEFT
      dsimp only
      rw [hr, setAttrs_ok hr]
      simp
    have hinst : (newEFT st f.eft f.sectors f.kw).1.instances =
        (st.register .eft [f.eft] st.objs.length).instances :=
      exec_instances_new st (.newEFT f.eft f.sectors f.kw) rfl
    have hg' : Good (newEFT st f.eft f.sectors f.kw).1 := good_exec hg (.newEFT f.eft f.sectors f.kw) trivial
    have hfresh : ∀ g ∈ es, g.eft ≠ f.eft := by
      intro g hg e
      simp only [List.map_append, List.map_cons] at hnd
      exact (List.nodup_append.1 hnd).2.2 _ (List.mem_map_of_mem hg) f.eft (by simp) e
    have hlook : ∀ n i, (newEFT st f.eft f.sectors f.kw).1.lookup .eft n = .ok i ↔
        (n = [f.eft] ∧ i = st.objs.length) ∨ (n ≠ [f.eft] ∧ st.lookup .eft n = .ok i) := by
      intro n i
      rw [lookup_of_register hg.noBase (by simp) hinst, hg.lookup_eq]
      by_cases h : [f.eft] = n
      · subst h; simp [eq_comm]
      · rw [if_neg h]
        have h' : n ≠ [f.eft] := fun e => h e.symm
        cases st.instances .eft <;> simp [h']
    have hinv : EftInv (newEFT st f.eft f.sectors f.kw).1 (es ++ [f]) := by
      constructor
      · intro g hgm
        rcases List.mem_append.1 hgm with h1 | h1
        · obtain ⟨i, hi, ho⟩ := h.here g h1
          refine ⟨i, (hlook _ _).2 (Or.inr ⟨by simpa using hfresh g h1, hi⟩), ?_⟩
          rw [hobjs.1, List.getElem?_append_left (List.getElem?_eq_some_iff.1 ho).1, ho]
        · rw [List.mem_singleton.1 h1]
          exact ⟨st.objs.length, (hlook _ _).2 (Or.inl ⟨rfl, rfl⟩), by rw [hobjs.1]; simp⟩
      · intro n i hn
        rcases (hlook n i).1 hn with ⟨hn, _⟩ | ⟨_, hn⟩
        · exact ⟨f, by simp, hn⟩
        · obtain ⟨g, hg, e⟩ := h.only n i hn
          exact ⟨g, by simp [hg], e⟩
    have := ih hg' hinv (by simpa using hnd) (fun g hg => hk g (by simp [hg]))
    have hb : ∀ n, (newEFT st f.eft f.sectors f.kw).1.lookup .basis n = st.lookup .basis n := fun n =>
      lookup_of_register_other hg.noBase (by simp) hinst (by simp) n
    simp only [importEFTs]
    cases hn : newEFT st f.eft f.sectors f.kw with
    | mk st' r =>
      rw [hn] at hobjs this hb
      dsimp only at hobjs this hb
      rw [hobjs.2]
      dsimp only
      refine ⟨this.1, this.2.1, by simpa using this.2.2.1, fun n => ?_⟩
      rw [this.2.2.2 n, hb n]

theorem importBases_eft (st : Store) (hg : Good st) (l : List BasisFile) :
    (∀ n, (importBases st l).1.lookup .eft n = st.lookup .eft n) ∧
    ∀ i < st.objs.length, (importBases st l).1.objs[i]? = st.objs[i]? := by
  induction l generalizing st with
  | nil => exact ⟨fun _ => rfl, fun _ _ => rfl⟩
  | cons f l ih =>
    have hg' := good_exec hg (.newBasis f.eft f.basis f.sectors f.kw) trivial
    have h1 : ∀ n, (newBasis st f.eft f.basis f.sectors f.kw).1.lookup .eft n = st.lookup .eft n := fun n =>
      lookup_of_register_other hg.noBase (by simp) (newBasis_instances st f.eft f.basis f.sectors f.kw)
        (by simp) n
    have h2 : ∀ i < st.objs.length, (newBasis st f.eft f.basis f.sectors f.kw).1.objs[i]? = st.objs[i]? :=
      fun i hi => newBasis_objs_old _ _ _ _ _ hi
    have h3 : st.objs.length ≤ (newBasis st f.eft f.basis f.sectors f.kw).1.objs.length := by
      obtain ⟨o, _, _, hobjs, _⟩ := newBasis_cases st f.eft f.basis f.sectors f.kw
      rw [hobjs]; simp
    simp only [importBases]
    cases hn : newBasis st f.eft f.basis f.sectors f.kw with
    | mk st' r =>
      simp only [exec] at hg'
      rw [hn] at h1 h2 h3 hg'
      cases r with
      | error e => exact ⟨h1, h2⟩
      | ok i =>
        obtain ⟨ih1, ih2⟩ := ih st' hg'
        dsimp only at h1 h2 h3 ⊢
        exact ⟨fun n => by rw [ih1, h1], fun i hi => by rw [ih2 i (by omega), h2 i hi]⟩

/-- Closed form of the import. -/
theorem importPkg_closed {st : Store} (hg : Good st) (he : ∀ n i, st.lookup .eft n ≠ .ok i)
    (hb : ∀ n i, st.lookup .basis n ≠ .ok i) {efts : List EFTFile} {bases children : List BasisFile}
    (h : FilesOk efts bases children) :
    (importPkg st efts bases children).2 = .ok () ∧
    EftInv (importPkg st efts bases children).1 efts ∧
    ∃ A, ImpInv (importPkg st efts bases children).1 A bases children := by
  obtain ⟨h1, h2, h3, h4⟩ := importEFTs_inv (es := []) hg
    ⟨fun f hf => absurd hf (by simp), fun n i hn => absurd hn (he n i)⟩ efts (by simpa using h.eftNames) h.eftKw
  simp only [List.nil_append] at h3
  unfold importPkg
  cases hi : importEFTs st efts with
  | mk st1 r =>
    rw [hi] at h1 h2 h3 h4
    dsimp only at h1 h2 h3 h4 ⊢
    rw [h1]
    dsimp only
    have hinv0 : ImpInv st1 (fun _ => 0) [] [] := by
      constructor
      · exact h2
      · intro f hf; simp at hf
      · intro f hf; simp at hf
      · intro f hf; simp at hf
      · intro n i hn; rw [h4 n] at hn; exact absurd hn (hb n i)
    have hnames := h.names
    obtain ⟨h5, A, h6⟩ := importBases_base hinv0 bases
      (by simp only [List.map_append, List.nil_append] at hnames ⊢; exact (List.nodup_append.1 hnames).1) h.noParent
      (fun f hf => h.kw f (by simp [hf]))
    obtain ⟨e1, e2⟩ := importBases_eft st1 h2 (bases ++ children)
    have hE : EftInv (importBases st1 (bases ++ children)).1 efts := by
      constructor
      · intro f hf
        obtain ⟨i, hi1, hi2⟩ := h3.here f hf
        exact ⟨i, by rw [e1]; exact hi1, by rw [e2 i (List.getElem?_eq_some_iff.1 hi2).1]; exact hi2⟩
      · intro n i hn
        rw [e1] at hn; exact h3.only n i hn
    refine ⟨?_, hE, ?_⟩
    · rw [importBases_append]
      cases hbb : importBases st1 bases with
      | mk st2 r2 =>
        rw [hbb] at h5 h6
        dsimp only at h5 h6 ⊢
        rw [h5]
        exact (importBases_child h6 children (by simpa using hnames) h.parent
          (fun f hf => h.kw f (by simp [hf]))).1
    · rw [importBases_append]
      cases hbb : importBases st1 bases with
      | mk st2 r2 =>
        rw [hbb] at h5 h6
        dsimp only at h5 h6 ⊢
        rw [h5]
        have := (importBases_child h6 children (by simpa using hnames) h.parent
          (fun f hf => h.kw f (by simp [hf]))).2
        exact ⟨A, by simpa using this⟩

end Verif
