import Verif.Lemmas.BasisLemmas
import Verif.Props.Registry
import Mathlib.Data.List.Basic

/-!
C03–C06: definition of bases, parents, cached coefficient lists.
-/

set_option autoImplicit false

namespace Verif

/-! ### C03 -/

/-- One EFT and one good basis. -/
def goodOps : List Op :=
  [.newEFT "WET" [("sb", .null)] [],
   .newBasis "WET" "JMS" [("sb", .obj [("C1", .null)])] []]

theorem goodOps_onFour : ∀ op ∈ goodOps, op.onFour := by simp [goodOps, Op.onFour]

/-- **C03 is false.** After a good definition of `WET/JMS`, a rejected re-definition (misspelt parent)
changes what `Basis['WET', 'JMS']` returns: the new object has no coefficient list (reading it raises
`AttributeError`), and a Wilson coefficient file that validated before raises afterwards. A rejected
definition under a fresh name appears in `known_bases`. -/
theorem C03_refuted :
    let st := run goodOps
    let bad := newBasis st "WET" "JMS" [] [("parent", .str "typo")]
    let bad2 := newBasis st "WET" "new" [] [("parent", .str "typo")]
    let w : WC := ⟨"WET", "JMS", 5, .obj [("C1", .num 1)], .none, []⟩
    bad.2 = .error (.valueError "Parent basis not found") ∧
    st.lookup .basis ["WET", "JMS"] = .ok 1 ∧ (readAllWcs st 1).2 = .ok ["C1"] ∧
    bad.1.lookup .basis ["WET", "JMS"] = .ok 2 ∧
    (readAllWcs bad.1 2).2 = .error .attributeError ∧
    validateWC st w = .ok () ∧ validateWC bad.1 w = .error .attributeError ∧
    bad2.2 = .error (.valueError "Parent basis not found") ∧
    knownBases st "WET" = .ok ["JMS"] ∧ knownBases bad2.1 "WET" = .ok ["JMS", "new"] := by
  refine ⟨rfl, rfl, rfl, rfl, rfl, ?_, rfl, rfl, rfl, rfl⟩
  rfl

/-- **C03, the part that holds.** In every reachable state a rejected basis definition changes no
registration other than the one under its own name, no sectors and no coefficient list of any
existing object. Missing from C03: the registration under its own name. -/
theorem C03_partial (ops : List Op) (h4 : ∀ op ∈ ops, op.onFour) (e b : String) (s : Sectors)
    (kw : Dict String JVal) (err : PyErr) (herr : (newBasis (run ops) e b s kw).2 = .error err) :
    (∀ c m i, (c, m) ≠ (Cls.basis, [e, b]) →
      ((newBasis (run ops) e b s kw).1.lookup c m = .ok i ↔ (run ops).lookup c m = .ok i)) ∧
    (∀ j < (run ops).objs.length,
      sectorsOf (newBasis (run ops) e b s kw).1 j = sectorsOf (run ops) j ∧
      (readAllWcs (newBasis (run ops) e b s kw).1 j).2 = (readAllWcs (run ops) j).2) := by
  have h := good_run ops h4
  have hi := newBasis_instances (run ops) e b s kw
  constructor
  · intro c m i hne
    by_cases hc : c = .basis
    · subst hc
      have hm : [e, b] ≠ m := fun hm => hne (by rw [hm])
      rw [lookup_of_register h.noBase (by simp) hi, if_neg hm, h.lookup_eq]
      cases (run ops).instances .basis <;> simp
    · rw [lookup_of_register_other h.noBase (by simp) hi hc]
  · intro j hj
    have ho := newBasis_objs_old (run ops) e b s kw hj
    have hs : sectorsOf (newBasis (run ops) e b s kw).1 j = sectorsOf (run ops) j := by
      apply sectorsOf_congr ho
      intro a _
      obtain ⟨o, _, _, _, hc⟩ := newBasis_cases (run ops) e b s kw
      rcases hc with ⟨_, _, hh, _⟩ | ⟨_, _, _, _, _, hok⟩ | ⟨_, _, _, _, _, _, _, _, _, _, _, _, hok⟩
      · rw [hh]
      · rw [hok] at herr; cases herr
      · rw [hok] at herr; cases herr
    exact ⟨hs, readAllWcs_congr ho hs⟩

/-- Concrete case of `C03_partial`. -/
example : (newBasis (run goodOps) "WET" "JMS" [] [("parent", .str "typo")]).2 =
    .error (.valueError "Parent basis not found") ∧
    (readAllWcs (newBasis (run goodOps) "WET" "JMS" [] [("parent", .str "typo")]).1 1).2 = .ok ["C1"] :=
  ⟨rfl, rfl⟩

/-! ### C04 -/

/-- **C04.** In every reachable state, defining a basis with a `parent` succeeds exactly if the parent
name is not the child's own and denotes a completely built registered basis of the same EFT;
otherwise `ValueError` is raised. On success the sectors of the child are those of the parent,
overridden by the child's own; the parent's sector order comes first. -/
theorem C04_child_overrides_parent (ops : List Op) (h4 : ∀ op ∈ ops, op.onFour) (e b par : String)
    (s : Sectors) (hs : Dict.WF s) (kw : Dict String JVal)
    (hp : Dict.find kw "parent" = some (.str par))
    (hk : ∀ k ∈ Dict.keys kw, k ∉ ["known_translators", "all_wcs"]) :
    (∀ pid ps, b ≠ par → (run ops).lookup .basis [e, par] = .ok pid → sectorsOf (run ops) pid = .ok ps →
      ∃ i cs, (newBasis (run ops) e b s kw).2 = .ok i ∧
        (newBasis (run ops) e b s kw).1.lookup .basis [e, b] = .ok i ∧
        sectorsOf (newBasis (run ops) e b s kw).1 i = .ok cs ∧
        (∀ k, Dict.find cs k = (Dict.find s k).or (Dict.find ps k)) ∧
        Dict.keys ps <+: Dict.keys cs) ∧
    ((b = par ∨ ∀ pid ps, (run ops).lookup .basis [e, par] = .ok pid → sectorsOf (run ops) pid ≠ .ok ps) →
      (newBasis (run ops) e b s kw).2 = .error (.valueError "Parent basis not found")) := by
  have h := good_run ops h4
  rcases newBasis_parent h e b par s kw hp hk with
    ⟨pid, a, hbp, hl, ha, hok, hheap, hobjs⟩ | ⟨hno, herr, _, _⟩
  · -- the sectors of the parent
    obtain ⟨o, ho, hoi⟩ := h.lookup_ident hl
    have hob : ∃ po : BasisObj, (run ops).objs[pid]? = some (.basis po) ∧ po.sectors = some a := by
      unfold addrOf at ha
      rw [ho] at ha ⊢
      cases o with
      | basis po => exact ⟨po, rfl, ha⟩
      | _ => simp at ha
    obtain ⟨po, hpo, hpa⟩ := hob
    have hlt := h.addr pid po a hpo hpa
    have hsec : sectorsOf (run ops) pid = .ok ((run ops).heap[a]) := by
      rw [sectorsOf_basis hpo, hpa]; simp [hlt]
    constructor
    · intro pid' ps _ hl' hps
      rw [hl] at hl'
      cases hl'
      rw [hsec] at hps
      cases hps
      refine ⟨_, Dict.upd ((run ops).heap[a]) s, hok, ?_, ?_, ?_, ?_⟩
      · rw [lookup_of_register h.noBase (by simp) (newBasis_instances _ e b s kw)]
        simp
      · have : (newBasis (run ops) e b s kw).1.objs[(run ops).objs.length]? =
            some (.basis ⟨e, b, kw, some a, some none⟩) := by simp [hobjs]
        rw [sectorsOf_basis this, hheap]
        simp [List.getElem?_modify, hlt]
      · intro k; exact Dict.find_upd hs _ k
      · exact keys_prefix_upd _ _
    · rintro (hb | hno)
      · exact absurd hb hbp
      · exact absurd hsec (hno pid _ hl)
  · constructor
    · intro pid ps hbp hl hps
      rcases hno with hb | hno
      · exact absurd hb hbp
      · have hn := hno pid hl
        obtain ⟨o, ho, hoi⟩ := h.lookup_ident hl
        cases o with
        | basis po =>
          have : po.sectors = none := by unfold addrOf at hn; rw [ho] at hn; exact hn
          rw [sectorsOf_basis ho, this] at hps
          simp at hps
        | _ => simp [Obj.ident] at hoi
    · intro _; exact herr

/-- Concrete case of C04: a child with one overriding and one new sector. -/
example :
    let st := run [.newBasis "WET" "P" [("a", .str "pa"), ("b", .str "pb")] []]
    let r := newBasis st "WET" "C" [("b", .str "cb"), ("c", .str "cc")] [("parent", .str "P")]
    r.2 = .ok 1 ∧ sectorsOf r.1 1 = .ok [("a", .str "pa"), ("b", .str "cb"), ("c", .str "cc")] ∧
    (newBasis st "WET" "C" [] [("parent", .str "Q")]).2 = .error (.valueError "Parent basis not found") ∧
    (newBasis st "WET" "P" [] [("parent", .str "P")]).2 = .error (.valueError "Parent basis not found") :=
  ⟨rfl, rfl, rfl, rfl⟩

/-! ### C05 -/

/-- **C05 is false.** Defining a child adds its sectors to the parent, to the coefficient list of the
parent, and to a sibling; the parent then fails validation that it passed before. -/
theorem C05_refuted :
    let st := run [.newEFT "WET" [("a", .null), ("b", .null)] [],
      .newBasis "WET" "P" [("a", .obj [("C1", .null)])] [],
      .newBasis "WET" "S" [] [("parent", .str "P")]]
    let r := newBasis st "WET" "C" [("x", .obj [("C2", .null)])] [("parent", .str "P")]
    r.2 = .ok 3 ∧
    sectorsOf st 1 = .ok [("a", .obj [("C1", .null)])] ∧
    sectorsOf r.1 1 = .ok [("a", .obj [("C1", .null)]), ("x", .obj [("C2", .null)])] ∧
    (readAllWcs st 1).2 = .ok ["C1"] ∧ (readAllWcs r.1 1).2 = .ok ["C1", "C2"] ∧
    (readAllWcs st 2).2 = .ok ["C1"] ∧ (readAllWcs r.1 2).2 = .ok ["C1", "C2"] ∧
    validateBasis (fun _ => .ok true) st 1 = .ok () ∧
    validateBasis (fun _ => .ok true) r.1 1 = .error (.valueError "Unknown sectors") := by
  refine ⟨rfl, rfl, rfl, rfl, rfl, rfl, rfl, ?_, ?_⟩
  · rfl
  · rfl

/-- **C05, the part that holds.** In every reachable state, whatever the outcome of a basis definition,
an existing object keeps its sectors and coefficient list if the definition has no parent, or adds no
sector, or the object does not use the parent's dictionary. Missing from C05: the parent itself
and the bases derived from it, when the child adds a sector. -/
theorem C05_partial (ops : List Op) (h4 : ∀ op ∈ ops, op.onFour) (e b : String) (s : Sectors)
    (kw : Dict String JVal) (j : Id) (hj : j < (run ops).objs.length)
    (hsep : Dict.find kw "parent" = none ∨ s = [] ∨
      ∀ par pid, Dict.find kw "parent" = some (.str par) → (run ops).lookup .basis [e, par] = .ok pid →
        addrOf (run ops) j = none ∨ addrOf (run ops) j ≠ addrOf (run ops) pid) :
    sectorsOf (newBasis (run ops) e b s kw).1 j = sectorsOf (run ops) j ∧
    (readAllWcs (newBasis (run ops) e b s kw).1 j).2 = (readAllWcs (run ops) j).2 := by
  have h := good_run ops h4
  have ho := newBasis_objs_old (run ops) e b s kw hj
  have hs : sectorsOf (newBasis (run ops) e b s kw).1 j = sectorsOf (run ops) j := by
    apply sectorsOf_congr ho
    intro a ha
    have halt : a < (run ops).heap.length := by
      unfold addrOf at ha
      cases hx : (run ops).objs[j]? with
      | none => rw [hx] at ha; simp at ha
      | some x =>
        rw [hx] at ha
        cases x with
        | basis x => exact h.addr j x a hx ha
        | _ => simp at ha
    obtain ⟨o, _, _, hobjs, hc⟩ := newBasis_cases (run ops) e b s kw
    rcases hc with ⟨_, _, hh, _⟩ | ⟨_, _, _, _, hh, hok⟩ |
      ⟨par, pid, po, a', hpar, _, hl, hpo, hpa, _, _, hh, hok⟩
    · rw [hh]
    · rw [hh, List.getElem?_append_left halt]
    · rw [hh]
      rcases hsep with hn | rfl | hsep
      · rw [hn] at hpar; cases hpar
      · rw [List.getElem?_modify]
        split <;> simp [Dict.upd]
      · rw [parent_lookup h] at hl
        by_cases hbp : b = par
        · rw [if_pos hbp] at hl
          cases hl
          rw [List.getElem?_append_right (le_refl _)] at hpo
          simp at hpo
          subst hpo
          simp at hpa
        · rw [if_neg hbp] at hl
          have hl' : (run ops).lookup .basis [e, par] = .ok pid := by
            rw [h.lookup_eq]
            cases hd : (run ops).instances .basis with
            | none => rw [hd] at hl; simp at hl
            | some d => rw [hd] at hl; exact hl
          rcases hsep par pid hpar hl' with hn | hne
          · rw [hn] at ha; cases ha
          · have : addrOf (run ops) pid = some a' := by
              obtain ⟨o', ho', _⟩ := h.lookup_ident hl'
              rw [List.getElem?_append_left (List.getElem?_eq_some_iff.1 ho').1] at hpo
              unfold addrOf; rw [hpo]; exact hpa
            have haa : a' ≠ a := fun hh => hne (by rw [ha, this, hh])
            rw [List.getElem?_modify]
            simp [haa]
  exact ⟨hs, readAllWcs_congr ho hs⟩

/-- Concrete case of `C05_partial`: an unrelated basis is not touched by a child of `P`. -/
example :
    let ops := [Op.newBasis "WET" "P" [("a", .obj [("C1", .null)])] [],
      Op.newBasis "WET" "Q" [("a", .obj [("C7", .null)])] []]
    addrOf (run ops) 1 ≠ addrOf (run ops) 0 ∧
    sectorsOf (newBasis (run ops) "WET" "C" [("x", .null)] [("parent", .str "P")]).1 1
      = .ok [("a", .obj [("C7", .null)])] :=
  ⟨by decide, rfl⟩

/-! ### C06 -/

/-- **C06 is false.** The list is cached at the first read; a child defined later adds a sector to the
(shared) sectors of its parent but not to the list. -/
theorem C06_refuted :
    let st := run [.newBasis "WET" "P" [("a", .obj [("C1", .null)])] [],
      .allWcs 0,
      .newBasis "WET" "C" [("x", .obj [("C2", .null)])] [("parent", .str "P")]]
    sectorsOf st 0 = .ok [("a", .obj [("C1", .null)]), ("x", .obj [("C2", .null)])] ∧
    (readAllWcs st 0).2 = .ok ["C1"] ∧ (readAllWcs st 1).2 = .ok ["C1", "C2"] :=
  ⟨rfl, rfl, rfl⟩

/-- A basis definition naming a parent. -/
def Op.isChild : Op → Bool
  | .newBasis _ _ _ kw => (Dict.find kw "parent").isSome
  | _ => false

/-- A read of `all_wcs`. -/
def Op.isRead : Op → Bool
  | .allWcs _ => true
  | _ => false

/-- Every cached list is the list of names in the current sectors. -/
def CacheOk (st : Store) : Prop :=
  ∀ (j : Id) (o : BasisObj) (l : List String), st.objs[j]? = some (Obj.basis o) → o.allWcs = some (some l) →
    ∃ s, sectorsOf st j = .ok s ∧ namesOf s = .ok l

/-- No list is cached. -/
def NoCache (st : Store) : Prop :=
  ∀ (j : Id) (o : BasisObj) (l : List String), st.objs[j]? = some (Obj.basis o) → o.allWcs ≠ some (some l)

/-- The operations that neither read a list nor define a basis keep objects and dictionaries. -/
theorem exec_other_objs (st : Store) (op : Op) (hb : ∀ e b s kw, op ≠ .newBasis e b s kw)
    (hr : ∀ i, op ≠ .allWcs i) :
    (exec st op).1.heap = st.heap ∧
      ((exec st op).1.objs = st.objs ∨
        ∃ x, (exec st op).1.objs = st.objs ++ [x] ∧ ∀ y, x ≠ .basis y) := by
  cases op with
  | newEFT e s kw =>
    simp only [exec, newEFT]
    split <;> simp
  | newBasis e b s kw => exact absurd rfl (hb e b s kw)
  | newTranslator e f t fn => simp [exec, newTranslator]
  | newMatcher e f e' t fn => simp [exec, newMatcher]
  | del c n =>
    simp only [exec, Store.delete]
    split
    · split <;> simp
    · simp
  | clear c => simp [exec, Store.clearAll]
  | allWcs i => exact absurd rfl (hr i)

theorem noCache_exec {st : Store} (h : NoCache st) (op : Op) (hr : op.isRead = false) :
    NoCache (exec st op).1 := by
  intro j o l hj
  by_cases hb : ∃ e b s kw, op = .newBasis e b s kw
  · obtain ⟨e, b, s, kw, rfl⟩ := hb
    simp only [exec] at hj
    obtain ⟨o', _, _, hobjs, hc⟩ := newBasis_cases st e b s kw
    rw [hobjs, List.getElem?_append] at hj
    split at hj
    · exact h j o l hj
    · rw [List.getElem?_singleton] at hj
      split at hj
      · simp only [Option.some.injEq, Obj.basis.injEq] at hj
        subst hj
        rcases hc with ⟨_, hw, _⟩ | ⟨_, _, _, hw, _⟩ | ⟨_, _, _, _, _, _, _, _, _, _, hw, _⟩ <;>
          simp [hw]
      · simp at hj
  · have hr' : ∀ i, op ≠ .allWcs i := by rintro i rfl; simp [Op.isRead] at hr
    obtain ⟨_, ho | ⟨x, ho, hx⟩⟩ := exec_other_objs st op (fun e b s kw hh => hb ⟨e, b, s, kw, hh⟩) hr'
    · rw [ho] at hj; exact h j o l hj
    · rw [ho, List.getElem?_append] at hj
      split at hj
      · exact h j o l hj
      · rw [List.getElem?_singleton] at hj
        split at hj
        · simp only [Option.some.injEq] at hj; exact absurd hj (hx o)
        · simp at hj

theorem cacheOk_exec {st : Store} (hg : Good st) (h : CacheOk st) (op : Op) (hch : op.isChild = false) :
    CacheOk (exec st op).1 := by
  intro j o l hj hl
  by_cases hb : ∃ e b s kw, op = .newBasis e b s kw
  · obtain ⟨e, b, s, kw, rfl⟩ := hb
    simp only [exec] at hj ⊢
    simp only [Op.isChild, Option.isSome_eq_false_iff, Option.isNone_iff_eq_none] at hch
    obtain ⟨o', _, _, hobjs, hc⟩ := newBasis_cases st e b s kw
    rw [hobjs, List.getElem?_append] at hj
    split at hj
    · rename_i hlt
      obtain ⟨s', h1, h2⟩ := h j o l hj hl
      refine ⟨s', ?_, h2⟩
      rw [← h1]
      apply sectorsOf_congr (newBasis_objs_old st e b s kw hlt)
      intro a ha
      have haa : a < st.heap.length := by
        unfold addrOf at ha; rw [hj] at ha; exact hg.addr j o a hj ha
      rcases hc with ⟨_, _, hh, _⟩ | ⟨_, _, _, _, hh, _⟩ | ⟨_, _, _, _, hp, _⟩
      · rw [hh]
      · rw [hh, List.getElem?_append_left haa]
      · rw [hch] at hp; cases hp
    · rw [List.getElem?_singleton] at hj
      split at hj
      · simp only [Option.some.injEq, Obj.basis.injEq] at hj
        subst hj
        rcases hc with ⟨_, hw, _⟩ | ⟨_, _, _, hw, _⟩ | ⟨_, _, _, _, _, _, _, _, _, _, hw, _⟩ <;>
          simp [hw] at hl
      · simp at hj
  · by_cases hr : ∃ i, op = .allWcs i
    · obtain ⟨i, rfl⟩ := hr
      simp only [exec] at hj ⊢
      rcases readAllWcs_objs st i with he | ⟨ob, s, lst, ho, _, hs, hn, he, _⟩
      · rw [he] at hj ⊢; exact h j o l hj hl
      · rw [he] at hj ⊢
        have hsec : ∀ k, sectorsOf (st.setObj i (.basis { ob with allWcs := some (some lst) })) k
            = sectorsOf st k := by
          intro k
          by_cases hik : i = k
          · subst hik
            have hnew : (st.setObj i (.basis { ob with allWcs := some (some lst) })).objs[i]? =
                some (.basis { ob with allWcs := some (some lst) }) := by
              simp only [Store.setObj]
              rw [List.getElem?_set_self (List.getElem?_eq_some_iff.1 ho).1]
            rw [sectorsOf_basis hnew, sectorsOf_basis ho]
            rfl
          · have hko : (st.setObj i (.basis { ob with allWcs := some (some lst) })).objs[k]? =
                st.objs[k]? := by
              simp only [Store.setObj]; rw [List.getElem?_set_ne hik]
            exact sectorsOf_congr hko (fun a _ => rfl)
        rw [hsec]
        simp only [Store.setObj] at hj
        by_cases hij : i = j
        · subst hij
          rw [List.getElem?_set_self (List.getElem?_eq_some_iff.1 ho).1] at hj
          simp only [Option.some.injEq, Obj.basis.injEq] at hj
          subst hj
          simp only [Option.some.injEq] at hl
          subst hl
          exact ⟨s, hs, hn⟩
        · rw [List.getElem?_set_ne hij] at hj
          exact h j o l hj hl
    · obtain ⟨hh, ho⟩ := exec_other_objs st op (fun e b s kw hh => hb ⟨e, b, s, kw, hh⟩)
        (fun i hi => hr ⟨i, hi⟩)
      rcases ho with ho | ⟨x, ho, hx⟩
      · obtain ⟨s', h1, h2⟩ := h j o l (by rwa [ho] at hj) hl
        exact ⟨s', by rw [← h1]; exact sectorsOf_congr (by rw [ho]) (fun a _ => by rw [hh]), h2⟩
      · rw [ho, List.getElem?_append] at hj
        split at hj
        · rename_i hlt
          obtain ⟨s', h1, h2⟩ := h j o l hj hl
          refine ⟨s', ?_, h2⟩
          rw [← h1]
          exact sectorsOf_congr (by rw [ho, List.getElem?_append_left hlt]) (fun a _ => by rw [hh])
        · rw [List.getElem?_singleton] at hj
          split at hj
          · simp only [Option.some.injEq] at hj; exact absurd hj (hx o)
          · simp at hj

/-- **C06, the part that holds.** If no child basis is defined after a coefficient list was read for
the first time (any definitions, deletions and clears first; then anything except child
definitions), reading `all_wcs` of any completely built basis gives exactly the names in its
current sectors, in sector order (and the same exception if the sectors are not iterable).
Missing from C06: child definitions after a read. -/
theorem C06_partial (ops1 ops2 : List Op) (h1 : ∀ op ∈ ops1, op.onFour) (h2 : ∀ op ∈ ops2, op.onFour)
    (hr : ∀ op ∈ ops1, op.isRead = false) (hc : ∀ op ∈ ops2, op.isChild = false) (j : Id)
    (s : Sectors) (o : BasisObj) (hj : (run (ops1 ++ ops2)).objs[j]? = some (.basis o))
    (hs : sectorsOf (run (ops1 ++ ops2)) j = .ok s) :
    (readAllWcs (run (ops1 ++ ops2)) j).2 = namesOf s := by
  have hrun : run (ops1 ++ ops2) = (runLog (run ops1) ops2).1 := by
    unfold run; rw [runLog_append]
  have hg := good_run (ops1 ++ ops2) (fun op ho => by
    rcases List.mem_append.1 ho with ho | ho
    · exact h1 op ho
    · exact h2 op ho)
  have hno : NoCache (run ops1) := by
    unfold run
    have : ∀ (st : Store) (ops : List Op), NoCache st → (∀ op ∈ ops, op.isRead = false) →
        NoCache (runLog st ops).1 := by
      intro st ops
      induction ops generalizing st with
      | nil => intro h _; exact h
      | cons op ops ih =>
        intro h hr
        exact ih _ (noCache_exec h op (hr op (by simp))) (fun o ho => hr o (by simp [ho]))
    apply this _ _ _ hr
    intro j o l hj; simp [Store.empty] at hj
  have hok : CacheOk (runLog (run ops1) ops2).1 := by
    have : ∀ (st : Store) (ops : List Op), Good st → CacheOk st → (∀ op ∈ ops, op.onFour) →
        (∀ op ∈ ops, op.isChild = false) → CacheOk (runLog st ops).1 := by
      intro st ops
      induction ops generalizing st with
      | nil => intro _ h _ _; exact h
      | cons op ops ih =>
        intro hg h h4 hr
        exact ih _ (good_exec hg op (h4 op (by simp))) (cacheOk_exec hg h op (hr op (by simp)))
          (fun o ho => h4 o (by simp [ho])) (fun o ho => hr o (by simp [ho]))
    apply this _ _ (good_run ops1 h1) _ h2 hc
    intro j o l hj hl
    exact absurd hl (hno j o l hj)
  rw [← hrun] at hok
  unfold readAllWcs
  rw [hj]
  dsimp only
  cases ha : o.allWcs with
  | none =>
    have := (hg.cache j o hj).2 ha
    rw [sectorsOf_basis hj, this] at hs
    simp at hs
  | some c =>
    cases c with
    | some l =>
      obtain ⟨s', h3, h4⟩ := hok j o l hj ha
      rw [hs] at h3
      cases h3
      exact h4.symm
    | none =>
      dsimp only
      rw [hs]
      dsimp only
      cases namesOf s <;> rfl

/-- The names listed are exactly the coefficient names of the sectors (for sectors that are
mappings). -/
theorem C06_names (s : Sectors) (ds : List (Dict String JVal))
    (hs : s.map Prod.snd = ds.map JVal.obj) : namesOf s = .ok (ds.flatMap Dict.keys) := by
  unfold namesOf
  have : s.mapM (fun p => iterNames p.2) = (.ok (ds.map Dict.keys) : Except PyErr _) := by
    induction s generalizing ds with
    | nil => cases ds with
      | nil => rfl
      | cons d ds => simp at hs
    | cons p s ih => cases ds with
      | nil => simp at hs
      | cons d ds =>
        simp only [List.map_cons, List.cons.injEq] at hs
        rw [List.mapM_cons, ih ds hs.2, hs.1]
        rfl
  rw [this]
  rfl

/-- Concrete case of `C06_partial`: package import, then reads, then a new basis without parent. -/
example :
    let ops1 := [Op.newBasis "WET" "P" [("a", .obj [("C1", .null)])] [],
      Op.newBasis "WET" "C" [("x", .obj [("C2", .null)])] [("parent", .str "P")]]
    let ops2 := [Op.allWcs 0, Op.newBasis "WET" "N" [("a", .obj [])] [], Op.allWcs 1]
    (∀ op ∈ ops1, op.isRead = false) ∧ (∀ op ∈ ops2, op.isChild = false) ∧
    (readAllWcs (run (ops1 ++ ops2)) 0).2 = .ok ["C1", "C2"] :=
  ⟨by simp [Op.isRead], by simp [Op.isChild, Dict.find], rfl⟩

end Verif
