import Verif.Lemmas.Objects

/-! Effect of defining a basis on the objects that exist already. -/

set_option autoImplicit false

namespace Verif

/-- The dictionary (heap address) used by object `j` if it is a completely built basis. -/
def addrOf (st : Store) (j : Id) : Option Nat :=
  match st.objs[j]? with
  | some (.basis o) => o.sectors
  | _ => none

theorem sectorsOf_basis {st : Store} {j : Id} {o : BasisObj} (h : st.objs[j]? = some (.basis o)) :
    sectorsOf st j = match o.sectors.bind fun a => st.heap[a]? with
      | some s => .ok s
      | none => .error .attributeError := by
  unfold sectorsOf; rw [h]; dsimp only; cases o.sectors.bind fun a => st.heap[a]? <;> rfl

theorem keys_prefix_upd (d s : Sectors) : Dict.keys d <+: Dict.keys (Dict.upd d s) := by
  induction s generalizing d with
  | nil => exact List.prefix_rfl
  | cons p s ih =>
    refine List.IsPrefix.trans ?_ (ih (Dict.put d p.1 p.2))
    rw [Dict.keys_put]
    split
    · exact List.prefix_rfl
    · exact List.prefix_append _ _

/-- Sectors and the listing of an object only depend on the object and its dictionary. -/
theorem sectorsOf_congr {st st' : Store} {j : Id} (ho : st'.objs[j]? = st.objs[j]?)
    (hh : ∀ a, addrOf st j = some a → st'.heap[a]? = st.heap[a]?) :
    sectorsOf st' j = sectorsOf st j := by
  unfold sectorsOf
  rw [ho]
  cases h : st.objs[j]? with
  | none => rfl
  | some o =>
    cases o with
    | basis o =>
      dsimp only
      cases ha : o.sectors with
      | none => rfl
      | some a =>
        have := hh a (by unfold addrOf; rw [h]; exact ha)
        simp only [Option.bind_some, this]
    | _ => rfl

theorem readAllWcs_congr {st st' : Store} {j : Id} (ho : st'.objs[j]? = st.objs[j]?)
    (hs : sectorsOf st' j = sectorsOf st j) : (readAllWcs st' j).2 = (readAllWcs st j).2 := by
  unfold readAllWcs
  rw [ho, hs]
  split
  · split
    · rfl
    · rfl
    · split
      · rfl
      · split <;> rfl
  · rfl

theorem newBasis_objs_old (st : Store) (e b : String) (s : Sectors) (kw : Dict String JVal) {j : Id}
    (hj : j < st.objs.length) : (newBasis st e b s kw).1.objs[j]? = st.objs[j]? := by
  obtain ⟨o, _, _, hobjs, _⟩ := newBasis_cases st e b s kw
  rw [hobjs, List.getElem?_append_left hj]

theorem newBasis_instances (st : Store) (e b : String) (s : Sectors) (kw : Dict String JVal) :
    (newBasis st e b s kw).1.instances = (st.register .basis [e, b] st.objs.length).instances :=
  exec_instances_new st (.newBasis e b s kw) rfl

/-- Lookup of the parent as done by `Basis.__init__` (after the child has been registered). -/
theorem parent_lookup {st : Store} (h : Good st) (e b par : String) (o : Obj) :
    (({ st with objs := st.objs ++ [o] } : Store).register .basis [e, b] st.objs.length).lookup .basis
        [e, par] =
      if b = par then .ok st.objs.length else
        match st.instances .basis with
        | none => .error .keyError
        | some d => Dict.get d [e, par] := by
  have hb : NoBase ({ st with objs := st.objs ++ [o] } : Store) := h.noBase
  rw [lookup_of_register hb (by simp) rfl]
  by_cases hbp : b = par
  · simp [hbp]
  · simp only [List.cons.injEq, hbp, and_true, and_false, if_false]
    cases st.instances .basis <;> rfl

theorem Good.lookup_eq {st : Store} (h : Good st) (c : Cls) (n : Name) :
    st.lookup c n = match st.instances c with
      | none => .error .attributeError
      | some d => Dict.get d n := by
  unfold Store.lookup; rw [registry_of_noBase h.noBase]; cases st.instances c <;> rfl

/-- The result of a basis definition with a parent name, in closed form. -/
theorem newBasis_parent {st : Store} (h : Good st) (e b par : String) (s : Sectors)
    (kw : Dict String JVal) (hp : Dict.find kw "parent" = some (.str par))
    (hk : ∀ k ∈ Dict.keys kw, k ∉ ["known_translators", "all_wcs"]) :
    (∃ pid a, b ≠ par ∧ st.lookup .basis [e, par] = .ok pid ∧ addrOf st pid = some a ∧
      (newBasis st e b s kw).2 = .ok st.objs.length ∧
      (newBasis st e b s kw).1.heap = st.heap.modify a (fun d => Dict.upd d s) ∧
      (newBasis st e b s kw).1.objs = st.objs ++ [.basis ⟨e, b, kw, some a, some none⟩]) ∨
    ((b = par ∨ (∀ pid, st.lookup .basis [e, par] = .ok pid → addrOf st pid = none)) ∧
      (newBasis st e b s kw).2 = .error (.valueError "Parent basis not found") ∧
      (newBasis st e b s kw).1.heap = st.heap ∧
      (newBasis st e b s kw).1.objs = st.objs ++ [.basis ⟨e, b, kw, none, none⟩]) := by
  have hr : (setAttrs ["known_translators", "all_wcs"] kw).2 = none := setAttrs_none_iff.2 hk
  have hpl := parent_lookup h e b par (Obj.basis ⟨e, b, kw, none, none⟩)
  unfold newBasis
  dsimp only
  rw [hr, setAttrs_ok hr, hp]
  dsimp only
  rw [hpl]
  simp only [register_objs]
  by_cases hbp : b = par
  · right
    simp [hbp]
  · simp only [hbp, if_false]
    rw [h.lookup_eq]
    cases hd : st.instances .basis with
    | none => right; simp
    | some d =>
      dsimp only
      cases hg : Dict.get d [e, par] with
      | error err => right; simp
      | ok pid =>
        dsimp only
        obtain ⟨o, ho, hoi⟩ := h.kinds .basis d [e, par] pid hd (Dict.get_ok_iff.1 hg)
        have hlt : pid < st.objs.length := (List.getElem?_eq_some_iff.1 ho).1
        rw [List.getElem?_append_left hlt, ho]
        cases o with
        | basis po =>
          dsimp only
          have haddr : addrOf st pid = po.sectors := by unfold addrOf; rw [ho]
          cases ha : po.sectors with
          | none => right; simp [haddr, ha]
          | some a =>
            left
            refine ⟨pid, a, by simpa using hbp, rfl, by rw [haddr, ha], rfl, ?_, ?_⟩
            · simp [Store.setObj]
            · simp [Store.setObj]
        | _ => simp [Obj.ident] at hoi

end Verif
