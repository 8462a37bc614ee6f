import Verif.Lemmas.Registry

/-! Invariants of the object store over every history, also with failing constructions. -/

set_option autoImplicit false

namespace Verif

theorem setAttrs_ok {props : List String} {kw : Dict String JVal}
    (h : (setAttrs props kw).2 = none) : (setAttrs props kw).1 = kw := by
  induction kw with
  | nil => rfl
  | cons p kw ih =>
    unfold setAttrs at h ⊢
    by_cases hp : p.1 ∈ props
    · simp [hp] at h
    · simp only [hp, if_false] at h ⊢
      rw [ih h]

theorem setAttrs_none_iff {props : List String} {kw : Dict String JVal} :
    (setAttrs props kw).2 = none ↔ ∀ k ∈ Dict.keys kw, k ∉ props := by
  induction kw with
  | nil => simp [setAttrs, Dict.keys]
  | cons p kw ih =>
    unfold setAttrs
    by_cases hp : p.1 ∈ props
    · simp [hp, Dict.keys]
    · simp only [hp, if_false, ih]
      simp [Dict.keys, hp]

/-- What `Basis.__init__` can do. -/
theorem newBasis_cases (st : Store) (e b : String) (s : Sectors) (kw : Dict String JVal) :
    ∃ o : BasisObj, o.eft = e ∧ o.basis = b ∧ (newBasis st e b s kw).1.objs = st.objs ++ [.basis o] ∧
      ((o.sectors = none ∧ o.allWcs = none ∧ (newBasis st e b s kw).1.heap = st.heap ∧
          ∃ err, (newBasis st e b s kw).2 = .error err) ∨
       (Dict.find kw "parent" = none ∧ o.extra = kw ∧ o.sectors = some st.heap.length ∧
          o.allWcs = some none ∧
          (newBasis st e b s kw).1.heap = st.heap ++ [s] ∧
          (newBasis st e b s kw).2 = .ok st.objs.length) ∨
       (∃ par pid po a, Dict.find kw "parent" = some (.str par) ∧ o.extra = kw ∧
          (({ st with objs := st.objs ++ [Obj.basis ⟨e, b, kw, none, none⟩] } : Store).register .basis
            [e, b] st.objs.length).lookup .basis [e, par] = .ok pid ∧
          (st.objs ++ [Obj.basis ⟨e, b, kw, none, none⟩])[pid]? = some (.basis po) ∧
          po.sectors = some a ∧ o.sectors = some a ∧ o.allWcs = some none ∧
          (newBasis st e b s kw).1.heap = st.heap.modify a (fun d => Dict.upd d s) ∧
          (newBasis st e b s kw).2 = .ok st.objs.length)) := by
  unfold newBasis
  dsimp only
  cases hr : (setAttrs ["known_translators", "all_wcs"] kw).2 with
  | some err =>
    exact ⟨⟨e, b, (setAttrs ["known_translators", "all_wcs"] kw).1, none, none⟩, rfl, rfl, by simp,
      Or.inl ⟨rfl, rfl, by simp, err, rfl⟩⟩
  | none =>
    rw [setAttrs_ok hr]
    cases hp : Dict.find kw "parent" with
    | none =>
      refine ⟨⟨e, b, kw, some st.heap.length, some none⟩, rfl, rfl, ?_, Or.inr (Or.inl ?_)⟩
      · simp [Store.setObj]
      · simp [Store.setObj]
    | some j =>
      cases j with
      | str par =>
        dsimp only
        cases hl : (({ st with objs := st.objs ++ [Obj.basis ⟨e, b, kw, none, none⟩] } : Store).register
            .basis [e, b] st.objs.length).lookup .basis [e, par] with
        | error err =>
          exact ⟨⟨e, b, kw, none, none⟩, rfl, rfl, by simp, Or.inl ⟨rfl, rfl, by simp, _, rfl⟩⟩
        | ok pid =>
          dsimp only
          simp only [register_objs]
          cases ho : (st.objs ++ [Obj.basis ⟨e, b, kw, none, none⟩])[pid]? with
          | none => exact ⟨⟨e, b, kw, none, none⟩, rfl, rfl, by simp, Or.inl ⟨rfl, rfl, by simp, _, rfl⟩⟩
          | some po =>
            cases po with
            | basis po =>
              dsimp only
              cases ha : po.sectors with
              | none => exact ⟨⟨e, b, kw, none, none⟩, rfl, rfl, by simp, Or.inl ⟨rfl, rfl, by simp, _, rfl⟩⟩
              | some a =>
                refine ⟨⟨e, b, kw, some a, some none⟩, rfl, rfl, ?_, Or.inr (Or.inr ?_)⟩
                · simp [Store.setObj]
                · refine ⟨par, pid, po, a, rfl, rfl, hl, ho, ha, rfl, rfl, ?_, rfl⟩
                  simp [Store.setObj]
            | _ => exact ⟨⟨e, b, kw, none, none⟩, rfl, rfl, by simp, Or.inl ⟨rfl, rfl, by simp, _, rfl⟩⟩
      | _ => exact ⟨⟨e, b, kw, none, none⟩, rfl, rfl, by simp, Or.inl ⟨rfl, rfl, by simp, _, rfl⟩⟩

/-- Invariants of every reachable state. -/
structure Good (st : Store) : Prop where
  noBase : NoBase st
  wf : ∀ c d, st.instances c = some d → Dict.WF d
  kinds : ∀ c d n i, st.instances c = some d → Dict.find d n = some i →
    ∃ o, st.objs[i]? = some o ∧ o.ident = (c, n)
  addr : ∀ (i : Id) (o : BasisObj) (a : Nat), st.objs[i]? = some (Obj.basis o) → o.sectors = some a → a < st.heap.length
  cache : ∀ (i : Id) (o : BasisObj), st.objs[i]? = some (Obj.basis o) → (o.sectors = none ↔ o.allWcs = none)

theorem good_empty : Good .empty where
  noBase := rfl
  wf := by intro c d h; simp [Store.empty] at h
  kinds := by intro c d n i h; simp [Store.empty] at h
  addr := by intro i o a h; simp [Store.empty] at h
  cache := by intro i o h; simp [Store.empty] at h

/-- Adding a new object under its own name keeps the registry part of the invariant. -/
theorem good_new {st st' : Store} (h : Good st) {c : Cls} {n : Name} (hc : c ≠ .base)
    (he : st'.instances = (st.register c n st.objs.length).instances) {o : Obj}
    (ho : st'.objs = st.objs ++ [o]) (hi : o.ident = (c, n)) :
    NoBase st' ∧ (∀ c d, st'.instances c = some d → Dict.WF d) ∧
    (∀ c d n i, st'.instances c = some d → Dict.find d n = some i →
      ∃ o, st'.objs[i]? = some o ∧ o.ident = (c, n)) := by
  rw [register_of_noBase h.noBase] at he
  refine ⟨?_, ?_, ?_⟩
  · unfold NoBase; rw [he, Function.update_of_ne (Ne.symm hc)]; exact h.noBase
  · intro c' d hd
    rw [he] at hd
    by_cases hcc : c' = c
    · subst hcc
      rw [Function.update_self, Option.some.injEq] at hd
      subst hd
      apply Dict.WF_put
      cases hd : st.instances c' with
      | none => simp [Dict.WF, Dict.keys]
      | some d => simpa using h.wf _ _ hd
    · rw [Function.update_of_ne hcc] at hd; exact h.wf c' d hd
  · intro c' d m i hd hf
    rw [he] at hd
    have old : ∀ d, st.instances c' = some d → Dict.find d m = some i →
        ∃ o, st'.objs[i]? = some o ∧ o.ident = (c', m) := by
      intro d hd hf
      obtain ⟨o', h1, h2⟩ := h.kinds c' d m i hd hf
      refine ⟨o', ?_, h2⟩
      rw [ho, List.getElem?_append_left]
      · exact h1
      · exact (List.getElem?_eq_some_iff.1 h1).1
    by_cases hcc : c' = c
    · subst hcc
      rw [Function.update_self, Option.some.injEq] at hd
      subst hd
      rw [Dict.find_put] at hf
      by_cases hm : n = m
      · subst hm
        simp only [if_true, Option.some.injEq] at hf
        subst hf
        exact ⟨o, by simp [ho], hi⟩
      · rw [if_neg hm] at hf
        cases hd : st.instances c' with
        | none => rw [hd] at hf; simp at hf
        | some d => rw [hd] at hf; exact old d hd (by simpa using hf)
    · rw [Function.update_of_ne hcc] at hd
      exact old d hd hf

theorem readAllWcs_objs (st : Store) (i : Id) :
    ((readAllWcs st i).1 = st) ∨
    ∃ o s l, st.objs[i]? = some (Obj.basis o) ∧ o.allWcs = some none ∧ sectorsOf st i = .ok s ∧
      namesOf s = .ok l ∧
      (readAllWcs st i).1 = st.setObj i (.basis { o with allWcs := some (some l) }) ∧
      (readAllWcs st i).2 = .ok l := by
  unfold readAllWcs
  cases ho : st.objs[i]? with
  | none => left; rfl
  | some o =>
    cases o with
    | basis o =>
      dsimp only
      cases ha : o.allWcs with
      | none => left; rfl
      | some a =>
        cases a with
        | some l => left; rfl
        | none =>
          dsimp only
          cases hs : sectorsOf st i with
          | error e => left; rfl
          | ok s =>
            dsimp only
            cases hn : namesOf s with
            | error e => left; rfl
            | ok l => right; exact ⟨o, s, l, rfl, ha, rfl, hn, rfl, rfl⟩
    | _ => left; rfl

theorem good_exec {st : Store} (h : Good st) (op : Op) (h4 : op.onFour) : Good (exec st op).1 := by
  cases op with
  | newEFT e s kw =>
    have hobjs : ∃ x, (exec st (.newEFT e s kw)).1.objs = st.objs ++ [.eft ⟨e, s, x⟩] ∧
        (exec st (.newEFT e s kw)).1.heap = st.heap := by
      simp only [exec, newEFT]
      refine ⟨(setAttrs ["known_bases", "known_translators"] kw).1, ?_⟩
      split <;> simp
    obtain ⟨x, hobjs, hheap⟩ := hobjs
    obtain ⟨h1, h2, h3⟩ := good_new h (by simp) (exec_instances_new st (.newEFT e s kw) rfl) hobjs rfl
    refine ⟨h1, h2, h3, ?_, ?_⟩
    · intro i o a hi ha
      rw [hobjs] at hi; rw [hheap]
      rw [List.getElem?_append] at hi
      split at hi
      · exact h.addr i o a hi ha
      · rw [List.getElem?_singleton] at hi; split at hi <;> simp at hi
    · intro i o hi
      rw [hobjs] at hi
      rw [List.getElem?_append] at hi
      split at hi
      · exact h.cache i o hi
      · rw [List.getElem?_singleton] at hi; split at hi <;> simp at hi
  | newBasis e b s kw =>
    obtain ⟨o, rfl, rfl, hobjs, hcase⟩ := newBasis_cases st e b s kw
    obtain ⟨h1, h2, h3⟩ := good_new h (by simp)
      (exec_instances_new st (.newBasis o.eft o.basis s kw) rfl) hobjs rfl
    refine ⟨h1, h2, h3, ?_, ?_⟩
    · intro i o' a hi ha
      simp only [exec] at hi ⊢
      rw [hobjs, List.getElem?_append] at hi
      split at hi
      · have := h.addr i o' a hi ha
        rcases hcase with ⟨_, _, hh, _⟩ | ⟨_, _, _, _, hh, _⟩ | ⟨_, _, _, _, _, _, _, _, _, _, _, hh, _⟩
        · rw [hh]; exact this
        · rw [hh]; simp; omega
        · rw [hh]; simpa using this
      · rw [List.getElem?_singleton] at hi
        split at hi
        · simp only [Option.some.injEq, Obj.basis.injEq] at hi
          subst hi
          rcases hcase with ⟨hs, _, hh, _⟩ | ⟨_, _, hs, _, hh, _⟩ |
            ⟨_, pid, po, a', _, _, _, hpo, hpa, hs, _, hh, _⟩
          · rw [hs] at ha; simp at ha
          · rw [hs] at ha; simp at ha; rw [hh]; simp; omega
          · rw [hs] at ha; simp at ha; subst ha
            rw [hh, List.length_modify]
            rw [List.getElem?_append] at hpo
            split at hpo
            · exact h.addr pid po a' hpo hpa
            · rw [List.getElem?_singleton] at hpo
              split at hpo
              · simp only [Option.some.injEq, Obj.basis.injEq] at hpo
                subst hpo
                simp at hpa
              · simp at hpo
        · simp at hi
    · intro i o' hi
      simp only [exec] at hi
      rw [hobjs, List.getElem?_append] at hi
      split at hi
      · exact h.cache i o' hi
      · rw [List.getElem?_singleton] at hi
        split at hi
        · simp only [Option.some.injEq, Obj.basis.injEq] at hi
          subst hi
          rcases hcase with ⟨hs, hw, _⟩ | ⟨_, _, hs, hw, _⟩ |
            ⟨_, _, _, _, _, _, _, _, _, hs, hw, _⟩
          · simp [hs, hw]
          · simp [hs, hw]
          · simp [hs, hw]
        · simp at hi
  | newTranslator e f t fn =>
    have hobjs : (exec st (.newTranslator e f t fn)).1.objs = st.objs ++ [.translator ⟨e, f, t, fn⟩] := by
      simp [exec, newTranslator]
    have hheap : (exec st (.newTranslator e f t fn)).1.heap = st.heap := by
      simp [exec, newTranslator]
    obtain ⟨h1, h2, h3⟩ := good_new h (by simp) (exec_instances_new st (.newTranslator e f t fn) rfl) hobjs rfl
    refine ⟨h1, h2, h3, ?_, ?_⟩
    · intro i o a hi ha
      rw [hobjs] at hi; rw [hheap]
      rw [List.getElem?_append] at hi
      split at hi
      · exact h.addr i o a hi ha
      · rw [List.getElem?_singleton] at hi; split at hi <;> simp at hi
    · intro i o hi
      rw [hobjs] at hi
      rw [List.getElem?_append] at hi
      split at hi
      · exact h.cache i o hi
      · rw [List.getElem?_singleton] at hi; split at hi <;> simp at hi
  | newMatcher e f e' t fn =>
    have hobjs : (exec st (.newMatcher e f e' t fn)).1.objs = st.objs ++ [.matcher ⟨e, f, e', t, fn⟩] := by
      simp [exec, newMatcher]
    have hheap : (exec st (.newMatcher e f e' t fn)).1.heap = st.heap := by
      simp [exec, newMatcher]
    obtain ⟨h1, h2, h3⟩ := good_new h (by simp) (exec_instances_new st (.newMatcher e f e' t fn) rfl) hobjs rfl
    refine ⟨h1, h2, h3, ?_, ?_⟩
    · intro i o a hi ha
      rw [hobjs] at hi; rw [hheap]
      rw [List.getElem?_append] at hi
      split at hi
      · exact h.addr i o a hi ha
      · rw [List.getElem?_singleton] at hi; split at hi <;> simp at hi
    · intro i o hi
      rw [hobjs] at hi
      rw [List.getElem?_append] at hi
      split at hi
      · exact h.cache i o hi
      · rw [List.getElem?_singleton] at hi; split at hi <;> simp at hi
  | del c n =>
    have h0 : c ≠ .base := h4
    simp only [exec]
    have hob : (st.delete c n).1.objs = st.objs ∧ (st.delete c n).1.heap = st.heap := by
      unfold Store.delete
      split
      · split <;> simp
      · simp
    rcases delete_of_noBase h.noBase c n with he | he
    · refine ⟨?_, ?_, ?_, ?_, ?_⟩
      · unfold NoBase; rw [he, Function.update_of_ne (Ne.symm h0)]; exact h.noBase
      · intro c' d hd
        rw [he] at hd
        by_cases hcc : c' = c
        · subst hcc
          rw [Function.update_self, Option.map_eq_some_iff] at hd
          obtain ⟨d', hd', rfl⟩ := hd
          exact Dict.WF_del (h.wf _ _ hd') _
        · rw [Function.update_of_ne hcc] at hd; exact h.wf c' d hd
      · intro c' d m i hd hf
        rw [he] at hd
        rw [hob.1]
        by_cases hcc : c' = c
        · subst hcc
          rw [Function.update_self, Option.map_eq_some_iff] at hd
          obtain ⟨d', hd', rfl⟩ := hd
          rw [Dict.find_del (h.wf _ _ hd')] at hf
          by_cases hm : n = m
          · simp [hm] at hf
          · rw [if_neg hm] at hf; exact h.kinds c' d' m i hd' hf
        · rw [Function.update_of_ne hcc] at hd; exact h.kinds c' d m i hd hf
      · rw [hob.1, hob.2]; exact h.addr
      · rw [hob.1]; exact h.cache
    · rw [he]; exact h
  | clear c =>
    have h0 : c ≠ .base := h4
    simp only [exec, Store.clearAll]
    refine ⟨?_, ?_, ?_, h.addr, h.cache⟩
    · unfold NoBase; dsimp only; rw [Function.update_of_ne (Ne.symm h0)]; exact h.noBase
    · intro c' d hd
      dsimp only at hd
      by_cases hcc : c' = c
      · subst hcc
        rw [Function.update_self, Option.some.injEq] at hd
        subst hd; simp [Dict.WF, Dict.keys]
      · rw [Function.update_of_ne hcc] at hd; exact h.wf c' d hd
    · intro c' d m i hd hf
      dsimp only at hd
      by_cases hcc : c' = c
      · subst hcc
        rw [Function.update_self, Option.some.injEq] at hd
        subst hd; simp [Dict.find] at hf
      · rw [Function.update_of_ne hcc] at hd; exact h.kinds c' d m i hd hf
  | allWcs i =>
    simp only [exec]
    rcases readAllWcs_objs st i with he | ⟨o, s, l, ho, ha, _, _, he, _⟩
    · rw [he]; exact h
    · rw [he]
      refine ⟨h.noBase, h.wf, ?_, ?_, ?_⟩
      · intro c d n j hd hf
        obtain ⟨o', h1, h2⟩ := h.kinds c d n j hd hf
        simp only [Store.setObj]
        by_cases hij : i = j
        · subst hij
          rw [ho, Option.some.injEq] at h1
          subst h1
          refine ⟨.basis { o with allWcs := some (some l) }, ?_, h2⟩
          rw [List.getElem?_set_self]
          exact (List.getElem?_eq_some_iff.1 ho).1
        · exact ⟨o', by rw [List.getElem?_set_ne hij]; exact h1, h2⟩
      · intro j o' a hj ha'
        simp only [Store.setObj] at hj ⊢
        by_cases hij : i = j
        · subst hij
          rw [List.getElem?_set_self (List.getElem?_eq_some_iff.1 ho).1] at hj
          simp only [Option.some.injEq, Obj.basis.injEq] at hj
          subst hj
          exact h.addr i o a ho ha'
        · rw [List.getElem?_set_ne hij] at hj; exact h.addr j o' a hj ha'
      · intro j o' hj
        simp only [Store.setObj] at hj
        by_cases hij : i = j
        · subst hij
          rw [List.getElem?_set_self (List.getElem?_eq_some_iff.1 ho).1] at hj
          simp only [Option.some.injEq, Obj.basis.injEq] at hj
          subst hj
          have := h.cache i o ho
          simp [this, ha]
        · rw [List.getElem?_set_ne hij] at hj; exact h.cache j o' hj

theorem good_runLog {st : Store} (h : Good st) (ops : List Op) (h4 : ∀ op ∈ ops, op.onFour) :
    Good (runLog st ops).1 := by
  induction ops generalizing st with
  | nil => exact h
  | cons op ops ih =>
    exact ih (good_exec h op (h4 op (by simp))) (fun o ho => h4 o (by simp [ho]))

theorem good_run (ops : List Op) (h4 : ∀ op ∈ ops, op.onFour) : Good (run ops) :=
  good_runLog good_empty ops h4

theorem Good.lookup_ident {st : Store} (h : Good st) {c : Cls} {n : Name} {i : Id}
    (hl : st.lookup c n = .ok i) : ∃ o, st.objs[i]? = some o ∧ o.ident = (c, n) := by
  unfold Store.lookup at hl
  rw [registry_of_noBase h.noBase] at hl
  cases hd : st.instances c with
  | none => rw [hd] at hl; simp at hl
  | some d =>
    rw [hd] at hl
    exact h.kinds c d n i hd (by rwa [← Dict.get_ok_iff])

/-- Lookup after registration. -/
theorem lookup_of_register {st st' : Store} (hb : NoBase st) {c : Cls} (hc : c ≠ .base) {n : Name} {i : Id}
    (he : st'.instances = (st.register c n i).instances) (m : Name) :
    st'.lookup c m = if n = m then .ok i else
      match st.instances c with
      | none => .error .keyError
      | some d => Dict.get d m := by
  rw [register_of_noBase hb] at he
  have hb' : NoBase st' := by
    unfold NoBase; rw [he, Function.update_of_ne (Ne.symm hc)]; exact hb
  unfold Store.lookup
  rw [registry_of_noBase hb', he, Function.update_self]
  dsimp only
  unfold Dict.get
  rw [Dict.find_put]
  by_cases hm : n = m
  · simp [hm]
  · simp only [hm, if_false]
    cases st.instances c <;> simp

theorem lookup_of_register_other {st st' : Store} (hb : NoBase st) {c : Cls} (hc : c ≠ .base) {n : Name}
    {i : Id} (he : st'.instances = (st.register c n i).instances) {c' : Cls} (hcc : c' ≠ c) (m : Name) :
    st'.lookup c' m = st.lookup c' m := by
  rw [register_of_noBase hb] at he
  have hb' : NoBase st' := by
    unfold NoBase; rw [he, Function.update_of_ne (Ne.symm hc)]; exact hb
  unfold Store.lookup
  rw [registry_of_noBase hb', registry_of_noBase hb, he, Function.update_of_ne hcc]

end Verif
