import Verif.Model.History

/-! Helper lemmas on the registries. -/

set_option autoImplicit false

namespace Verif

/-- Kind and name of an object. -/
def Obj.ident : Obj → Cls × Name
  | .eft o => (.eft, [o.eft])
  | .basis o => (.basis, [o.eft, o.basis])
  | .translator o => (.translator, [o.eft, o.fromBasis, o.toBasis])
  | .matcher o => (.matcher, [o.fromEft, o.fromBasis, o.toEft, o.toBasis])

/-- The registry name and class an operation registers under (also when it fails). -/
def Op.target : Op → Option (Cls × Name)
  | .newEFT e _ _ => some (.eft, [e])
  | .newBasis e b _ _ => some (.basis, [e, b])
  | .newTranslator e f t _ => some (.translator, [e, f, t])
  | .newMatcher e f e' t _ => some (.matcher, [e, f, e', t])
  | _ => none

theorem setObj_instances (st : Store) (i : Id) (o : Obj) : (st.setObj i o).instances = st.instances :=
  rfl

/-- The registries after `register`, as a function of the registries before. -/
def regInst (f : Cls → Option (Dict Name Id)) (c : Cls) (n : Name) (i : Id) :
    Cls → Option (Dict Name Id) :=
  ((⟨f, [], []⟩ : Store).register c n i).instances

theorem register_instances (st : Store) (c : Cls) (n : Name) (i : Id) :
    (st.register c n i).instances = regInst st.instances c n i := by
  unfold regInst Store.register Store.slot
  dsimp only
  by_cases h : (st.instances c).isSome = true
  · simp [h]
  · by_cases h' : (st.instances .base).isSome = true <;> simp [h, h']

@[simp] theorem register_objs (st : Store) (c : Cls) (n : Name) (i : Id) :
    (st.register c n i).objs = st.objs := by
  unfold Store.register; split <;> rfl

@[simp] theorem register_heap (st : Store) (c : Cls) (n : Name) (i : Id) :
    (st.register c n i).heap = st.heap := by
  unfold Store.register; split <;> rfl

/-- Effect of any constructing operation on the registries: registration under its target, whether or
not it succeeds. -/
theorem exec_instances_new (st : Store) (op : Op) {c : Cls} {n : Name}
    (h : op.target = some (c, n)) :
    (exec st op).1.instances = (st.register c n st.objs.length).instances := by
  cases op with
  | newEFT e s kw =>
    simp only [Op.target, Option.some.injEq, Prod.mk.injEq] at h
    obtain ⟨rfl, rfl⟩ := h
    simp only [exec, newEFT]
    split <;> simp only [register_instances]
  | newBasis e b s kw =>
    simp only [Op.target, Option.some.injEq, Prod.mk.injEq] at h
    obtain ⟨rfl, rfl⟩ := h
    simp only [exec, newBasis]
    repeat' split
    all_goals simp only [setObj_instances, register_instances]
  | newTranslator e f t fn =>
    simp only [Op.target, Option.some.injEq, Prod.mk.injEq] at h
    obtain ⟨rfl, rfl⟩ := h
    simp only [exec, newTranslator, register_instances]
  | newMatcher e f e' t fn =>
    simp only [Op.target, Option.some.injEq, Prod.mk.injEq] at h
    obtain ⟨rfl, rfl⟩ := h
    simp only [exec, newMatcher, register_instances]
  | del c n => simp [Op.target] at h
  | clear c => simp [Op.target] at h
  | allWcs i => simp [Op.target] at h

theorem readAllWcs_instances (st : Store) (i : Id) : (readAllWcs st i).1.instances = st.instances := by
  unfold readAllWcs
  split
  · split
    · rfl
    · rfl
    · split
      · rfl
      · split <;> rfl
  · rfl

theorem exec_event_new (st : Store) (op : Op) {c : Cls} {n : Name}
    (h : op.target = some (c, n)) {e : Event} (he : (exec st op).2 = .ok e) :
    e = .reg c n st.objs.length := by
  cases op with
  | newEFT e s kw =>
    simp only [Op.target, Option.some.injEq, Prod.mk.injEq] at h
    obtain ⟨rfl, rfl⟩ := h
    simp only [exec, newEFT] at he
    split at he
    · simpa [Except.map] using he.symm
    · simp [Except.map] at he
  | newBasis e b s kw =>
    simp only [Op.target, Option.some.injEq, Prod.mk.injEq] at h
    obtain ⟨rfl, rfl⟩ := h
    simp only [exec, newBasis] at he
    repeat' split at he
    all_goals first
      | (simp [Except.map] at he; done)
      | simpa [Except.map] using he.symm
  | newTranslator e f t fn =>
    simp only [Op.target, Option.some.injEq, Prod.mk.injEq] at h
    obtain ⟨rfl, rfl⟩ := h
    simpa [exec, newTranslator, Except.map] using he.symm
  | newMatcher e f e' t fn =>
    simp only [Op.target, Option.some.injEq, Prod.mk.injEq] at h
    obtain ⟨rfl, rfl⟩ := h
    simpa [exec, newMatcher, Except.map] using he.symm
  | del c n => simp [Op.target] at h
  | clear c => simp [Op.target] at h
  | allWcs i => simp [Op.target] at h

theorem target_ne_base {op : Op} {c : Cls} {n : Name} (h : op.target = some (c, n)) : c ≠ .base := by
  cases op <;> simp [Op.target] at h <;> rw [← h.1] <;> simp

theorem isNew_iff_target (op : Op) : op.isNew = true ↔ ∃ c n, op.target = some (c, n) := by
  cases op <;> simp [Op.isNew, Op.target]

/-- The base class has no `instances` attribute of its own. -/
def NoBase (st : Store) : Prop := st.instances .base = none

theorem registry_of_noBase {st : Store} (h : NoBase st) (c : Cls) : st.registry c = st.instances c := by
  unfold Store.registry; rw [show st.instances .base = none from h]; simp

theorem register_of_noBase {st : Store} (h : NoBase st) (c : Cls) (n : Name) (i : Id) :
    (st.register c n i).instances =
      Function.update st.instances c (some (Dict.put ((st.instances c).getD []) n i)) := by
  unfold Store.register Store.slot
  rw [show st.instances .base = none from h]
  cases hc : st.instances c with
  | none => simp [Dict.put]
  | some d => simp [hc]

theorem delete_of_noBase {st : Store} (h : NoBase st) (c : Cls) (n : Name) :
    (st.delete c n).1.instances =
        Function.update st.instances c ((st.instances c).map fun d => Dict.del d n) ∨
      (st.delete c n).1 = st := by
  unfold Store.delete Store.slot
  rw [registry_of_noBase h]
  rw [show st.instances .base = none from h]
  cases hc : st.instances c with
  | none => simp
  | some d => by_cases hd : Dict.has d n = true <;> simp [hd]

/-- Kinds of registered ids are correct and objects below an id never change kind. -/
theorem runLog_append (st : Store) (a b : List Op) :
    runLog st (a ++ b) =
      ((runLog (runLog st a).1 b).1, (runLog st a).2 ++ (runLog (runLog st a).1 b).2) := by
  induction a generalizing st with
  | nil => simp [runLog]
  | cons op a ih => simp [runLog, ih]

end Verif
