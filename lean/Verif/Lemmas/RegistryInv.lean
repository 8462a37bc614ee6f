import Verif.Lemmas.Registry
import Verif.Spec.Registry

/-! Induction over histories: the registries refine the log. -/

set_option autoImplicit false

namespace Verif

open Spec

theorem live_snoc (log : List Event) (e : Event) (c : Cls) (n : Name) (i : Id) :
    Live (log ++ [e]) c n i ↔
      e = .reg c n i ∨ (¬ Removes c n e ∧ ¬ Registers c n e ∧ Live log c n i) := by
  constructor
  · rintro ⟨pre, post, h, hp⟩
    rcases List.eq_nil_or_concat post with rfl | ⟨post', x, rfl⟩
    · left
      have := congrArg List.getLast? h
      simpa using this
    · right
      rw [List.concat_eq_append] at h hp
      have h2 : log ++ [e] = (pre ++ .reg c n i :: post') ++ [x] := by simp [h]
      obtain ⟨rfl, hx⟩ := List.append_inj' h2 rfl
      simp only [List.cons.injEq, and_true] at hx
      subst hx
      have := hp e (by simp)
      exact ⟨this.1, this.2, pre, post', rfl, fun y hy => hp y (by simp [hy])⟩
  · rintro (rfl | ⟨h1, h2, pre, post, rfl, hp⟩)
    · exact ⟨log, [], rfl, by simp⟩
    · refine ⟨pre, post ++ [e], by simp, ?_⟩
      intro x hx
      rcases List.mem_append.1 hx with hx | hx
      · exact hp x hx
      · simp only [List.mem_singleton] at hx
        subst hx; exact ⟨h1, h2⟩

theorem live_nil (c : Cls) (n : Name) (i : Id) : ¬ Live [] c n i := by
  rintro ⟨pre, post, h, _⟩
  simp at h

theorem used_snoc (log : List Event) (e : Event) (c : Cls) :
    Used (log ++ [e]) c ↔ Used log c ∨ (∃ n, Registers c n e) ∨ e = .clear c := by
  simp only [Used, List.mem_append, List.mem_singleton, or_and_right, exists_or, exists_eq_left]

open Classical in
theorem liveNames_snoc (log : List Event) (e : Event) (c : Cls) :
    liveNames (log ++ [e]) c =
      (liveNames log c).filter (fun n => decide (¬ Removes c n e)) ++
        (match e with
          | .reg c' n _ => if c' = c ∧ ¬ IsLive log c n then [n] else []
          | _ => []) := by
  have hlast : openedAt (log ++ [e]) c log.length =
      match e with
        | .reg c' n _ => if c' = c ∧ ¬ IsLive log c n then some n else none
        | _ => none := by
    unfold openedAt
    cases e <;> simp
  have hlt : ∀ j ∈ List.range log.length,
      openedAt (log ++ [e]) c j = (openedAt log c j).filter (fun n => decide (¬ Removes c n e)) := by
    intro j hj
    have hj' : j < log.length := List.mem_range.1 hj
    unfold openedAt
    rw [List.getElem?_append_left hj', List.getElem?_eq_getElem hj']
    rw [List.take_append_of_le_length hj'.le, List.drop_append_of_le_length hj']
    cases hlog : log[j] with
    | reg c' n i =>
      simp only [List.mem_append, List.mem_singleton]
      by_cases h1 : c' = c ∧ ¬ IsLive (log.take j) c n ∧ ∀ e ∈ log.drop (j + 1), ¬ Removes c n e
      · by_cases h2 : Removes c n e
        · rw [if_neg, if_pos h1]
          · simp [Option.filter, h2]
          · rintro ⟨_, _, h⟩; exact h e (Or.inr rfl) h2
        · rw [if_pos, if_pos h1]
          · simp [Option.filter, h2]
          · refine ⟨h1.1, h1.2.1, ?_⟩
            rintro x (hx | rfl)
            · exact h1.2.2 x hx
            · exact h2
      · rw [if_neg, if_neg h1]
        · simp
        · rintro ⟨a, b, h⟩; exact h1 ⟨a, b, fun x hx => h x (Or.inl hx)⟩
    | del c' n => simp
    | clear c' => simp
    | read => simp
  unfold liveNames
  rw [List.length_append, List.length_singleton, List.range_succ, List.filterMap_append]
  congr 1
  · rw [List.filter_filterMap]
    exact List.filterMap_congr hlt
  · rw [List.filterMap_cons, hlast]
    cases e with
    | reg c' n i => by_cases h : c' = c ∧ ¬ IsLive log c n <;> simp [h]
    | _ => simp

/-- The refinement relation between the store and the log. -/
structure Refines (st : Store) (log : List Event) : Prop where
  noBase : NoBase st
  wf : ∀ c d, st.instances c = some d → Dict.WF d
  live : ∀ c n i, (st.instances c).bind (fun d => Dict.find d n) = some i ↔ Live log c n i
  used : ∀ c, (st.instances c).isSome = true ↔ Used log c
  names : ∀ c, ((st.instances c).map Dict.keys).getD [] = liveNames log c

theorem refines_empty : Refines .empty [] where
  noBase := rfl
  wf := by intro c d h; simp [Store.empty] at h
  live := by intro c n i; simp [Store.empty, live_nil]
  used := by intro c; simp [Store.empty, Used]
  names := by intro c; simp [Store.empty, liveNames]

theorem isLive_iff_of_refines {st : Store} {log : List Event} (h : Refines st log) (c : Cls) (n : Name) :
    IsLive log c n ↔ n ∈ ((st.instances c).map Dict.keys).getD [] := by
  unfold IsLive
  simp only [← h.live]
  cases hc : st.instances c with
  | none => simp
  | some d =>
    simp only [Option.bind_some, Option.map_some, Option.getD_some]
    rw [← Dict.find_isSome_iff, Option.isSome_iff_exists]

theorem refines_of_instances {st st' : Store} {log : List Event} (h : Refines st log)
    (he : st'.instances = st.instances) : Refines st' log where
  noBase := by unfold NoBase; rw [he]; exact h.noBase
  wf := by rw [he]; exact h.wf
  live := by rw [he]; exact h.live
  used := by rw [he]; exact h.used
  names := by rw [he]; exact h.names

theorem refines_read {st : Store} {log : List Event} (h : Refines st log) :
    Refines st (log ++ [.read]) where
  noBase := h.noBase
  wf := h.wf
  live := by
    intro c n i; rw [live_snoc, h.live]; simp [Removes, Registers]
  used := by intro c; rw [used_snoc, h.used]; simp [Registers]
  names := by
    intro c; rw [liveNames_snoc, h.names]; simp [Removes]

theorem refines_register {st st' : Store} {log : List Event} (h : Refines st log) {c : Cls}
    (hc : c ≠ .base) {n : Name} {i : Id}
    (he : st'.instances = (st.register c n i).instances) :
    Refines st' (log ++ [.reg c n i]) := by
  rw [register_of_noBase h.noBase] at he
  have hwf : Dict.WF ((st.instances c).getD []) := by
    cases hd : st.instances c with
    | none => simp [Dict.WF, Dict.keys]
    | some d => simpa using h.wf c d hd
  have hfind : ∀ m, Dict.find ((st.instances c).getD []) m
      = (st.instances c).bind (fun d => Dict.find d m) := by
    intro m; cases st.instances c <;> rfl
  constructor
  · unfold NoBase; rw [he, Function.update_of_ne (Ne.symm hc)]; exact h.noBase
  · intro c' d hd
    rw [he] at hd
    by_cases hcc : c' = c
    · subst hcc
      rw [Function.update_self, Option.some.injEq] at hd
      subst hd; exact Dict.WF_put hwf _ _
    · rw [Function.update_of_ne hcc] at hd; exact h.wf c' d hd
  · intro c' m j
    rw [he, live_snoc, ← h.live]
    by_cases hcc : c' = c
    · subst hcc
      rw [Function.update_self, Option.bind_some, Dict.find_put, hfind]
      by_cases hm : n = m
      · subst hm; simp [Registers]
      · simp [hm, Removes, Registers]
    · rw [Function.update_of_ne hcc]
      have : c ≠ c' := fun h => hcc h.symm
      simp [this, Removes, Registers]
  · intro c'
    rw [he, used_snoc, ← h.used]
    by_cases hcc : c' = c
    · subst hcc; rw [Function.update_self]; simp [Registers]
    · rw [Function.update_of_ne hcc]
      have : c ≠ c' := fun h => hcc h.symm
      simp [this, Registers]
  · intro c'
    rw [he, liveNames_snoc, ← h.names c']
    by_cases hcc : c' = c
    · subst hcc
      rw [Function.update_self]
      simp only [Option.map_some, Option.getD_some, Removes, reduceCtorEq, or_self, not_false_eq_true,
        decide_true, List.filter_true, true_and, isLive_iff_of_refines h]
      rw [Dict.keys_put]
      cases hd : st.instances c' with
      | none => simp [Dict.keys]
      | some d =>
        by_cases hm : n ∈ Dict.keys d <;> simp [hm]
    · rw [Function.update_of_ne hcc]
      have : c ≠ c' := fun h => hcc h.symm
      simp [this, Removes]

theorem refines_clear {st : Store} {log : List Event} (h : Refines st log) {c : Cls}
    (hc : c ≠ .base) : Refines (st.clearAll c) (log ++ [.clear c]) := by
  have he : (st.clearAll c).instances = Function.update st.instances c (some []) := rfl
  constructor
  · unfold NoBase; rw [he, Function.update_of_ne (Ne.symm hc)]; exact h.noBase
  · intro c' d hd
    rw [he] at hd
    by_cases hcc : c' = c
    · subst hcc
      rw [Function.update_self, Option.some.injEq] at hd
      subst hd; simp [Dict.WF, Dict.keys]
    · rw [Function.update_of_ne hcc] at hd; exact h.wf c' d hd
  · intro c' m j
    rw [he, live_snoc, ← h.live]
    by_cases hcc : c' = c
    · subst hcc; rw [Function.update_self]; simp [Removes, Dict.find]
    · rw [Function.update_of_ne hcc]
      have : c ≠ c' := fun h => hcc h.symm
      simp [this, Removes, Registers]
  · intro c'
    rw [he, used_snoc, ← h.used]
    by_cases hcc : c' = c
    · subst hcc; rw [Function.update_self]; simp
    · rw [Function.update_of_ne hcc]
      have : c ≠ c' := fun h => hcc h.symm
      simp [this, Registers]
  · intro c'
    rw [he, liveNames_snoc, ← h.names c']
    by_cases hcc : c' = c
    · subst hcc; rw [Function.update_self]; simp [Removes, Dict.keys]
    · rw [Function.update_of_ne hcc]
      have : c ≠ c' := fun h => hcc h.symm
      simp [this, Removes]

theorem refines_delete {st : Store} {log : List Event} (h : Refines st log) {c : Cls}
    (hc : c ≠ .base) {n : Name} {u : Unit} (hok : (st.delete c n).2 = .ok u) :
    Refines (st.delete c n).1 (log ++ [.del c n]) := by
  have hb : st.instances .base = none := h.noBase
  obtain ⟨d, hd, he⟩ : ∃ d, st.instances c = some d ∧
      (st.delete c n).1.instances = Function.update st.instances c (some (Dict.del d n)) := by
    unfold Store.delete Store.slot at hok ⊢
    rw [registry_of_noBase h.noBase, hb] at hok ⊢
    cases hd : st.instances c with
    | none => simp [hd] at hok
    | some d =>
      refine ⟨d, rfl, ?_⟩
      by_cases hh : Dict.has d n = true
      · simp [hh]
      · simp [hd, hh] at hok
  have hwf := h.wf c d hd
  constructor
  · unfold NoBase; rw [he, Function.update_of_ne (Ne.symm hc)]; exact h.noBase
  · intro c' d' hd'
    rw [he] at hd'
    by_cases hcc : c' = c
    · subst hcc
      rw [Function.update_self, Option.some.injEq] at hd'
      subst hd'; exact Dict.WF_del hwf _
    · rw [Function.update_of_ne hcc] at hd'; exact h.wf c' d' hd'
  · intro c' m j
    rw [he, live_snoc, ← h.live]
    by_cases hcc : c' = c
    · subst hcc
      rw [Function.update_self, hd, Option.bind_some, Option.bind_some, Dict.find_del hwf]
      by_cases hm : n = m
      · subst hm; simp [Removes]
      · simp [hm, Removes, Registers]
    · rw [Function.update_of_ne hcc]
      have : c ≠ c' := fun h => hcc h.symm
      simp [this, Removes, Registers]
  · intro c'
    rw [he, used_snoc, ← h.used]
    by_cases hcc : c' = c
    · subst hcc; rw [Function.update_self, hd]; simp
    · rw [Function.update_of_ne hcc]
      simp [Registers]
  · intro c'
    rw [he, liveNames_snoc, ← h.names c']
    by_cases hcc : c' = c
    · subst hcc
      rw [Function.update_self, hd]
      simp only [Option.map_some, Option.getD_some, List.append_nil]
      rw [Dict.keys_del_filter hwf]
      apply List.filter_congr
      intro m _
      simp [Removes, eq_comm]
    · rw [Function.update_of_ne hcc]
      have : c ≠ c' := fun h => hcc h.symm
      simp [this, Removes]

theorem exec_refines {st : Store} {log : List Event} (h : Refines st log) (op : Op) (h4 : op.onFour)
    (hb : op.isNew = true → ∃ e, (exec st op).2 = .ok e) :
    Refines (exec st op).1 (log ++ ((exec st op).2.toOption).toList) := by
  by_cases hn : op.isNew = true
  · obtain ⟨e, he⟩ := hb hn
    obtain ⟨c, n, ht⟩ := (isNew_iff_target op).1 hn
    have := exec_event_new st op ht he
    subst this
    rw [he]
    exact refines_register h (target_ne_base ht) (exec_instances_new st op ht)
  · cases op with
    | del c n =>
      cases hr : (st.delete c n).2 with
      | ok u =>
        have := refines_delete h (c := c) h4 hr
        simpa [exec, hr, Except.map, Except.toOption] using this
      | error e =>
        have h2 : (st.delete c n).1 = st := by
          unfold Store.delete at hr ⊢
          split
          · split
            · rename_i h1 h2 h3; rw [h1, h2] at hr; simp [h3] at hr
            · rfl
          · rfl
        simpa [exec, hr, Except.map, Except.toOption, h2] using h
    | clear c => simpa [exec, Except.toOption] using refines_clear h (c := c) h4
    | allWcs i =>
      have h1 := refines_of_instances h (readAllWcs_instances st i)
      cases hr : (readAllWcs st i).2 with
      | ok l => simpa [exec, hr, Except.map, Except.toOption] using refines_read h1
      | error e => simpa [exec, hr, Except.map, Except.toOption] using h1
    | _ => simp [Op.isNew] at hn

theorem runLog_refines {st : Store} {log : List Event} (h : Refines st log) (ops : List Op)
    (h4 : ∀ op ∈ ops, op.onFour) (hb : AllBuilt (runLog st ops).2) :
    Refines (runLog st ops).1 (log ++ events (runLog st ops).2) := by
  induction ops generalizing st log with
  | nil => simpa [runLog, events] using h
  | cons op ops ih =>
    have h1 := exec_refines h op (h4 op (by simp)) (fun hn => hb (op, _) (by simp [runLog]) hn)
    have h2 := ih h1 (fun o ho => h4 o (by simp [ho]))
      (fun p hp => hb p (by simp [runLog, hp]))
    have h3 : events (runLog st (op :: ops)).2 =
        ((exec st op).2.toOption).toList ++ events (runLog (exec st op).1 ops).2 := by
      simp only [runLog, events, List.filterMap_cons]
      cases (exec st op).2.toOption <;> simp
    rw [h3, ← List.append_assoc]
    exact h2

theorem run_refines (ops : List Op) (h4 : ∀ op ∈ ops, op.onFour)
    (hb : AllBuilt (runLog .empty ops).2) : Refines (run ops) (events (runLog .empty ops).2) :=
  runLog_refines refines_empty ops h4 hb

end Verif
