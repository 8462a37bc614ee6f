import Verif.Model.History

/-!
Specification of the registries in terms of the log of events only (no dictionary is mentioned).
-/

set_option autoImplicit false

namespace Verif.Spec

/-- `e` removes whatever is registered under `(c, n)`. -/
def Removes (c : Cls) (n : Name) (e : Event) : Prop := e = .del c n ∨ e = .clear c

/-- `e` registers something under `(c, n)`. -/
def Registers (c : Cls) (n : Name) (e : Event) : Prop := ∃ i, e = .reg c n i

/-- Object `i` was registered under `(c, n)` and nothing later replaced or removed it. -/
def Live (log : List Event) (c : Cls) (n : Name) (i : Id) : Prop :=
  ∃ pre post, log = pre ++ .reg c n i :: post ∧
    ∀ e ∈ post, ¬ Removes c n e ∧ ¬ Registers c n e

/-- Some object is live under `(c, n)`. -/
def IsLive (log : List Event) (c : Cls) (n : Name) : Prop := ∃ i, Live log c n i

/-- Something was ever registered in `c`, or `c` was cleared. -/
def Used (log : List Event) (c : Cls) : Prop := ∃ e ∈ log, (∃ n, Registers c n e) ∨ e = .clear c

open Classical in
/-- The name that became live at position `j` of the log and stayed so to the end, if any. -/
noncomputable def openedAt (log : List Event) (c : Cls) (j : Nat) : Option Name :=
  match log[j]? with
  | some (.reg c' n _) =>
    if c' = c ∧ ¬ IsLive (log.take j) c n ∧ ∀ e ∈ log.drop (j + 1), ¬ Removes c n e then some n
    else none
  | _ => none

/-- The live names in the order in which they became live. -/
noncomputable def liveNames (log : List Event) (c : Cls) : List Name :=
  (List.range log.length).filterMap (openedAt log c)

end Verif.Spec
