import Verif.Model.Classes

/-!
Histories: sequences of operations a program can perform on the registries of `wcxf/classes.py`.
-/

set_option autoImplicit false

namespace Verif

/-- One user-visible operation. `allWcs` reads the cached property of the basis object `i`. -/
inductive Op where
  | newEFT (eft : String) (sectors : Sectors) (kw : Dict String JVal)
  | newBasis (eft basis : String) (sectors : Sectors) (kw : Dict String JVal)
  | newTranslator (eft fromB toB : String) (fn : Fn)
  | newMatcher (fromE fromB toE toB : String) (fn : Fn)
  | del (c : Cls) (n : Name)
  | clear (c : Cls)
  | allWcs (i : Id)

/-- What an operation did, as seen by the caller: it returned the new object `i` registered under
`(c, n)`, deleted `(c, n)`, cleared `c`, or only read. -/
inductive Event where
  | reg (c : Cls) (n : Name) (i : Id)
  | del (c : Cls) (n : Name)
  | clear (c : Cls)
  | read
  deriving DecidableEq

/-- Run one operation. -/
def exec (st : Store) : Op → Store × Except PyErr Event
  | .newEFT e s kw => let r := newEFT st e s kw; (r.1, r.2.map fun i => .reg .eft [e] i)
  | .newBasis e b s kw => let r := newBasis st e b s kw; (r.1, r.2.map fun i => .reg .basis [e, b] i)
  | .newTranslator e f t fn =>
    let r := newTranslator st e f t fn; (r.1, r.2.map fun i => .reg .translator [e, f, t] i)
  | .newMatcher e f e' t fn =>
    let r := newMatcher st e f e' t fn; (r.1, r.2.map fun i => .reg .matcher [e, f, e', t] i)
  | .del c n => let r := st.delete c n; (r.1, r.2.map fun _ => .del c n)
  | .clear c => (st.clearAll c, .ok (.clear c))
  | .allWcs i => let r := readAllWcs st i; (r.1, r.2.map fun _ => .read)

/-- Run a history; the log pairs every operation with its outcome. -/
def runLog (st : Store) : List Op → Store × List (Op × Except PyErr Event)
  | [] => (st, [])
  | op :: ops =>
    let r := exec st op
    let r' := runLog r.1 ops
    (r'.1, (op, r.2) :: r'.2)

/-- State after a history, from the empty state. -/
def run (ops : List Op) : Store := (runLog .empty ops).1

/-- Operations that construct an object. -/
def Op.isNew : Op → Bool
  | .newEFT .. => true
  | .newBasis .. => true
  | .newTranslator .. => true
  | .newMatcher .. => true
  | _ => false

/-- Operation on one of the four registries (not on the common base class). -/
def Op.onFour : Op → Prop
  | .del c _ => c ≠ .base
  | .clear c => c ≠ .base
  | _ => True

/-- Every construction in the log succeeded. -/
def AllBuilt (log : List (Op × Except PyErr Event)) : Prop :=
  ∀ p ∈ log, p.1.isNew = true → ∃ e, p.2 = .ok e

/-- The events of a log, in order. -/
def events (log : List (Op × Except PyErr Event)) : List Event :=
  log.filterMap fun p => p.2.toOption

end Verif
