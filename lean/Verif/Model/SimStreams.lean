import Verif.Model.SmeftsimCli

/-!
The arguments and standard streams of `wcxf2smeftsim` (wcxf/cli.py:156-195): Verif.Model.SmeftsimCli with options that are omitted or
given without a value, with the standard input as input file, and with the warning that is printed.

All options have `nargs='?'` without `const` (cli.py:162-165): without a value `argparse` gives `None`, which is neither converted nor
compared with the choices.
-/

set_option autoImplicit false

namespace Verif

/-- An option on the command line. -/
inductive SimOpt (α : Type) where
  | omitted
  | noValue
  | given (a : α)

/-- The parsed value; `none` is `None`. -/
def SimOpt.value {α : Type} (default : α) : SimOpt α → Option α
  | .omitted => some default
  | .noValue => none
  | .given a => some a

/-- The command line (cli.py:160-165). -/
structure SimLine where
  file : Option String := none
  output : SimOpt String := .omitted
  scheme : SimOpt Scheme := .omitted
  lam : SimOpt ℝ := .omitted
  set : SimOpt ModelSet := .omitted

/-- One expression of a row if `lambda_smeft_value` is `None`: `None**2` and `format(None, '.6e')` raise `TypeError`; the coefficient is
looked up before. -/
def CRow.noScale (d : Dict String CNum) (r : CRow) : Except PyErr Unit :=
  match r.kind with
  | .lam => .error .typeError
  | .ph => do
    let _ ← Dict.get d r.key
    return ()
  | _ => do
    let _ ← Dict.get d r.key
    .error .typeError

/-- smeftsim.py:91-5313 `smeftsim_card_fill` with `lambda_smeft_value = None`: the rows in order. -/
noncomputable def fillNoScale (d : Dict String CNum) (m : ModelSet) : Except PyErr Unit :=
  ((setBlocks m).flatMap Prod.snd).forM (CRow.noScale d)

/-- cli.py:184-195: `open(None, 'w')` raises `TypeError`. For the other options the output has been emptied before: without a model set
`initialize_smeftsim_card` returns an unbound name (smeftsim.py:8-88), and so does `smeftsim_card_text` without an input scheme
(smeftsim.py:5318-5353), where the card has been filled as for `alpha` (smeftsim.py:2700 compares with `mw` only). -/
noncomputable def simTry (E : Env) (lha : Card → String) (l : SimLine) (wc : WC) : List Action × Ending :=
  match l.output.value "wcxf2smeftsim_param_card.dat" with
  | none => ([], .exception .typeError)
  | some o =>
    match l.set.value .A with
    | none => ([.truncate o], .exception .unboundLocal)
    | some m =>
      match l.lam.value 1000, l.scheme.value .alpha with
      | some lam, some s => simWrite E lha { output := o, scheme := s, lam := lam, set := m } wc
      | some lam, none =>
        match (do let d ← wc.numDict E.fl; cardFill (initializeCard m) d m lam .alpha : Except PyErr Card) with
        | .error e => ([.truncate o], .exception e)
        | .ok _ => ([.truncate o], .exception .unboundLocal)
      | none, _ =>
        match (do let d ← wc.numDict E.fl; fillNoScale d m : Except PyErr Unit) with
        | .error e => ([.truncate o], .exception e)
        | .ok _ => ([.truncate o], .exception .unmodelled)

/-- cli.py:156-195 `smeftsim`. Without FILE the default `"{}"` is opened. `lines` is the standard input: its text if FILE is `-`, which
is then used up, so that `input()` finds its end. `answer` is the line read by `input()` otherwise; `warning` is the text of
cli.py:175-179. -/
noncomputable def smeftsimStd (E : Env) (lha : Card → String) (warning lines : String) (answer : Option String) (w : World)
    (l : SimLine) : List Action × String × Ending :=
  let f := l.file.getD "{}"
  let input : Option String := if f = "-" then some lines else w.file f
  let answer : Option String := if f = "-" then none else answer
  match input with
  | none => ([], "", .status 2)
  | some text =>
    match loadWC E.cd E.fl text with
    | .error e => ([], "", .exception e)
    | .ok wc =>
      match validateWC E.st wc with
      | .error e => ([], "", .exception e)
      | .ok _ =>
        if wc.basis = "Warsaw mass" then ((simTry E lha l wc).1, "", (simTry E lha l wc).2)
        else match answer with
          | none => ([], warning, .exception .eofError)
          | some key =>
            if key ≠ "i" ∧ key ≠ "I" then ([], warning, .status 0)
            else ((simTry E lha l wc).1, warning, (simTry E lha l wc).2)

end Verif
