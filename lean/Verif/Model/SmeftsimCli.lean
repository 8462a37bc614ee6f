import Verif.Model.Cli
import Verif.Model.Smeftsim

/-!
Model of the command `wcxf2smeftsim` (wcxf/cli.py:156-195). The serialisation of the filled card by `pylha.dump` is external (a
parameter). As in Verif.Model.Cli, `argparse` is external; the output file is not a `FileType` argument here, so it is opened by the
command itself.
-/

set_option autoImplicit false

namespace Verif

/-- Parsed arguments (cli.py:160-168). Without FILE, `argparse` opens the default `"{}"` as a file name. -/
structure SimArgs where
  file : String := "{}"
  output : String := "wcxf2smeftsim_param_card.dat"
  scheme : Scheme := .alpha
  lam : ℝ := 1000
  set : ModelSet := .A

/-- cli.py:187-193: the text of the whole card. -/
noncomputable def simText (E : Env) (lha : Card → String) (a : SimArgs) (wc : WC) : Except PyErr String := do
  let d ← wc.numDict E.fl
  let card ← cardFill (initializeCard a.set) d a.set a.lam a.scheme
  let (p, q) ← cardText a.set a.scheme
  return p ++ lha card ++ q

/-- cli.py:184-195: open the output, fill the card, write. -/
noncomputable def simWrite (E : Env) (lha : Card → String) (a : SimArgs) (wc : WC) : List Action × Ending :=
  match simText E lha a wc with
  | .error e => ([.truncate a.output], .exception e)
  | .ok t => (.truncate a.output :: writeText a.output t, .status 0)

/-- cli.py:156-195 `smeftsim`. `answer` is the line read by `input()`; `none`: end of the standard input. -/
noncomputable def smeftsimMain (E : Env) (lha : Card → String) (answer : Option String) (w : World) (a : SimArgs) :
    List Action × Ending :=
  match w.file a.file with
  | none => ([], .status 2)
  | some text =>
    match loadWC E.cd E.fl text with
    | .error e => ([], .exception e)
    | .ok wc =>
      match validateWC E.st wc with
      | .error e => ([], .exception e)
      | .ok _ =>
        if wc.basis = "Warsaw mass" then simWrite E lha a wc
        else match answer with
          | none => ([], .exception .eofError)
          | some key => if key ≠ "i" ∧ key ≠ "I" then ([], .status 0) else simWrite E lha a wc

end Verif
