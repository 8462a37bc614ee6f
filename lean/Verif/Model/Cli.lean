import Verif.Model.IO
import Verif.Model.Eos

/-!
Model of the command line tools `wcxf/cli.py`.

A command is a function from the world (files, directories) to a list of elementary file actions in the
order in which they are performed, and the way the process ends. A crash leaves the world after some
prefix of the actions. Text is written character by character (the operating system may buffer more; every
prefix is a possible crash point).

`argparse` is external: the arguments are given as parsed values. Its two visible effects are modelled:
`FileType('r')` arguments that cannot be opened end the process with status 2, and `FileType('w')`
arguments are opened (hence created or emptied) while parsing, in the order of the command line.
Options given without a value and the standard streams are in Verif.Model.Streams. Not modelled: failures to
open a file for writing, and read errors other than a missing file.
-/

set_option autoImplicit false

namespace Verif

/-- Files and directories. `none`: no such file. -/
structure World where
  file : String → Option String
  isDir : String → Bool

/-- Elementary actions on files: open for writing, write one character. -/
inductive Action where
  | truncate (p : String)
  | write (p : String) (c : Char)

/-- Effect of an action. -/
def Action.apply (w : World) : Action → World
  | .truncate p => { w with file := Function.update w.file p (some "") }
  | .write p c => { w with file := Function.update w.file p (some ((w.file p).getD "" ++ String.singleton c)) }

/-- World after a list of actions. -/
def World.after (w : World) (l : List Action) : World := l.foldl Action.apply w

/-- The actions that write a text. -/
def writeText (p : String) (t : String) : List Action := t.toList.map (Action.write p)

/-- How a process ends: by returning a status or by an uncaught exception. -/
inductive Ending where
  | status (n : ℕ)
  | exception (e : PyErr)
  deriving DecidableEq

/-- Exit status seen by the caller (setup.py:22-26: console scripts call `sys.exit(main())`; an uncaught
exception gives 1). -/
def Ending.code : Ending → ℕ
  | .status n => n
  | .exception _ => 1

/-! ### `wcxf` -/

/-- Parsed arguments of `wcxf` (cli.py:10-76). `output = none` is the standard output; input files are
named (standard input is a file like any other here). `bare` is a call without subcommand. -/
inductive Cmd where
  | bare
  | convert (fmt file : String) (output : Option String)
  | translate (basis file : String) (output : Option String) (fmt : String)
  | matchTo (eft basis file : String) (output : Option String) (fmt : String)
  | validate (typ file : String)

/-- The input file of a command. -/
def Cmd.file : Cmd → Option String
  | .bare => none
  | .convert _ f _ => some f
  | .translate _ f _ _ => some f
  | .matchTo _ _ f _ _ => some f
  | .validate _ f => some f

/-- The `--output` file of a command. -/
def Cmd.output : Cmd → Option String
  | .bare => none
  | .convert _ _ o => o
  | .translate _ _ o _ => o
  | .matchTo _ _ _ o _ => o
  | .validate _ _ => none

/-- What the commands depend on: the libraries, the string-to-float conversion, the LaTeX check and the
registries as they are after the import of the package. -/
structure Env where
  cd : Codec
  fl : String → Option ℝ
  tex : String → Except PyErr Bool
  st : Store

/-- classes.py:159-163 with `cls = EFT`. -/
def loadEFT (cd : Codec) (st : Store) (t : String) : Store × Except PyErr Id :=
  let args : Except PyErr (String × Sectors × Dict String JVal) := do
    let j ← cd.load t
    let d ← docArgs j
    let eft ← needArg d "eft"
    let sectors ← needArg d "sectors"
    let e ← asStr eft
    let s ← asObj sectors
    return (e, s, Dict.filt (fun k _ => k ∉ ["eft", "sectors"]) d)
  match args with
  | .error e => (st, .error e)
  | .ok (e, s, kw) => newEFT st e s kw

/-- cli.py:104-117 `validate`: `.ok true` if "Validation successful." is printed, `.ok false` if the TYPE
is unknown (the return code 1 is dropped by the caller). -/
noncomputable def validateCmd (E : Env) (typ text : String) : Except PyErr Bool :=
  if typ = "eft" then do
    let _ ← (loadEFT E.cd E.st text).2
    return true
  else if typ = "basis" then
    match loadBasis E.cd E.st text with
    | (_, .error e) => .error e
    | (st', .ok i) => do
      validateBasis E.tex st' i
      return true
  else if typ = "wc" then do
    let w ← loadWC E.cd E.fl text
    validateWC E.st w
    return true
  else .ok false

/-- The bodies cli.py:84-117 on the text of the input file: text written to the output stream, and
normal end or exception. `convert` drops the return code of the converters. -/
noncomputable def Cmd.body (E : Env) (text : String) : Cmd → String × Except PyErr Unit
  | .bare => ("", .error .attributeError)
  | .convert fmt _ _ =>
    let r1 := if lower fmt = "json" then (convertJson E.cd text "").1 else ""
    let r2 := if lower fmt = "yaml" then (convertYaml E.cd text "").1 else ""
    (r1 ++ r2, .ok ())
  | .translate basis _ _ fmt =>
    match loadWC E.cd E.fl text with
    | .error e => ("", .error e)
    | .ok w => match w.translate E.fl E.st basis none with
      | .error e => ("", .error e)
      | .ok w' => dump E.cd w'.attrs fmt ""
  | .matchTo eft basis _ _ fmt =>
    match loadWC E.cd E.fl text with
    | .error e => ("", .error e)
    | .ok w => match w.matchTo E.fl E.st eft basis none with
      | .error e => ("", .error e)
      | .ok w' => dump E.cd w'.attrs fmt ""
  | .validate typ _ => ("", (validateCmd E typ text).map fun _ => ())

/-- cli.py:77-81: `AttributeError` prints the help instead. -/
def ending : Except PyErr Unit → Ending
  | .ok _ => .status 0
  | .error .attributeError => .status 0
  | .error e => .exception e

/-- cli.py:10-81 `wcxf_cli`. `outFirst`: the `--output` option comes before the input file on the command
line. The input is read after both files have been opened. (Text for the standard output is not an
action on files.) -/
noncomputable def wcxfMain (E : Env) (w : World) (c : Cmd) (outFirst : Bool) : List Action × Ending :=
  match c.file with
  | none => ([], .status 0)
  | some f =>
    let opened := (c.output.map Action.truncate).toList
    let w1 := w.after opened
    if (if outFirst then w1.file f else w.file f).isSome then
      let r := c.body E ((w1.file f).getD "")
      (opened ++ (match c.output with
        | some o => writeText o r.1
        | none => []), ending r.2)
    else (if outFirst then opened else [], .status 2)

/-! ### `wcxf2eos` -/

/-- Parsed arguments of `wcxf2eos` (cli.py:120-132). -/
structure EosArgs where
  file : String
  output : Option String
  eoshome : Option String

/-- cli.py:139: `EOSHOME/parameters`. -/
def eosDir (home : String) : String := home ++ "/parameters"

/-- cli.py:143. -/
def eosFile (home : String) : String := home ++ "/parameters/wcxf.yaml"

/-- The new parameter file as data. -/
noncomputable def eosDoc (d : Dict String (Dict String ℝ)) : JVal :=
  .obj (Dict.mapVals (fun e => .obj (Dict.mapVals JVal.num e)) d)

/-- cli.py:146-152: load, validate, read the SM directory, convert. `sm` is the result of reading the
installed SM files (eos.py:10-22). The result is the text given to the output file. -/
noncomputable def eosText (E : Env) (sm : Except PyErr (Dict String JVal)) (text : String) : Except PyErr String := do
  let wc ← loadWC E.cd E.fl text
  validateWC E.st wc
  let s ← sm
  let d ← wc.dict E.fl
  let out ← wcxf2eos d s
  return E.cd.printYaml (eosDoc out)

/-- cli.py:133-154, after parsing: `f` is the already opened output file, if any. -/
noncomputable def eosBody (E : Env) (sm : Except PyErr (Dict String JVal)) (w : World) (a : EosArgs) :
    List Action × Ending :=
  match a.output, a.eoshome with
  | some _, some _ => ([], .status 1)
  | none, some home =>
    if w.isDir (eosDir home) then
      let w1 := w.after [.truncate (eosFile home)]
      match eosText E sm ((w1.file a.file).getD "") with
      | .error e => ([.truncate (eosFile home)], .exception e)
      | .ok t => (.truncate (eosFile home) :: writeText (eosFile home) t, .status 0)
    else ([], .status 1)
  | some o, none =>
    match eosText E sm ((w.file a.file).getD "") with
    | .error e => ([], .exception e)
    | .ok t => (writeText o t, .status 0)
  | none, none =>
    match eosText E sm ((w.file a.file).getD "") with
    | .error e => ([], .exception e)
    | .ok _ => ([], .status 0)

/-- cli.py:120-154 `eos`. -/
noncomputable def eosMain (E : Env) (sm : Except PyErr (Dict String JVal)) (w : World) (a : EosArgs)
    (outFirst : Bool) : List Action × Ending :=
  let opened := (a.output.map Action.truncate).toList
  let w1 := w.after opened
  if (if outFirst then w1.file a.file else w.file a.file).isSome then
    let r := eosBody E sm w1 a
    (opened ++ r.1, r.2)
  else (if outFirst then opened else [], .status 2)

end Verif
