import Verif.Model.Cli

/-!
The standard streams in `wcxf/cli.py`: Verif.Model.Cli with the arguments that select them and with the text that is printed.
`argparse` is external; what it does with the declarations of the two arguments is:

* `FILE` (`nargs='?'`, `FileType('r')`, default `sys.stdin`): absent or `-` is the standard input;
* `--output` (`nargs='?'`, `FileType('w')`, default `sys.stdout`, no `const`): absent or `-` is the standard output; the option without
  a value gives `None`.

Messages of `logging` and `argparse` go to the standard error stream and are not modelled.
-/

set_option autoImplicit false

namespace Verif

/-- The option `--output` on the command line. -/
inductive OutOpt where
  | omitted
  | noValue
  | named (p : String)
  deriving DecidableEq

/-- The value of `args.output`. -/
inductive Sink where
  | stdout
  | none
  | file (p : String)
  deriving DecidableEq

/-- cli.py:24-26, 40-41, 58-59, 128-129. -/
def OutOpt.sink : OutOpt → Sink
  | .omitted => .stdout
  | .noValue => .none
  | .named p => if p = "-" then .stdout else .file p

/-- cli.py:21-22, 36-38, 55-56, 72-73, 124-125: the named input file; `none` is the standard input. -/
def inputFile : Option String → Option String
  | some p => if p = "-" then none else some p
  | none => none

/-- The subcommands (cli.py:14-75) without the streams; the formats have the default `json` (cli.py:43-44, 61). -/
inductive Task where
  | convert (fmt : String)
  | translate (basis : String) (fmt : Option String)
  | matchTo (eft basis : String) (fmt : Option String)
  | validate (typ : String)

/-- The same command with named files. -/
def Task.cmd (f : String) (o : Option String) : Task → Cmd
  | .convert fmt => .convert fmt f o
  | .translate b fmt => .translate b f o (fmt.getD "json")
  | .matchTo e b fmt => .matchTo e b f o (fmt.getD "json")
  | .validate typ => .validate typ f

/-- `validate` has no `--output` (cli.py:67-75). -/
def Task.hasOutput : Task → Bool
  | .validate _ => false
  | _ => true

/-- cli.py:84-117 on the text of the input; the files are not used. -/
noncomputable def Task.body (E : Env) (text : String) (t : Task) : String × Except PyErr Unit := (t.cmd "" none).body E text

/-- What is printed besides the result: cli.py:116 `Validation successful.`, cli.py:80-81 the help after an `AttributeError`. -/
noncomputable def Task.message (E : Env) (help text : String) (t : Task) : String :=
  (match t with
    | .validate typ => match validateCmd E typ text with
      | .ok true => "Validation successful.\n"
      | _ => ""
    | _ => "") ++
  match (t.body E text).2 with
    | .error .attributeError => help
    | _ => ""

/-- The files that are opened for writing while the arguments are parsed. -/
def Sink.opened : Sink → List Action
  | .file p => [.truncate p]
  | _ => []

/-- Writing a text to `args.output`: classes.py:39-52 and 177-189 return the text if the stream is `None`, and cli.py:84-101 drop it. -/
def Sink.write (t : String) : Sink → List Action
  | .file p => writeText p t
  | _ => []

/-- The part of the text that appears on the standard output. -/
def Sink.shown (t : String) : Sink → String
  | .stdout => t
  | _ => ""

/-- cli.py:10-81 `wcxf_cli` with a subcommand: actions on files, text on the standard output, end. -/
noncomputable def wcxfStd (E : Env) (help stdin : String) (w : World) (t : Task) (file : Option String) (out : OutOpt) (outFirst : Bool) :
    List Action × String × Ending :=
  let sink := if t.hasOutput then out.sink else .stdout
  let w1 := w.after sink.opened
  let go (text : String) : List Action × String × Ending :=
    let r := t.body E text
    (sink.opened ++ sink.write r.1, sink.shown r.1 ++ t.message E help text, ending r.2)
  match inputFile file with
  | none => go stdin
  | some f =>
    if (if outFirst then w1.file f else w.file f).isSome then go ((w1.file f).getD "")
    else (if outFirst then sink.opened else [], "", .status 2)

/-- cli.py:120-154 `eos` with its streams. Line 134 compares `args.output` with `sys.stdout`; line 153 closes it, which fails for `None`
(after `yaml.dump` has returned the text). -/
noncomputable def eosStd (E : Env) (sm : Except PyErr (Dict String JVal)) (stdin : String) (w : World) (file : Option String)
    (out : OutOpt) (eoshome : Option String) (outFirst : Bool) : List Action × String × Ending :=
  let sink := out.sink
  let w1 := w.after sink.opened
  let text (w : World) : String := match inputFile file with
    | none => stdin
    | some f => (w.file f).getD ""
  let go : List Action × String × Ending :=
    match sink, eoshome with
    | .stdout, some home =>
      if w1.isDir (eosDir home) then
        match eosText E sm (text (w1.after [.truncate (eosFile home)])) with
        | .error e => ([.truncate (eosFile home)], "", .exception e)
        | .ok t => (.truncate (eosFile home) :: writeText (eosFile home) t, "", .status 0)
      else ([], "", .status 1)
    | _, some _ => ([], "", .status 1)
    | s, none =>
      match eosText E sm (text w1) with
      | .error e => ([], "", .exception e)
      | .ok t => (s.write t, s.shown t, if s = .none then .exception .attributeError else .status 0)
  match inputFile file with
  | none => (sink.opened ++ go.1, go.2)
  | some f =>
    if (if outFirst then w1.file f else w.file f).isSome then (sink.opened ++ go.1, go.2)
    else (if outFirst then sink.opened else [], "", .status 2)

end Verif
