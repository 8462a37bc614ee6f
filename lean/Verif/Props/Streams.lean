import Verif.Model.Streams
import Verif.Lemmas.CliLemmas
import Verif.Props.Cli

/-!
C100: the standard streams and named files carry the same data. C101: the message of `validate`.
-/

set_option autoImplicit false

namespace Verif

theorem Task.cmd_body (E : Env) (text : String) (t : Task) (f : String) (o : Option String) :
    (t.cmd f o).body E text = t.body E text := by
  cases t <;> rfl

theorem Task.cmd_file (t : Task) (f : String) (o : Option String) : (t.cmd f o).file = some f := by
  cases t <;> rfl

theorem Task.cmd_output (t : Task) (f : String) (o : Option String) :
    (t.cmd f o).output = if t.hasOutput then o else none := by
  cases t <;> rfl

/-- With named files the actions and the end are those of `wcxfMain`, so that what is proved there also holds here. -/
theorem std_refines (E : Env) (help stdin : String) (w : World) (t : Task) (f : String) (hf : f ≠ "-") (outFirst : Bool) :
    (∀ g, g ≠ "-" → (wcxfStd E help stdin w t (some f) (.named g) outFirst).1 =
        (wcxfMain E w (t.cmd f (some g)) outFirst).1 ∧
      (wcxfStd E help stdin w t (some f) (.named g) outFirst).2.2 = (wcxfMain E w (t.cmd f (some g)) outFirst).2) ∧
    (wcxfStd E help stdin w t (some f) .omitted outFirst).1 = (wcxfMain E w (t.cmd f none) outFirst).1 ∧
    (wcxfStd E help stdin w t (some f) .omitted outFirst).2.2 = (wcxfMain E w (t.cmd f none) outFirst).2 := by
  have hi : inputFile (some f) = some f := by simp [inputFile, hf]
  constructor
  · intro g hg
    have hs : (OutOpt.named g).sink = .file g := by simp [OutOpt.sink, hg]
    simp only [wcxfStd, wcxfMain, hi, hs, Task.cmd_file, Task.cmd_body, Task.cmd_output]
    cases t.hasOutput <;> simp only [Sink.opened, Sink.write, Bool.false_eq_true, if_true, if_false, Option.map_some, Option.map_none,
      Option.toList_some, Option.toList_none] <;> constructor <;> split_ifs <;> rfl
  · simp only [wcxfStd, wcxfMain, hi, OutOpt.sink, Task.cmd_file, Task.cmd_body, Task.cmd_output, ite_self]
    simp only [Sink.opened, Sink.write, Option.map_none, Option.toList_none]
    constructor <;> split_ifs <;> rfl

/-- The result of a command when the input can be read, for any way of giving the streams. -/
theorem std_ok (E : Env) (help stdin : String) (w : World) (t : Task) (ht : t.hasOutput = true) (f : String) (hf : f ≠ "-")
    (hr : (w.file f).isSome) (out : OutOpt) (hne : out ≠ .named f) (outFirst : Bool) :
    wcxfStd E help stdin w t (some f) out outFirst =
      (out.sink.opened ++ out.sink.write (t.body E ((w.file f).getD "")).1,
        out.sink.shown (t.body E ((w.file f).getD "")).1 ++ t.message E help ((w.file f).getD ""),
        ending (t.body E ((w.file f).getD "")).2) := by
  have hi : inputFile (some f) = some f := by simp [inputFile, hf]
  have hw : (w.after out.sink.opened).file f = w.file f := by
    apply after_other
    intro a ha
    cases out with
    | omitted => simp [OutOpt.sink, Sink.opened] at ha
    | noValue => simp [OutOpt.sink, Sink.opened] at ha
    | named p =>
      by_cases hp : p = "-"
      · simp [OutOpt.sink, Sink.opened, hp] at ha
      · simp only [OutOpt.sink, if_neg hp, Sink.opened, List.mem_singleton] at ha
        subst ha
        intro h
        exact hne (by rw [← h]; rfl)
  simp only [wcxfStd, hi, ht, if_true, hw, ite_self, hr]

theorem message_cases (E : Env) (help text : String) (t : Task) (ht : t.hasOutput = true) :
    t.message E help text = if (t.body E text).2 = .error .attributeError then help else "" := by
  cases t with
  | validate typ => simp [Task.hasOutput] at ht
  | _ =>
    simp only [Task.message, String.empty_append]
    split
    · next h => rw [if_pos h]
    · next h => rw [if_neg h]

/-- **C100 (standard output).** With `--output` omitted or `-`, `convert`, `translate` and `match` change no file, end as they do with
`--output g`, and print the contents that `g` would get, followed by what is printed with `--output g`: the help if the command ended
by an `AttributeError`, otherwise nothing. -/
theorem C100_partial (E : Env) (help stdin : String) (w : World) (t : Task) (ht : t.hasOutput = true) (f g : String) (hf : f ≠ "-")
    (hg : g ≠ "-") (hne : g ≠ f) (hr : (w.file f).isSome) (out : OutOpt) (ho : out = .omitted ∨ out = .named "-") (b b' : Bool) :
    (wcxfStd E help stdin w t (some f) out b).1 = [] ∧
    (wcxfStd E help stdin w t (some f) out b).2.2 = (wcxfStd E help stdin w t (some f) (.named g) b').2.2 ∧
    ∃ text, (w.after (wcxfStd E help stdin w t (some f) (.named g) b').1).file g = some text ∧
      (wcxfStd E help stdin w t (some f) out b).2.1 = text ++ (wcxfStd E help stdin w t (some f) (.named g) b').2.1 ∧
      ((wcxfStd E help stdin w t (some f) (.named g) b').2.1 = "" ∨
        (wcxfStd E help stdin w t (some f) (.named g) b').2.1 = help ∧
        (wcxfStd E help stdin w t (some f) (.named g) b').2.2 = .status 0) := by
  have hs : out.sink = .stdout := by
    rcases ho with rfl | rfl <;> simp [OutOpt.sink]
  have hsg : (OutOpt.named g).sink = .file g := by simp [OutOpt.sink, hg]
  have hof : out ≠ .named f := by
    rcases ho with rfl | rfl
    · simp
    · simpa using Ne.symm hf
  rw [std_ok E help stdin w t ht f hf hr out hof b,
    std_ok E help stdin w t ht f hf hr (.named g) (by simpa using hne) b', hs, hsg, message_cases E help _ t ht]
  refine ⟨rfl, rfl, (t.body E ((w.file f).getD "")).1, ?_, ?_, ?_⟩
  · simp only [Sink.opened, Sink.write]
    rw [after_append, after_writeText _ _ (after_truncate w g)]
  · simp [Sink.shown]
  · simp only [Sink.shown, String.empty_append]
    split
    · next h => exact .inr ⟨rfl, by rw [h]; rfl⟩
    · exact .inl rfl

/-- **C100 (what is printed).** If the operation asked for can be carried out with the result `r` (the specification of C24), the command
without `--output` prints exactly `r` and ends with status 0; without `--format` the format is JSON. -/
theorem C100_result (E : Env) (help stdin : String) (w : World) (f text : String) (hf : f ≠ "-") (hw : w.file f = some text) (r : String)
    (b : Bool) :
    (∀ fmt, Spec.CarriedOut E text r (.convert fmt f none) →
      wcxfStd E help stdin w (.convert fmt) (some f) .omitted b = ([], r, .status 0)) ∧
    (∀ basis fmt, Spec.CarriedOut E text r (.translate basis f none fmt) →
      wcxfStd E help stdin w (.translate basis (some fmt)) (some f) .omitted b = ([], r, .status 0)) ∧
    (∀ basis, Spec.CarriedOut E text r (.translate basis f none "json") →
      wcxfStd E help stdin w (.translate basis none) (some f) .omitted b = ([], r, .status 0)) ∧
    (∀ eft basis fmt, Spec.CarriedOut E text r (.matchTo eft basis f none fmt) →
      wcxfStd E help stdin w (.matchTo eft basis (some fmt)) (some f) .omitted b = ([], r, .status 0)) ∧
    (∀ eft basis, Spec.CarriedOut E text r (.matchTo eft basis f none "json") →
      wcxfStd E help stdin w (.matchTo eft basis none) (some f) .omitted b = ([], r, .status 0)) := by
  have key : ∀ t : Task, t.hasOutput = true → t.body E text = (r, .ok ()) →
      wcxfStd E help stdin w t (some f) .omitted b = ([], r, .status 0) := by
    intro t ht hb
    rw [std_ok E help stdin w t ht f hf (by simp [hw]) .omitted (by simp) b, hw, Option.getD_some, message_cases E help text t ht, hb]
    simp [OutOpt.sink, Sink.opened, Sink.write, Sink.shown, ending]
  refine ⟨fun fmt h => key _ rfl ?_, fun basis fmt h => key _ rfl ?_, fun basis h => key _ rfl ?_, fun eft basis fmt h => key _ rfl ?_,
    fun eft basis h => key _ rfl ?_⟩
  all_goals
    rw [← Task.cmd_body E text _ f none]
    exact carriedOut_body h

/-- **C100 (standard input).** With the input omitted or `-`, a command does with the text on the standard input what it does with a file
of these contents. This holds for `validate` as well. -/
theorem C100_stdin (E : Env) (help stdin other : String) (w : World) (t : Task) (f : String) (hf : f ≠ "-") (hw : w.file f = some stdin)
    (file : Option String) (hi : file = none ∨ file = some "-") (out : OutOpt) (hne : out ≠ .named f) (b b' : Bool) :
    wcxfStd E help stdin w t file out b = wcxfStd E help other w t (some f) out b' := by
  have h0 : inputFile file = none := by rcases hi with rfl | rfl <;> simp [inputFile]
  cases ht : t.hasOutput with
  | true =>
    rw [std_ok E help other w t ht f hf (by simp [hw]) out hne b']
    simp only [wcxfStd, h0, ht, if_true, hw, Option.getD_some]
  | false =>
    have h1 : inputFile (some f) = some f := by simp [inputFile, hf]
    simp [wcxfStd, h0, h1, ht, Sink.opened, World.after, hw]

/-- **C100: an option `--output` without a value** discards the result: whatever the input is, no file is changed, nothing but the help
after an `AttributeError` is printed, and the end is the same as without the option. -/
theorem C100_no_value (E : Env) (help stdin : String) (w : World) (t : Task) (ht : t.hasOutput = true) (f : String) (hf : f ≠ "-")
    (hr : (w.file f).isSome) (b b' : Bool) :
    (wcxfStd E help stdin w t (some f) .noValue b).1 = [] ∧
    ((wcxfStd E help stdin w t (some f) .noValue b).2.1 = "" ∨ (wcxfStd E help stdin w t (some f) .noValue b).2.1 = help) ∧
    (wcxfStd E help stdin w t (some f) .noValue b).2.2 = (wcxfStd E help stdin w t (some f) .omitted b').2.2 := by
  rw [std_ok E help stdin w t ht f hf hr .noValue (by simp) b, std_ok E help stdin w t ht f hf hr .omitted (by simp) b',
    message_cases E help _ t ht]
  refine ⟨rfl, ?_, rfl⟩
  simp only [OutOpt.sink, Sink.shown, String.empty_append]
  split
  · exact .inr rfl
  · exact .inl rfl

/-- **C100 (`wcxf2eos`).** Without `--eoshome`, an export that succeeds is printed if `--output` is omitted or `-`, and is the contents of
`g` with `--output g`; both end with status 0. -/
theorem C100_eos (E : Env) (sm : Except PyErr (Dict String JVal)) (stdin : String) (w : World) (f g : String) (hf : f ≠ "-")
    (hg : g ≠ "-") (hne : g ≠ f) (hr : (w.file f).isSome) (out : OutOpt) (ho : out = .omitted ∨ out = .named "-") (b b' : Bool)
    (h0 : (eosStd E sm stdin w (some f) (.named g) none b').2.2 = .status 0) :
    (eosStd E sm stdin w (some f) (.named g) none b').2.1 = "" ∧
    eosStd E sm stdin w (some f) out none b =
      ([], ((w.after (eosStd E sm stdin w (some f) (.named g) none b').1).file g).getD "", .status 0) := by
  have hs : out.sink = .stdout := by
    rcases ho with rfl | rfl <;> simp [OutOpt.sink]
  have hsg : (OutOpt.named g).sink = .file g := by simp [OutOpt.sink, hg]
  have hi : inputFile (some f) = some f := by simp [inputFile, hf]
  have hw : (w.after [.truncate g]).file f = w.file f := by
    apply after_other
    intro a ha
    rw [List.mem_singleton] at ha
    subst ha
    exact hne
  have hw0 : w.after [] = w := rfl
  simp only [eosStd, hs, hsg, hi, Sink.opened, hw, hw0, ite_self, hr, if_true] at h0 ⊢
  cases ht : eosText E sm ((w.file f).getD "") with
  | error e => simp [ht] at h0
  | ok t =>
    simp only [Sink.write, Sink.shown]
    rw [after_append, after_writeText _ _ (after_truncate w g)]
    simp

/-- With named files the actions and the end are those of `eosMain`. -/
theorem eos_std_refines (E : Env) (sm : Except PyErr (Dict String JVal)) (stdin : String) (w : World) (f : String) (hf : f ≠ "-")
    (home : Option String) (outFirst : Bool) :
    (∀ g, g ≠ "-" → (eosStd E sm stdin w (some f) (.named g) home outFirst).1 = (eosMain E sm w ⟨f, some g, home⟩ outFirst).1 ∧
      (eosStd E sm stdin w (some f) (.named g) home outFirst).2.2 = (eosMain E sm w ⟨f, some g, home⟩ outFirst).2) ∧
    (eosStd E sm stdin w (some f) .omitted home outFirst).1 = (eosMain E sm w ⟨f, none, home⟩ outFirst).1 ∧
    (eosStd E sm stdin w (some f) .omitted home outFirst).2.2 = (eosMain E sm w ⟨f, none, home⟩ outFirst).2 := by
  have hi : inputFile (some f) = some f := by simp [inputFile, hf]
  constructor
  · intro g hg
    have hs : (OutOpt.named g).sink = .file g := by simp [OutOpt.sink, hg]
    cases home <;> simp only [eosStd, eosMain, eosBody, hi, hs, Sink.opened, Sink.write, Option.map_some, Option.toList_some]
    · cases eosText E sm (((w.after [Action.truncate g]).file f).getD "") <;> constructor <;> split_ifs <;> simp_all
    · constructor <;> split_ifs <;> rfl
  · cases home with
    | none =>
      simp only [eosStd, eosMain, eosBody, hi, OutOpt.sink, Sink.opened, Sink.write, Option.map_none, Option.toList_none]
      cases eosText E sm (((w.after []).file f).getD "") <;> constructor <;> split_ifs <;> simp_all
    | some h =>
      simp only [eosStd, eosMain, eosBody, hi, OutOpt.sink, Sink.opened, Option.map_none, Option.toList_none]
      cases eosText E sm ((((w.after []).after [Action.truncate (eosFile h)]).file f).getD "") <;>
        by_cases hd : (w.after []).isDir (eosDir h) = true <;> simp only [hd, if_true, if_false, Bool.false_eq_true] <;>
        constructor <;> split_ifs <;> rfl

/-- **C100 (`wcxf2eos`, standard input).** The text on the standard input is treated like a file of these contents that is not written
to. -/
theorem C100_eos_stdin (E : Env) (sm : Except PyErr (Dict String JVal)) (stdin other : String) (w : World) (f : String) (hf : f ≠ "-")
    (hw : w.file f = some stdin) (file : Option String) (hi : file = none ∨ file = some "-") (out : OutOpt) (hne : out ≠ .named f)
    (home : Option String) (hh : ∀ h, home = some h → eosFile h ≠ f) (b b' : Bool) :
    eosStd E sm stdin w file out home b = eosStd E sm other w (some f) out home b' := by
  have h0 : inputFile file = none := by rcases hi with rfl | rfl <;> simp [inputFile]
  have h1 : inputFile (some f) = some f := by simp [inputFile, hf]
  have hp : ∀ (w : World) (p : String), p ≠ f → (w.after [.truncate p]).file f = w.file f := by
    intro w p hp
    apply after_other
    intro a ha
    rw [List.mem_singleton] at ha
    subst ha
    exact hp
  have hs : (w.after out.sink.opened).file f = some stdin := by
    cases out with
    | omitted => exact hw
    | noValue => exact hw
    | named p =>
      by_cases hpm : p = "-"
      · simpa [OutOpt.sink, Sink.opened, hpm, World.after] using hw
      · simp only [OutOpt.sink, if_neg hpm, Sink.opened]
        rw [hp w p (by rintro rfl; exact hne rfl), hw]
  cases home with
  | none => simp only [eosStd, h0, h1, hs, hw, ite_self, Option.isSome_some, if_true, Option.getD_some]
  | some h =>
    have := hp (w.after out.sink.opened) (eosFile h) (hh h rfl)
    rw [hs] at this
    cases hk : out.sink <;> rw [hk] at hs this <;>
      simp only [eosStd, h0, h1, hk, hs, hw, this, ite_self, Option.isSome_some, if_true, Option.getD_some]

/-- **C100 (`wcxf2eos`): an option `--output` without a value** never gives status 0 and changes no file, with or without `--eoshome`. -/
theorem C100_eos_no_value (E : Env) (sm : Except PyErr (Dict String JVal)) (stdin : String) (w : World) (file : Option String)
    (eoshome : Option String) (b : Bool) :
    (eosStd E sm stdin w file .noValue eoshome b).1 = [] ∧
    (eosStd E sm stdin w file .noValue eoshome b).2.1 = "" ∧
    (eosStd E sm stdin w file .noValue eoshome b).2.2.code ≠ 0 := by
  have hs : OutOpt.noValue.sink = .none := rfl
  cases eoshome <;> simp only [eosStd, hs, Sink.opened] <;> repeat' split
  all_goals simp_all [Sink.write, Sink.shown, Ending.code]

/-- **C100 is false.** `wcxf convert json f --output` ends with status 0, prints nothing and writes nothing, although the result is not
empty. -/
theorem C100_refuted :
    ∃ (E : Env) (w : World),
      wcxfStd E "help" "" w (.convert "json") (some "f") .noValue false = ([], "", .status 0) ∧
      wcxfStd E "help" "" w (.convert "json") (some "f") .omitted false = ([], "doc", .status 0) := by
  let cd : Codec := ⟨fun _ => "doc", fun _ => "", fun _ => none, fun t => some (.str t)⟩
  let E : Env := ⟨cd, fun _ => none, fun _ => .ok true, .empty⟩
  let w : World := ⟨fun p => if p = "f" then some "data" else none, fun _ => false⟩
  have hl : lower "json" = "json" := by decide +kernel
  have hb : (Task.convert "json").body E ((w.file "f").getD "") = ("doc", .ok ()) := by
    simp [Task.body, Task.cmd, Cmd.body, hl, convertJson, E, cd]
  refine ⟨E, w, ?_, ?_⟩
  · rw [std_ok E "help" "" w _ rfl "f" (by decide) (by simp [w]) .noValue (by simp) false, message_cases _ _ _ _ rfl, hb]
    simp [OutOpt.sink, Sink.opened, Sink.write, Sink.shown, ending]
  · rw [std_ok E "help" "" w _ rfl "f" (by decide) (by simp [w]) .omitted (by simp) false, message_cases _ _ _ _ rfl, hb]
    simp [OutOpt.sink, Sink.opened, Sink.write, Sink.shown, ending]

/-- Non-trivial instance of C100: `wcxf convert json - --output g` with the text on the standard input writes the file that
`wcxf convert json f` prints. -/
example : ∃ (E : Env) (w : World), w.file "f" = some "data" ∧
    wcxfStd E "help" "" w (.convert "json") (some "f") (.named "-") true = ([], "doc", .status 0) ∧
    (w.after (wcxfStd E "help" "data" w (.convert "json") (some "-") (.named "g") true).1).file "g" = some "doc" := by
  let cd : Codec := ⟨fun _ => "doc", fun _ => "", fun _ => none, fun t => some (.str t)⟩
  let E : Env := ⟨cd, fun _ => none, fun _ => .ok true, .empty⟩
  let w : World := ⟨fun p => if p = "f" then some "data" else none, fun _ => false⟩
  have hl : lower "json" = "json" := by decide +kernel
  have hb : (Task.convert "json").body E ((w.file "f").getD "") = ("doc", .ok ()) := by
    simp [Task.body, Task.cmd, Cmd.body, hl, convertJson, E, cd]
  have h1 : wcxfStd E "help" "" w (.convert "json") (some "f") (.named "-") true = ([], "doc", .status 0) := by
    rw [std_ok E "help" "" w _ rfl "f" (by decide) (by simp [w]) (.named "-") (by decide) true, message_cases _ _ _ _ rfl, hb]
    simp [OutOpt.sink, Sink.opened, Sink.write, Sink.shown, ending]
  obtain ⟨-, -, text, h2, h3, h4⟩ := C100_partial E "help" "" w (.convert "json") rfl "f" "g" (by decide) (by decide) (by decide)
    (by simp [w]) (.named "-") (.inr rfl) true true
  refine ⟨E, w, by simp [w], h1, ?_⟩
  rw [C100_stdin E "help" "data" "" w (.convert "json") "f" (by decide) (by simp [w]) (some "-") (.inr rfl) (.named "g") (by decide)
    true true, h2]
  rw [std_ok E "help" "" w _ rfl "f" (by decide) (by simp [w]) (.named "g") (by decide) true, message_cases _ _ _ _ rfl, hb] at h3
  rw [h1] at h3
  simpa [OutOpt.sink, Sink.shown] using h3.symm

/-! ### C101 -/

theorem validate_true (E : Env) (typ text f : String) :
    validateCmd E typ text = .ok true ↔ Spec.CarriedOut E text "" (.validate typ f) := by
  simp only [Spec.CarriedOut, true_and, validateCmd]
  by_cases h1 : typ = "eft"
  · subst h1
    cases h : (loadEFT E.cd E.st text).2 <;> simp [bind, Except.bind, pure, Except.pure]
  · by_cases h2 : typ = "basis"
    · subst h2
      rcases h : loadBasis E.cd E.st text with ⟨st', _ | i⟩
      · simp
      · cases hv : validateBasis E.tex st' i <;> simp [bind, Except.bind, pure, Except.pure, hv]
    · by_cases h3 : typ = "wc"
      · subst h3
        cases h : loadWC E.cd E.fl text with
        | error e => simp [bind, Except.bind]
        | ok wc => cases hv : validateWC E.st wc <;> simp [bind, Except.bind, pure, Except.pure, hv]
      · simp [h1, h2, h3]

/-- **C101.** `wcxf validate` prints `Validation successful.` exactly if the input is a file of the type asked for and is valid; then the
status is 0. Nothing is written to a file. The help is any other text. -/
theorem C101_message (E : Env) (help stdin : String) (hh : help ≠ "Validation successful.\n") (w : World) (typ f : String) (hf : f ≠ "-")
    (out : OutOpt) (b : Bool) :
    (wcxfStd E help stdin w (.validate typ) (some f) out b).1 = [] ∧
    ((wcxfStd E help stdin w (.validate typ) (some f) out b).2.1 = "Validation successful.\n" ↔
      ∃ text, w.file f = some text ∧ Spec.CarriedOut E text "" (.validate typ f)) ∧
    ((wcxfStd E help stdin w (.validate typ) (some f) out b).2.1 = "Validation successful.\n" →
      (wcxfStd E help stdin w (.validate typ) (some f) out b).2.2 = .status 0) := by
  have hi : inputFile (some f) = some f := by simp [inputFile, hf]
  have hw0 : w.after [] = w := rfl
  have hb : ∀ text, (Task.validate typ).body E text = ("", (validateCmd E typ text).map fun _ => ()) := fun _ => rfl
  simp only [wcxfStd, hi, Task.hasOutput, Bool.false_eq_true, if_false, Sink.opened, hw0, ite_self, hb, Sink.write, Sink.shown,
    Task.message, String.empty_append, ← validate_true E typ _ f]
  cases hw : w.file f with
  | none => simp
  | some text =>
    simp only [Option.isSome_some, if_true, Option.getD_some, Option.some.injEq]
    rcases hv : validateCmd E typ text with e | _ | _
    · cases e <;> simp_all [Except.map]
    · simp [hv, Except.map]
    · simp [hv, Except.map, ending]

/-- Non-trivial instance of C101: an EFT file is reported as valid and an unknown TYPE is not. -/
example : ∃ (E : Env) (w : World),
    (wcxfStd E "help" "" w (.validate "eft") (some "f") .omitted false).2.1 = "Validation successful.\n" ∧
    (wcxfStd E "help" "" w (.validate "EFT") (some "f") .omitted false).2.1 ≠ "Validation successful.\n" ∧
    (wcxfStd E "help" "" w (.validate "EFT") (some "f") .omitted false).2.2 = .status 0 := by
  let cd : Codec := ⟨fun _ => "", fun _ => "", fun _ => some (.obj [("eft", .str "WET"), ("sectors", .obj [])]), fun _ => none⟩
  let E : Env := ⟨cd, fun _ => none, fun _ => .ok true, .empty⟩
  let w : World := ⟨fun p => if p = "f" then some "data" else none, fun _ => false⟩
  refine ⟨E, w, ?_, ?_, ?_⟩
  · refine (C101_message E "help" "" (by decide) w "eft" "f" (by decide) .omitted false).2.1.2 ⟨"data", by simp [w], ?_⟩
    exact ⟨rfl, .inl ⟨rfl, _, rfl⟩⟩
  · intro h
    obtain ⟨text, -, h⟩ := (C101_message E "help" "" (by decide) w "EFT" "f" (by decide) .omitted false).2.1.1 h
    simp [Spec.CarriedOut] at h
  · simp [wcxfStd, inputFile, Task.hasOutput, Sink.opened, World.after, w, Task.body, Task.cmd, Cmd.body, validateCmd, Except.map, ending]

end Verif
