import Verif.Model.SimStreams
import Verif.Props.SmeftsimCli

/-!
C102: options of `wcxf2smeftsim` without a value, and its standard streams.
-/

set_option autoImplicit false

namespace Verif

open Spec

namespace Spec

/-- The parsed arguments of a command line in which no option lacks its value: what is given, otherwise the documented default. -/
def Parsed (l : SimLine) (a : SimArgs) : Prop :=
  a.file = l.file.getD "{}" ∧
  (l.output = .given a.output ∨ l.output = .omitted ∧ a.output = "wcxf2smeftsim_param_card.dat") ∧
  (l.scheme = .given a.scheme ∨ l.scheme = .omitted ∧ a.scheme = .alpha) ∧
  (l.lam = .given a.lam ∨ l.lam = .omitted ∧ a.lam = 1000) ∧
  (l.set = .given a.set ∨ l.set = .omitted ∧ a.set = .A)

/-- Some option is given without a value. -/
def LacksValue (l : SimLine) : Prop :=
  l.output = .noValue ∨ l.scheme = .noValue ∨ l.lam = .noValue ∨ l.set = .noValue

end Spec

theorem parsed_value {α : Type} {o : SimOpt α} {a d : α} (h : o = .given a ∨ o = .omitted ∧ a = d) : o.value d = some a := by
  rcases h with rfl | ⟨rfl, rfl⟩ <;> rfl

theorem simTry_parsed (E : Env) (lha : Card → String) {l : SimLine} {a : SimArgs} (h : Parsed l a) (wc : WC) :
    simTry E lha l wc = simWrite E lha a wc := by
  obtain ⟨-, h1, h2, h3, h4⟩ := h
  unfold simTry
  rw [parsed_value h1, parsed_value h2, parsed_value h3, parsed_value h4]
  rfl

/-- **C102, the part that holds.** If no option lacks its value, the command does what it does with the values given and the documented
defaults for the others (`smeftsimMain`, C23). The warning is printed exactly if the input is valid and not in the basis `Warsaw mass`;
nothing else is printed. -/
theorem C102_partial (E : Env) (lha : Card → String) (warning lines : String) (answer : Option String) (w : World) (l : SimLine)
    (a : SimArgs) (h : Parsed l a) (hf : a.file ≠ "-") :
    (smeftsimStd E lha warning lines answer w l).1 = (smeftsimMain E lha answer w a).1 ∧
    (smeftsimStd E lha warning lines answer w l).2.2 = (smeftsimMain E lha answer w a).2 ∧
    ((∃ wc, ValidInput E w a.file wc ∧ wc.basis ≠ "Warsaw mass") → (smeftsimStd E lha warning lines answer w l).2.1 = warning) ∧
    ((¬ ∃ wc, ValidInput E w a.file wc ∧ wc.basis ≠ "Warsaw mass") → (smeftsimStd E lha warning lines answer w l).2.1 = "") := by
  have hfile : l.file.getD "{}" = a.file := h.1.symm
  unfold smeftsimStd smeftsimMain ValidInput
  simp only [hfile, if_neg hf, simTry_parsed E lha h]
  cases h1 : w.file a.file with
  | none => simp
  | some text =>
    dsimp only
    cases h2 : loadWC E.cd E.fl text with
    | error e => simp [h2]
    | ok wc =>
      dsimp only
      cases h3 : validateWC E.st wc with
      | error e => simp [h2, h3]
      | ok u =>
        dsimp only
        by_cases hb : wc.basis = "Warsaw mass"
        · simp [h2, hb]
        · rw [if_neg hb, if_neg hb]
          have hex : ∃ wc', (∃ t, some text = some t ∧ loadWC E.cd E.fl t = .ok wc' ∧ validateWC E.st wc' = .ok ()) ∧
              wc'.basis ≠ "Warsaw mass" := ⟨wc, ⟨text, rfl, h2, h3⟩, hb⟩
          cases answer with
          | none => exact ⟨rfl, rfl, fun _ => rfl, fun hn => absurd hex hn⟩
          | some key =>
            dsimp only
            split <;> exact ⟨rfl, rfl, fun _ => rfl, fun hn => absurd hex hn⟩

/-- For valid, accepted input the command is the last step. -/
theorem sim_accepted (E : Env) (lha : Card → String) (warning lines : String) (answer : Option String) (w : World) (l : SimLine)
    (hf : l.file.getD "{}" ≠ "-") (wc : WC) (hv : ValidInput E w (l.file.getD "{}") wc) (ha : Accepted wc answer) :
    (smeftsimStd E lha warning lines answer w l).1 = (simTry E lha l wc).1 ∧
    (smeftsimStd E lha warning lines answer w l).2.2 = (simTry E lha l wc).2 := by
  obtain ⟨text, h1, h2, h3⟩ := hv
  unfold smeftsimStd
  simp only [if_neg hf, h1, h2, h3]
  by_cases hb : wc.basis = "Warsaw mass"
  · simp [hb]
  · rcases ha with h | rfl | rfl
    · exact absurd h hb
    · simp [hb]
    · simp [hb]

theorem forM_error {α : Type} (f : α → Except PyErr Unit) : ∀ (l : List α), (∃ a ∈ l, ∃ e, f a = .error e) → ∃ e, l.forM f = .error e
  | [], h => by simp at h
  | a :: l, h => by
    rw [List.forM.eq_def]
    dsimp only
    cases ha : f a with
    | error e => exact ⟨e, rfl⟩
    | ok u =>
      obtain ⟨b, hb, e, he⟩ := h
      rcases List.mem_cons.1 hb with rfl | hb
      · rw [ha] at he; cases he
      · exact forM_error f l ⟨b, hb, e, he⟩

/-- Both sets have a row with the cutoff scale. -/
theorem scale_row (m : ModelSet) : ∃ r ∈ (setBlocks m).flatMap Prod.snd, r.kind ≠ .ph := by
  cases m
  · refine ⟨.mk [1, 1] .abs "uphi_11" "# cuHAbs1x1", List.mem_flatMap.2 ⟨("FRBlock20", rowsA_FRBlock20), ?_, ?_⟩, by simp⟩
    · simp [setBlocks, blocksA]
    · simp [rowsA_FRBlock20]
  · refine ⟨.mk [0] .lam "" "# Lambda", List.mem_flatMap.2 ⟨("NEWCOUP", rowsB_NEWCOUP), ?_, ?_⟩, by simp⟩
    · simp [setBlocks, blocksB]
    · simp [rowsB_NEWCOUP]

theorem noScale_error (d : Dict String CNum) (m : ModelSet) : ∃ e, fillNoScale d m = .error e := by
  obtain ⟨r, hr, hk⟩ := scale_row m
  refine forM_error _ _ ⟨r, hr, ?_⟩
  unfold CRow.noScale
  cases hg : Dict.get d r.key <;> cases hk' : r.kind <;> first | exact absurd hk' hk | exact ⟨_, rfl⟩

/-- **C102: an option without a value.** For a valid input that is accepted the command ends with an exception, whichever options lack
their values. If `--output` is among them, no file is changed; otherwise the output file is left empty, whatever it contained. -/
theorem C102_no_value (E : Env) (lha : Card → String) (warning lines : String) (answer : Option String) (w : World) (l : SimLine)
    (hl : LacksValue l) (hf : l.file.getD "{}" ≠ "-") (wc : WC) (hv : ValidInput E w (l.file.getD "{}") wc) (ha : Accepted wc answer) :
    (smeftsimStd E lha warning lines answer w l).2.2.code = 1 ∧
    (l.output = .noValue → (smeftsimStd E lha warning lines answer w l).1 = []) ∧
    (∀ o, l.output = .given o → (w.after (smeftsimStd E lha warning lines answer w l).1).file o = some "") ∧
    (l.output = .omitted →
      (w.after (smeftsimStd E lha warning lines answer w l).1).file "wcxf2smeftsim_param_card.dat" = some "") := by
  obtain ⟨h1, h2⟩ := sim_accepted E lha warning lines answer w l hf wc hv ha
  rw [h1, h2]
  have key : (l.output = .noValue ∧ simTry E lha l wc = ([], .exception .typeError)) ∨
      ∃ o e, l.output.value "wcxf2smeftsim_param_card.dat" = some o ∧ simTry E lha l wc = ([.truncate o], .exception e) := by
    unfold simTry
    cases ho : l.output.value "wcxf2smeftsim_param_card.dat" with
    | none =>
      left
      refine ⟨?_, rfl⟩
      cases hlo : l.output with
      | noValue => rfl
      | omitted => rw [hlo] at ho; cases ho
      | given o => rw [hlo] at ho; cases ho
    | some o =>
      right
      dsimp only
      cases hs : l.set.value .A with
      | none => exact ⟨o, _, rfl, rfl⟩
      | some m =>
        cases hlam : l.lam.value 1000 with
        | none =>
          dsimp only
          cases hd : wc.numDict E.fl with
          | error e => exact ⟨o, e, rfl, rfl⟩
          | ok d =>
            obtain ⟨e, he⟩ := noScale_error d m
            refine ⟨o, e, rfl, ?_⟩
            rw [ok_bind, he]
        | some lam =>
          cases hsc : l.scheme.value .alpha with
          | none =>
            dsimp only
            split
            · exact ⟨o, _, rfl, rfl⟩
            · exact ⟨o, _, rfl, rfl⟩
          | some s =>
            exfalso
            rcases hl with h | h | h | h
            · rw [h] at ho; cases ho
            · rw [h] at hsc; cases hsc
            · rw [h] at hlam; cases hlam
            · rw [h] at hs; cases hs
  rcases key with ⟨ho, hr⟩ | ⟨o, e, ho, hr⟩
  · rw [hr, ho]
    exact ⟨rfl, fun _ => rfl, by simp, by simp⟩
  · rw [hr]
    refine ⟨rfl, fun h => ?_, fun o' h => ?_, fun h => ?_⟩
    · rw [h] at ho; cases ho
    · rw [h] at ho; cases ho; exact after_truncate w _
    · rw [h] at ho; cases ho; exact after_truncate w _

/-- **C102 is false.** With a valid file, `wcxf2smeftsim in --output out --input-scheme` ends with an exception and the contents of `out`
are lost, although `--input-scheme` has a default. -/
theorem C102_refuted (lha : Card → String) (warning : String) :
    let E := simEnv []
    let w : World := ⟨fun p => if p = "in" then some "x" else if p = "out" then some "old" else none, fun _ => false⟩
    let r := smeftsimStd E lha warning "" none w { file := some "in", output := .given "out", scheme := .noValue }
    (∃ wc, ValidInput E w "in" wc ∧ wc.basis = "Warsaw mass") ∧
    r.2.2.code = 1 ∧ w.file "out" = some "old" ∧ (w.after r.1).file "out" = some "" := by
  intro E w r
  obtain ⟨wc, hv, hb⟩ : ∃ wc, ValidInput E w "in" wc ∧ wc.basis = "Warsaw mass" := ⟨_, ⟨"x", rfl, rfl, rfl⟩, rfl⟩
  obtain ⟨h1, -, h2, -⟩ := C102_no_value E lha warning "" none w { file := some "in", output := .given "out", scheme := .noValue }
    (.inr (.inl rfl)) (by decide) wc hv (.inl hb)
  exact ⟨⟨wc, hv, hb⟩, h1, rfl, h2 "out" rfl⟩

/-- **C102 (standard input).** With the input `-`, a file in the basis `Warsaw mass` on the standard input is treated like a file of these
contents. For any other valid input the warning cannot be answered: the command ends with `EOFError` and changes no file. -/
theorem C102_stdin (E : Env) (lha : Card → String) (warning lines other : String) (answer answer' : Option String) (w : World)
    (l : SimLine) (hl : l.file = some "-") (f : String) (hf : f ≠ "-") (hw : w.file f = some lines) (wc : WC)
    (hv : ValidInput E w f wc) :
    (wc.basis = "Warsaw mass" →
      smeftsimStd E lha warning lines answer w l = smeftsimStd E lha warning other answer' w { l with file := some f }) ∧
    (wc.basis ≠ "Warsaw mass" → smeftsimStd E lha warning lines answer w l = ([], warning, .exception .eofError)) := by
  obtain ⟨text, h1, h2, h3⟩ := hv
  rw [hw] at h1
  cases h1
  have ht : simTry E lha { l with file := some f } wc = simTry E lha l wc := rfl
  constructor
  · intro hb
    unfold smeftsimStd
    simp only [hl, Option.getD_some, if_true, if_neg hf, hw, h2, h3, hb, ht]
  · intro hb
    unfold smeftsimStd
    simp only [hl, Option.getD_some, if_true, h2, h3, if_neg hb]

/-- Non-trivial instance of C102: with the other options omitted, the defaults are used and the end is the one of C23. -/
example (lha : Card → String) (warning : String) :
    let w : World := ⟨fun p => if p = "in" then some "x" else if p = "out" then some "old" else none, fun _ => false⟩
    let r := smeftsimStd (simEnv []) lha warning "" none w { file := some "in", output := .given "out" }
    r.2.2 = .exception .keyError ∧ r.2.1 = "" := by
  intro w r
  obtain ⟨⟨wc, hv, hb⟩, h1, -⟩ := C23_refuted lha none
  obtain ⟨-, h2, -, h3⟩ := C102_partial (simEnv []) lha warning "" none w { file := some "in", output := .given "out" }
    { file := "in", output := "out" } ⟨rfl, .inl rfl, .inr ⟨rfl, rfl⟩, .inr ⟨rfl, rfl⟩, .inr ⟨rfl, rfl⟩⟩ (by decide)
  refine ⟨h2.trans h1, h3 ?_⟩
  rintro ⟨wc', ⟨t, ht, hl, -⟩, hb'⟩
  obtain ⟨t', ht', hl', -⟩ := hv
  rw [show w.file "in" = some t from ht] at ht'
  cases ht'
  rw [hl] at hl'
  cases hl'
  exact hb' hb

/-- Non-trivial instance of C102: a file in the basis `Warsaw` on the standard input; the answer is not read. -/
example (lha : Card → String) (warning : String) : ∃ E : Env,
    smeftsimStd E lha warning "x" (some "i") ⟨fun p => if p = "in" then some "x" else none, fun _ => false⟩ { file := some "-" } =
      ([], warning, .exception .eofError) := by
  let E : Env := ⟨⟨fun _ => "", fun _ => "", fun _ => some (.obj [("eft", .str "SMEFT"), ("basis", .str "Warsaw"), ("scale", .num 1000),
      ("values", .obj [])]), fun _ => none⟩,
    fun _ => none, fun _ => .ok true, run [.newEFT "SMEFT" [] [], .newBasis "SMEFT" "Warsaw" [] []]⟩
  let w : World := ⟨fun p => if p = "in" then some "x" else none, fun _ => false⟩
  obtain ⟨wc, hv, hb⟩ : ∃ wc, ValidInput E w "in" wc ∧ wc.basis = "Warsaw" := ⟨_, ⟨"x", rfl, rfl, rfl⟩, rfl⟩
  exact ⟨E, (C102_stdin E lha warning "x" "" (some "i") none w { file := some "-" } rfl "in" (by decide) rfl wc hv).2
    (by rw [hb]; decide)⟩

end Verif
