import Verif.Lemmas.CliLemmas
import Verif.Model.History

/-!
C22, C24, C58: the command line tools and the file system.
-/

set_option autoImplicit false

namespace Verif

/-- **C22 is false.** With an unreadable input file (the text parses neither as JSON nor as YAML) the export
ends with an exception, and the previous contents of the output file are lost: the file is opened while
the arguments are parsed. The same happens with `--eoshome`. -/
theorem C22_refuted :
    let E : Env := ⟨⟨fun _ => "", fun _ => "", fun _ => none, fun _ => none⟩, fun _ => none, fun _ => .ok true, .empty⟩
    let w : World := ⟨fun p => if p = "in" then some "x" else if p = "out" ∨ p = "h/parameters/wcxf.yaml" then some "old"
      else none, fun p => p = "h/parameters"⟩
    let r := eosMain E (.ok []) w ⟨"in", some "out", none⟩ false
    let r' := eosMain E (.ok []) w ⟨"in", none, some "h"⟩ false
    r.2 = .exception .yamlError ∧ w.file "out" = some "old" ∧ (w.after r.1).file "out" = some "" ∧
    r'.2 = .exception .yamlError ∧ w.file "h/parameters/wcxf.yaml" = some "old" ∧
    (w.after r'.1).file "h/parameters/wcxf.yaml" = some "" := by
  refine ⟨rfl, by simp, ?_, ?_, by simp, ?_⟩
  · rfl
  · rfl
  · rfl

/-- The file that the export is to replace. -/
def EosArgs.target (a : EosArgs) : Option String :=
  match a.output, a.eoshome with
  | some o, _ => some o
  | none, some h => some (eosFile h)
  | none, none => none

theorem eosMain_shape (E : Env) (sm : Except PyErr (Dict String JVal)) (w : World) (a : EosArgs) (outFirst : Bool) :
    let r := eosMain E sm w a outFirst
    (r.2.code ≠ 0 ∧ r.1 = []) ∨ (∃ p, a.target = some p ∧ r.2.code ≠ 0 ∧ r.1 = [.truncate p] ∧
        (a.output = none → ∀ h, a.eoshome = some h → w.isDir (eosDir h) = true)) ∨
    (∃ t x, r.2.code = 0 ∧ eosText E sm x = .ok t ∧ (a.target ≠ some a.file → x = (w.file a.file).getD "") ∧
      match a.target with
      | none => r.1 = []
      | some p => r.1 = .truncate p :: writeText p t) := by
  obtain ⟨file, output, home⟩ := a
  unfold eosMain
  dsimp only
  generalize (if outFirst = true then (w.after (Option.map Action.truncate output).toList).file file
    else w.file file).isSome = b
  cases output with
  | some o =>
    simp only [EosArgs.target, Option.map_some, Option.toList_some]
    split
    · cases home with
      | some h =>
        right; left
        simp [eosBody, Ending.code]
      | none =>
        simp only [eosBody]
        cases ht : eosText E sm (((w.after [.truncate o]).file file).getD "") with
        | error e =>
          right; left
          simp [Ending.code]
        | ok t =>
          right; right
          refine ⟨t, _, rfl, ht, ?_, rfl⟩
          intro hne
          rw [after_other]
          intro a ha
          simp only [List.mem_singleton] at ha
          subst ha
          intro h
          exact hne (by rw [← h]; rfl)
    · cases outFirst with
      | true => right; left; simp [Ending.code]
      | false => left; simp [Ending.code]
  | none =>
    simp only [EosArgs.target, Option.map_none, Option.toList_none, World.after, List.foldl_nil]
    split
    · cases home with
      | none =>
        simp only [eosBody]
        cases ht : eosText E sm ((w.file file).getD "") with
        | error e => left; simp [Ending.code]
        | ok t => right; right; exact ⟨t, _, rfl, ht, fun _ => rfl, rfl⟩
      | some h =>
        simp only [eosBody]
        by_cases hd : w.isDir (eosDir h) = true
        · rw [if_pos hd]
          cases ht : eosText E sm (((w.after [.truncate (eosFile h)]).file file).getD "") with
          | error e => right; left; exact ⟨_, rfl, by simp [Ending.code], rfl, fun _ h' hh => by cases hh; exact hd⟩
          | ok t =>
            right; right
            refine ⟨t, _, rfl, ht, ?_, rfl⟩
            intro hne
            rw [after_other]
            intro a ha
            simp only [List.mem_singleton] at ha
            subst ha
            intro h
            exact hne (by rw [← h]; rfl)
        · rw [if_neg hd]; left; simp [Ending.code]
    · left; simp [Ending.code]

/-- **C22, the part that holds.** At every crash point `k`:
1. every file other than the target is unchanged;
2. if the command is going to fail, the target is unchanged or empty (never a part of a new file);
3. if the command is going to fail because of its arguments alone (no `--output`, and no directory below
   `--eoshome`), the target is unchanged too;
4. the target always holds its old contents or a beginning of the complete new file, and a command that
   ends with status 0 has written the complete new file.
Missing: an existing target is emptied before the input has been looked at. -/
theorem C22_partial (E : Env) (sm : Except PyErr (Dict String JVal)) (w : World) (a : EosArgs) (outFirst : Bool) (k : ℕ) :
    let r := eosMain E sm w a outFirst
    let w' := w.after (r.1.take k)
    (∀ p, a.target ≠ some p → w'.file p = w.file p) ∧
    (r.2.code ≠ 0 → ∀ p, w'.file p = w.file p ∨ w'.file p = some "") ∧
    (r.2.code ≠ 0 → a.output = none → (∀ h, a.eoshome = some h → w.isDir (eosDir h) = false) → w'.file = w.file) ∧
    (r.2.code = 0 → ∃ t x, eosText E sm x = .ok t ∧ (a.target ≠ some a.file → x = (w.file a.file).getD "") ∧
      ∀ p, a.target = some p → (w.after r.1).file p = some t ∧
        (w'.file p = w.file p ∨ ∃ n, w'.file p = some (String.ofList (t.toList.take n)))) := by
  intro r w'
  rcases eosMain_shape E sm w a outFirst with ⟨hc, hr⟩ | ⟨p, hp, hc, hr, hd⟩ | ⟨t, x, hc, hx, hxe, ht⟩
  · have hw : w' = w := by simp [w', r, hr, World.after]
    rw [hw]
    exact ⟨fun _ _ => rfl, fun _ _ => .inl rfl, fun _ _ _ => rfl, fun h => absurd h hc⟩
  · have hw : ∀ q, w'.file q = w.file q ∨ q = p ∧ w'.file q = some "" := by
      intro q
      simp only [w', r, hr]
      cases k with
      | zero => left; rfl
      | succ k =>
        simp only [List.take_succ_cons, List.take_nil]
        by_cases hq : q = p
        · subst hq; exact .inr ⟨rfl, after_truncate w q⟩
        · left
          apply after_other
          intro a ha
          simp only [List.mem_singleton] at ha
          subst ha
          exact fun h => hq h.symm
    refine ⟨?_, ?_, ?_, fun h => absurd h hc⟩
    · intro q hq
      rcases hw q with h | ⟨rfl, _⟩
      · exact h
      · exact absurd hp hq
    · intro _ q
      rcases hw q with h | ⟨_, h⟩
      · exact .inl h
      · exact .inr h
    · intro _ ho hh
      exfalso
      cases hhome : a.eoshome with
      | none => simp [EosArgs.target, ho, hhome] at hp
      | some h =>
        have h1 := hd ho h hhome
        rw [hh h hhome] at h1
        simp at h1
  · have hc' : r.2.code = 0 := hc
    refine ⟨?_, fun h => absurd hc' h, fun h => absurd hc' h, fun _ => ⟨t, x, hx, hxe, ?_⟩⟩
    · intro q hq
      cases htar : a.target with
      | none =>
        rw [htar] at ht
        have hr : r.1 = [] := ht
        simp [w', hr, World.after]
      | some p =>
        rw [htar] at ht
        have hr : r.1 = .truncate p :: writeText p t := ht
        apply after_other
        intro a ha
        have ha := List.mem_of_mem_take ha
        rw [hr] at ha
        have : a.path = p := by
          rcases List.mem_cons.1 ha with rfl | ha
          · rfl
          · exact writeText_path ha
        rw [this]
        rintro rfl
        exact hq htar
    · intro p htar
      rw [htar] at ht
      have hr : r.1 = [.truncate p] ++ writeText p t := ht
      constructor
      · rw [hr, after_append]
        exact after_writeText _ _ (after_truncate w p) t
      · simp only [w', hr]
        cases k with
        | zero => left; rfl
        | succ k =>
          right
          refine ⟨k, ?_⟩
          simp only [List.cons_append, List.nil_append, List.take_succ_cons]
          change ((w.after [.truncate p]).after ((writeText p t).take k)).file p = _
          exact after_writeText_take _ _ (after_truncate w p) t k

/-- **C22**, the other side: a run that ends with status 0 has read a valid Wilson coefficient file, whose EOS form it has
written completely. -/
theorem C22_partial_success (E : Env) (sm : Except PyErr (Dict String JVal)) (w : World) (a : EosArgs) (outFirst : Bool)
    (h : (eosMain E sm w a outFirst).2.code = 0) :
    ∃ x wc d s out, (a.target ≠ some a.file → x = (w.file a.file).getD "") ∧ loadWC E.cd E.fl x = .ok wc ∧
      validateWC E.st wc = .ok () ∧ wc.dict E.fl = .ok d ∧ sm = .ok s ∧ wcxf2eos d s = .ok out ∧
      ∀ p, a.target = some p → (w.after (eosMain E sm w a outFirst).1).file p = some (E.cd.printYaml (eosDoc out)) := by
  obtain ⟨t, x, hx, hxe, ht⟩ := (C22_partial E sm w a outFirst 0).2.2.2 h
  unfold eosText at hx
  cases h1 : loadWC E.cd E.fl x with
  | error e => rw [h1] at hx; cases hx
  | ok wc =>
    rw [h1] at hx
    change (validateWC E.st wc >>= _) = _ at hx
    cases h2 : validateWC E.st wc with
    | error e => rw [h2] at hx; cases hx
    | ok u =>
      rw [h2] at hx
      change (sm >>= _) = _ at hx
      cases h3 : sm with
      | error e => rw [h3] at hx; cases hx
      | ok s =>
        rw [h3] at hx
        change (wc.dict E.fl >>= _) = _ at hx
        cases h4 : wc.dict E.fl with
        | error e => rw [h4] at hx; cases hx
        | ok d =>
          rw [h4] at hx
          change (wcxf2eos d s >>= _) = _ at hx
          cases h5 : wcxf2eos d s with
          | error e => rw [h5] at hx; cases hx
          | ok out =>
            rw [h5] at hx
            cases hx
            exact ⟨x, wc, d, s, out, hxe, h1, h2, h4, rfl, h5, fun p hp => by subst h3; exact (ht p hp).1⟩

/-- Non-trivial instance: a valid file is exported. -/
example : ∃ (E : Env) (w : World), (eosMain E (.ok []) w ⟨"in", some "out", none⟩ false).2.code = 0 ∧
    (w.after (eosMain E (.ok []) w ⟨"in", some "out", none⟩ false).1).file "out" = some "yaml" := by
  let doc : JVal := .obj [("eft", .str "WET"), ("basis", .str "EOS"), ("scale", .num 5), ("values", .obj [])]
  let E : Env := ⟨⟨fun _ => "", fun _ => "yaml", fun _ => none, fun _ => some doc⟩,
      fun _ => none, fun _ => .ok true, run [.newEFT "WET" [] [], .newBasis "WET" "EOS" [] []]⟩
  let w : World := ⟨fun p => if p = "in" then some "wc" else none, fun _ => false⟩
  have h : (eosMain E (.ok []) w ⟨"in", some "out", none⟩ false).2.code = 0 := by rfl
  refine ⟨E, w, h, ?_⟩
  obtain ⟨x, wc, d, s, out, -, -, -, -, -, -, h'⟩ := C22_partial_success E (.ok []) w ⟨"in", some "out", none⟩ false h
  exact h' "out" rfl

/-! ### Exit status of `wcxf` -/

namespace Spec

/-- The operation requested by a command was carried out: the text of the input file was read, and
* `convert`: it is a document of the other format, and the output is that document in the format asked for;
* `translate`, `match`: it is a coefficient file, and the output is the translated or matched file in the
  format asked for;
* `validate`: it is a file of the type asked for, and it is valid (nothing is written to a file). -/
def CarriedOut (E : Env) (text output : String) : Cmd → Prop
  | .bare => False
  | .convert fmt _ _ => (lower fmt = "json" ∧ ∃ j, E.cd.parseYaml text = some j ∧ output = E.cd.printJson j) ∨
      (lower fmt = "yaml" ∧ ∃ j, E.cd.parseJson text = some j ∧ output = E.cd.printYaml j)
  | .translate basis _ _ fmt => ∃ wc wc', loadWC E.cd E.fl text = .ok wc ∧
      wc.translate E.fl E.st basis none = .ok wc' ∧ dump E.cd wc'.attrs fmt "" = (output, .ok ())
  | .matchTo eft basis _ _ fmt => ∃ wc wc', loadWC E.cd E.fl text = .ok wc ∧
      wc.matchTo E.fl E.st eft basis none = .ok wc' ∧ dump E.cd wc'.attrs fmt "" = (output, .ok ())
  | .validate typ _ => output = "" ∧
      ((typ = "eft" ∧ ∃ i, (loadEFT E.cd E.st text).2 = .ok i) ∨
      (typ = "basis" ∧ ∃ i, (loadBasis E.cd E.st text).2 = .ok i ∧
        validateBasis E.tex (loadBasis E.cd E.st text).1 i = .ok ()) ∨
      (typ = "wc" ∧ ∃ wc, loadWC E.cd E.fl text = .ok wc ∧ validateWC E.st wc = .ok ()))

end Spec

open Spec

/-- **C24 is false.** Four calls that end with status 0 without having done anything: an unknown TYPE, an
unknown FORMAT, a conversion of unparsable text, and a coefficient file whose values are a list (the
`AttributeError` is taken for a missing subcommand). -/
theorem C24_refuted :
    let doc : JVal := .obj [("eft", .str "WET"), ("basis", .str "JMS"), ("scale", .num 5), ("values", .list [])]
    let E : Env := ⟨⟨fun _ => "", fun _ => "", fun _ => none, fun t => if t = "wc" then some doc else none⟩,
      fun _ => none, fun _ => .ok true,
      run [.newEFT "WET" [("a", .null)] [], .newBasis "WET" "JMS" [("a", .obj [])] []]⟩
    let w : World := ⟨fun p => if p = "in" then some "x" else if p = "wc.yaml" then some "wc" else none, fun _ => false⟩
    (wcxfMain E w (.validate "wcx" "in") false).2.code = 0 ∧
    (wcxfMain E w (.convert "toml" "in" (some "out")) false).2.code = 0 ∧
    (wcxfMain E w (.convert "json" "in" (some "out")) false).2.code = 0 ∧
    (wcxfMain E w (.validate "wc" "wc.yaml") false).2.code = 0 ∧
    (¬ ∃ o, CarriedOut E "x" o (.validate "wcx" "in")) ∧ (¬ ∃ o, CarriedOut E "x" o (.convert "toml" "in" (some "out"))) ∧
    (¬ ∃ o, CarriedOut E "x" o (.convert "json" "in" (some "out"))) ∧
    (¬ ∃ o, CarriedOut E "wc" o (.validate "wc" "wc.yaml")) := by
  refine ⟨rfl, ?_, ?_, rfl, ?_, ?_, ?_, ?_⟩
  · rfl
  · rfl
  · rintro ⟨o, h⟩
    simp [CarriedOut] at h
  · rintro ⟨o, ⟨h, _⟩ | ⟨h, _⟩⟩
    · revert h; decide +kernel
    · revert h; decide +kernel
  · rintro ⟨o, ⟨_, j, h, _⟩ | ⟨h, _⟩⟩
    · simp at h
    · revert h; decide +kernel
  · rintro ⟨o, _, ⟨h, _⟩ | ⟨h, _⟩ | ⟨_, wc, h, h'⟩⟩
    · simp at h
    · simp at h
    · have : wc = ⟨"WET", "JMS", 5, .list [], .none, []⟩ := by
        have e : loadWC ⟨fun _ => "", fun _ => "", fun _ => none, fun t => if t = "wc" then some (.obj [("eft", .str "WET"),
          ("basis", .str "JMS"), ("scale", .num 5), ("values", .list [])]) else none⟩ (fun _ => none) "wc" =
            .ok ⟨"WET", "JMS", 5, .list [], .none, []⟩ := rfl
        rw [e] at h
        simpa using h.symm
      subst this
      change (Except.error PyErr.attributeError : Except PyErr Unit) = _ at h'
      simp at h'

/-- The input text a command reads: the input file, after the output file has been emptied. -/
def inputText (w : World) (c : Cmd) : String :=
  match c.file with
  | none => ""
  | some f => if c.output = some f then "" else (w.file f).getD ""

/-- The cases in which a command ends with status 0 without having done anything. -/
def Silent (E : Env) (text : String) (c : Cmd) : Prop :=
  (∃ typ f, c = .validate typ f ∧ typ ∉ ["eft", "basis", "wc"]) ∨
  (∃ fmt f o, c = .convert fmt f o ∧ ((lower fmt ≠ "json" ∧ lower fmt ≠ "yaml") ∨
    (lower fmt = "json" ∧ E.cd.parseYaml text = none) ∨ (lower fmt = "yaml" ∧ E.cd.parseJson text = none))) ∨
  (c.body E text).2 = .error .attributeError

theorem ending_code (x : Except PyErr Unit) : (ending x).code = 0 ↔ x = .ok () ∨ x = .error .attributeError := by
  cases x with
  | ok u => simp [ending, Ending.code]
  | error e => cases e <;> simp [ending, Ending.code]

theorem body_spec (E : Env) (text : String) (c : Cmd) :
    (c.body E text).2 = .ok () ↔ (∃ out, (c.body E text).1 = out ∧ CarriedOut E text out c) ∨
      ((c.body E text).2 = .ok () ∧ Silent E text c) := by
  cases c with
  | bare => simp [Cmd.body, CarriedOut]
  | convert fmt f o =>
    simp only [Cmd.body, true_and, true_iff]
    by_cases h1 : lower fmt = "json"
    · have h2 : ¬ lower fmt = "yaml" := by rw [h1]; decide
      cases hp : E.cd.parseYaml text with
      | none => right; exact .inr (.inl ⟨_, _, _, rfl, .inr (.inl ⟨h1, hp⟩)⟩)
      | some j =>
        left
        refine ⟨_, rfl, .inl ⟨h1, j, hp, ?_⟩⟩
        simp [h1, convertJson, hp]
    · by_cases h2 : lower fmt = "yaml"
      · cases hp : E.cd.parseJson text with
        | none => right; exact .inr (.inl ⟨_, _, _, rfl, .inr (.inr ⟨h2, hp⟩)⟩)
        | some j =>
          left
          refine ⟨_, rfl, .inr ⟨h2, j, hp, ?_⟩⟩
          simp [h2, convertYaml, hp]
      · right; exact .inr (.inl ⟨_, _, _, rfl, .inl ⟨h1, h2⟩⟩)
  | translate basis f o fmt =>
    simp only [Cmd.body, CarriedOut]
    constructor
    · intro h
      left
      refine ⟨_, rfl, ?_⟩
      cases h1 : loadWC E.cd E.fl text with
      | error e => rw [h1] at h; simp at h
      | ok w =>
        rw [h1] at h
        dsimp only at h ⊢
        cases h2 : w.translate E.fl E.st basis none with
        | error e => rw [h2] at h; simp at h
        | ok w' =>
          rw [h2] at h
          dsimp only at h ⊢
          exact ⟨w, w', rfl, h2, Prod.ext rfl h⟩
    · rintro (⟨out, _, w, w', h1, h2, h3⟩ | h)
      · rw [h1]; dsimp only; rw [h2]; dsimp only; rw [h3]
      · exact h.1
  | matchTo eft basis f o fmt =>
    simp only [Cmd.body, CarriedOut]
    constructor
    · intro h
      left
      refine ⟨_, rfl, ?_⟩
      cases h1 : loadWC E.cd E.fl text with
      | error e => rw [h1] at h; simp at h
      | ok w =>
        rw [h1] at h
        dsimp only at h ⊢
        cases h2 : w.matchTo E.fl E.st eft basis none with
        | error e => rw [h2] at h; simp at h
        | ok w' =>
          rw [h2] at h
          dsimp only at h ⊢
          exact ⟨w, w', rfl, h2, Prod.ext rfl h⟩
    · rintro (⟨out, _, w, w', h1, h2, h3⟩ | h)
      · rw [h1]; dsimp only; rw [h2]; dsimp only; rw [h3]
      · exact h.1
  | validate typ f =>
    simp only [Cmd.body, CarriedOut, validateCmd]
    by_cases h1 : typ = "eft"
    · subst h1
      simp only [if_true]
      cases h2 : (loadEFT E.cd E.st text).2 with
      | error e => simp [bind, Except.bind, Except.map]
      | ok i => simp [bind, Except.bind, Except.map, pure, Except.pure]
    by_cases h2 : typ = "basis"
    · subst h2
      rw [if_neg (by decide), if_pos rfl]
      generalize hb : loadBasis E.cd E.st text = b
      obtain ⟨st', e | i⟩ := b
      · simp [Except.map]
      · dsimp only
        cases h3 : validateBasis E.tex st' i with
        | error e => simp [bind, Except.bind, Except.map, h3]
        | ok u => simp [bind, Except.bind, Except.map, pure, Except.pure, h3]
    by_cases h3 : typ = "wc"
    · subst h3
      rw [if_neg (by decide), if_neg (by decide), if_pos rfl]
      cases h4 : loadWC E.cd E.fl text with
      | error e => simp [bind, Except.bind, Except.map]
      | ok w =>
        cases h5 : validateWC E.st w with
        | error e => simp [bind, Except.bind, Except.map, h5]
        | ok u => simp [bind, Except.bind, Except.map, pure, Except.pure, h5]
    · rw [if_neg h1, if_neg h2, if_neg h3]
      simp only [Except.map, true_iff, true_and]
      right
      exact .inl ⟨typ, f, rfl, by simp [h1, h2, h3]⟩

theorem carriedOut_body {E : Env} {text out : String} {c : Cmd} (h : CarriedOut E text out c) :
    c.body E text = (out, .ok ()) := by
  cases c with
  | bare => exact absurd h (by simp [CarriedOut])
  | convert fmt f o =>
    rcases h with ⟨h, j, hp, rfl⟩ | ⟨h, j, hp, rfl⟩
    · simp [Cmd.body, h, convertJson, hp]
    · simp [Cmd.body, h, convertYaml, hp]
  | translate basis f o fmt =>
    obtain ⟨w, w', h1, h2, h3⟩ := h
    simp [Cmd.body, h1, h2, h3]
  | matchTo eft basis f o fmt =>
    obtain ⟨w, w', h1, h2, h3⟩ := h
    simp [Cmd.body, h1, h2, h3]
  | validate typ f =>
    obtain ⟨rfl, ⟨rfl, i, h1⟩ | ⟨rfl, i, h1, h2⟩ | ⟨rfl, wc, h1, h2⟩⟩ := h
    · simp [Cmd.body, validateCmd, h1, bind, Except.bind, Except.map, pure, Except.pure]
    · generalize hb : loadBasis E.cd E.st text = b at h1 h2
      obtain ⟨st', x⟩ := b
      dsimp only at h1 h2
      subst h1
      simp [Cmd.body, validateCmd, hb, h2, bind, Except.bind, Except.map, pure, Except.pure]
    · simp [Cmd.body, validateCmd, h1, h2, bind, Except.bind, Except.map, pure, Except.pure]

/-- **C24, the part that holds.** For a command with a readable input file, status 0 means that the operation
was carried out and its complete result is in the output file (if one is given), or that one of the cases
of `Silent` applies: unknown TYPE or FORMAT, unparsable text given to `convert`, or an `AttributeError`.
Missing: those cases. -/
theorem C24_partial (E : Env) (w : World) (c : Cmd) (outFirst : Bool) (f : String) (hf : c.file = some f)
    (hr : (w.file f).isSome) :
    let r := wcxfMain E w c outFirst
    (r.2.code = 0 ↔ (∃ out, CarriedOut E (inputText w c) out c ∧
      ∀ o, c.output = some o → (w.after r.1).file o = some out) ∨ Silent E (inputText w c) c) := by
  intro r
  have htext : (((w.after (Option.map Action.truncate c.output).toList).file f).getD "") = inputText w c := by
    unfold inputText
    rw [hf]
    dsimp only
    cases hout : c.output with
    | none => simp [World.after]
    | some o =>
      simp only [Option.map_some, Option.toList_some, Option.some.injEq]
      by_cases ho : o = f
      · subst ho; rw [if_pos rfl, after_truncate]; rfl
      · rw [if_neg ho, after_other]
        intro a ha
        simp only [List.mem_singleton] at ha
        subst ha
        exact ho
  have hread : (if outFirst = true then (w.after (Option.map Action.truncate c.output).toList).file f
      else w.file f).isSome = true := by
    cases outFirst with
    | false => exact hr
    | true =>
      rw [if_pos rfl]
      cases hout : c.output with
      | none => exact hr
      | some o =>
        simp only [Option.map_some, Option.toList_some]
        by_cases ho : o = f
        · subst ho; rw [after_truncate]; rfl
        · rw [after_other]
          · exact hr
          · intro a ha
            simp only [List.mem_singleton] at ha
            subst ha
            exact ho
  have hmain : r = ((Option.map Action.truncate c.output).toList ++ (match c.output with
        | some o => writeText o (c.body E (inputText w c)).1
        | none => []), ending (c.body E (inputText w c)).2) := by
    simp only [r, wcxfMain, hf]
    rw [if_pos hread, htext]
    cases c.output <;> rfl
  have hfile : ∀ o, c.output = some o → (w.after r.1).file o = some (c.body E (inputText w c)).1 := by
    intro o ho
    rw [hmain, ho]
    simp only [Option.map_some, Option.toList_some]
    rw [after_append]
    exact after_writeText _ _ (after_truncate w o) _
  have hcode : r.2.code = 0 ↔ (c.body E (inputText w c)).2 = .ok () ∨
      (c.body E (inputText w c)).2 = .error .attributeError := by
    rw [hmain]; exact ending_code _
  rw [hcode]
  constructor
  · rintro (h | h)
    · rcases (body_spec E _ c).1 h with ⟨out, h1, h2⟩ | ⟨_, h⟩
      · left
        refine ⟨out, h2, ?_⟩
        intro o ho
        rw [hfile o ho, h1]
      · exact .inr h
    · exact .inr (.inr (.inr h))
  · rintro (⟨out, h, _⟩ | h)
    · left; rw [carriedOut_body h]
    · rcases h with ⟨typ, f', rfl, h⟩ | ⟨fmt, f', o, rfl, h⟩ | h
      · left
        simp only [List.mem_cons, List.not_mem_nil, or_false, not_or] at h
        simp [Cmd.body, validateCmd, h, Except.map]
      · left; rfl
      · exact .inr h

/-- A missing input file is an error, unless the output option creates it. -/
theorem C24_missing_input (E : Env) (w : World) (c : Cmd) (outFirst : Bool) (f : String) (hf : c.file = some f)
    (hr : w.file f = none) (ho : c.output ≠ some f) : (wcxfMain E w c outFirst).2 = .status 2 := by
  have hread : ¬ (if outFirst = true then (w.after (Option.map Action.truncate c.output).toList).file f
      else w.file f).isSome = true := by
    cases outFirst with
    | false => simp [hr]
    | true =>
      rw [if_pos rfl, after_other]
      · simp [hr]
      · intro a ha
        simp only [Option.mem_toList, Option.map_eq_some_iff] at ha
        obtain ⟨o, h1, rfl⟩ := ha
        rintro rfl
        exact ho h1
  simp only [wcxfMain, hf]
  rw [if_neg hread]

/-- A translation that is carried out: the hypotheses above can be met with status 0. -/
example : ∃ (E : Env) (w : World),
    (wcxfMain E w (.translate "B2" "in" (some "out") "JSON") true).2.code = 0 ∧
    ∃ out, CarriedOut E "wc" out (.translate "B2" "in" (some "out") "JSON") := by
  let doc : JVal := .obj [("eft", .str "WET"), ("basis", .str "B1"), ("scale", .num 5), ("values", .obj [])]
  let E : Env := ⟨⟨fun _ => "doc", fun _ => "", fun _ => none, fun _ => some doc⟩,
      fun _ => none, fun _ => .ok true, run [.newTranslator "WET" "B1" "B2" fun d _ _ => .ok d]⟩
  let w : World := ⟨fun p => if p = "in" then some "wc" else none, fun _ => false⟩
  refine ⟨E, w, ?_⟩
  have hc : CarriedOut E "wc" "doc" (.translate "B2" "in" (some "out") "JSON") :=
    ⟨⟨"WET", "B1", 5, .obj [], .none, []⟩, ⟨"WET", "B2", 5, .obj [], .none, []⟩, rfl, rfl, by rfl⟩
  have ht : inputText w (.translate "B2" "in" (some "out") "JSON") = "wc" := by
    simp [inputText, Cmd.file, Cmd.output, w]
  refine ⟨?_, _, hc⟩
  have := (C24_partial E w (.translate "B2" "in" (some "out") "JSON") true "in" rfl (by simp [w])).2
  apply this
  rw [ht]
  left
  refine ⟨"doc", hc, ?_⟩
  intro o ho
  simp only [Cmd.output, Option.some.injEq] at ho
  subst ho
  have h1 : wcxfMain E w (.translate "B2" "in" (some "out") "JSON") true =
      (.truncate "out" :: writeText "out" "doc", .status 0) := by
    have hb := carriedOut_body hc
    simp [wcxfMain, Cmd.file, Cmd.output, w, World.after, Action.apply, Function.update, hb, ending]
  rw [h1]
  exact after_writeText (w.after [.truncate "out"]) "out" (after_truncate w "out") "doc"

/-! ### Which files are touched -/

/-- **C58.** At every crash point of `wcxf` and of `wcxf2eos`, every file other than the output file is as it
was; in particular the input file, unless it is named as output. -/
theorem C58_only_output (E : Env) (w : World) (k : ℕ) :
    (∀ (c : Cmd) (outFirst : Bool) (p : String), c.output ≠ some p →
      (w.after ((wcxfMain E w c outFirst).1.take k)).file p = w.file p) ∧
    (∀ (sm : Except PyErr (Dict String JVal)) (a : EosArgs) (outFirst : Bool) (p : String),
      a.output ≠ some p → (∀ h, a.eoshome = some h → p ≠ h ++ "/parameters/wcxf.yaml") →
      (w.after ((eosMain E sm w a outFirst).1.take k)).file p = w.file p) := by
  constructor
  · intro c outFirst p hp
    apply after_other
    intro a ha
    have ha := List.mem_of_mem_take ha
    have hopen : ∀ a ∈ (Option.map Action.truncate c.output).toList, a.path ≠ p := by
      intro a ha
      simp only [Option.mem_toList, Option.map_eq_some_iff] at ha
      obtain ⟨o, h1, rfl⟩ := ha
      rintro rfl
      exact hp h1
    unfold wcxfMain at ha
    cases hf : c.file with
    | none => rw [hf] at ha; simp at ha
    | some f =>
      rw [hf] at ha
      dsimp only at ha
      generalize (if outFirst = true then (w.after (Option.map Action.truncate c.output).toList).file f
        else w.file f).isSome = b at ha
      cases b with
      | true =>
        rw [if_pos rfl] at ha
        rcases List.mem_append.1 ha with ha | ha
        · exact hopen a ha
        · cases ho : c.output with
          | none => rw [ho] at ha; simp at ha
          | some o =>
            rw [ho] at ha
            rw [writeText_path ha]
            rintro rfl
            exact hp ho
      | false =>
        rw [if_neg (by simp)] at ha
        cases outFirst with
        | true => exact hopen a ha
        | false => simp at ha
  · intro sm a outFirst p h1 h2
    refine (C22_partial E sm w a outFirst k).1 p ?_
    unfold EosArgs.target
    cases ho : a.output with
    | some o => rw [ho] at h1; simpa using h1
    | none =>
      cases hh : a.eoshome with
      | none => simp
      | some h => simpa [eosFile] using (h2 h hh).symm

/-- What a command with an output file leaves in it: the text computed from the input file as it is when
the output file has been emptied. -/
theorem output_file (E : Env) (w : World) (c : Cmd) (outFirst : Bool) (f o : String) (hf : c.file = some f)
    (hr : (w.file f).isSome) (ho : c.output = some o) :
    (w.after (wcxfMain E w c outFirst).1).file o =
      some (c.body E (if o = f then "" else (w.file f).getD "")).1 := by
  have hw : (w.after [.truncate o]).file f = if o = f then some "" else w.file f := by
    split
    · next h => subst h; exact after_truncate w o
    · next h => exact after_other w _ f (by simpa [Action.path] using h)
  have hread : (if outFirst = true then (w.after [.truncate o]).file f else w.file f).isSome = true := by
    cases outFirst with
    | false => simpa using hr
    | true => rw [if_pos rfl, hw]; split <;> simp [hr]
  unfold wcxfMain
  rw [hf, ho]
  dsimp only [Option.map_some, Option.toList_some]
  rw [if_pos hread, after_append, after_writeText _ _ (after_truncate w o), hw]
  by_cases h : o = f <;> simp [h]

/-- **C59 is false.** Converting a file in place loses it: the file is emptied when it is opened for output and
then read as an empty document, and the command ends with status 0. -/
theorem C59_refuted :
    ∃ (E : Env) (w : World),
      (wcxfMain E w (.convert "json" "f" (some "f")) false).2 = .status 0 ∧
      (w.after (wcxfMain E w (.convert "json" "f" (some "f")) false).1).file "f" ≠
      (w.after (wcxfMain E w (.convert "json" "f" (some "g")) false).1).file "g" := by
  let cd : Codec := ⟨fun j => match j with | .null => "null" | _ => "doc", fun _ => "", fun _ => none,
    fun t => if t = "" then some .null else some (.str t)⟩
  let E : Env := ⟨cd, fun _ => none, fun _ => .ok true, .empty⟩
  let w : World := ⟨fun p => if p = "f" then some "data" else none, fun _ => false⟩
  have hl : lower "json" = "json" := by decide +kernel
  refine ⟨E, w, ?_, ?_⟩
  · simp [wcxfMain, Cmd.file, Cmd.output, w, Cmd.body, ending]
  · rw [output_file E w _ false "f" "f" rfl (by simp [w]) rfl,
      output_file E w _ false "f" "g" rfl (by simp [w]) rfl, if_pos rfl, if_neg (by decide)]
    simp [Cmd.body, hl, convertJson, E, cd, w]

/-- **C59, the part that holds.** If the output file is not the input file, the result written is the same for
every output file and every previous contents of it, and it is computed from the input file as it was
before the command. -/
theorem C59_partial (E : Env) (w : World) (c : Cmd) (outFirst : Bool) (f o : String) (hf : c.file = some f)
    (hr : (w.file f).isSome) (ho : c.output = some o) (hne : o ≠ f) :
    (w.after (wcxfMain E w c outFirst).1).file o = some (c.body E ((w.file f).getD "")).1 ∧
    (w.after (wcxfMain E w c outFirst).1).file f = w.file f := by
  constructor
  · rw [output_file E w c outFirst f o hf hr ho, if_neg hne]
  · have := (C58_only_output E w (wcxfMain E w c outFirst).1.length).1 c outFirst f
      (by rw [ho]; simpa using hne)
    rwa [List.take_length] at this

/-- Non-trivial instance of C58 and C59: conversion to another file, which is overwritten; the input is kept. -/
example : ∃ (E : Env) (w : World), w.file "g" = some "old" ∧
    (w.after (wcxfMain E w (.convert "json" "f" (some "g")) true).1).file "g" = some "doc" ∧
    (w.after (wcxfMain E w (.convert "json" "f" (some "g")) true).1).file "f" = some "data" := by
  let cd : Codec := ⟨fun j => match j with | .null => "null" | _ => "doc", fun _ => "", fun _ => none,
    fun t => if t = "" then some .null else some (.str t)⟩
  let E : Env := ⟨cd, fun _ => none, fun _ => .ok true, .empty⟩
  let w : World := ⟨fun p => if p = "f" then some "data" else if p = "g" then some "old" else none, fun _ => false⟩
  have hl : lower "json" = "json" := by decide +kernel
  obtain ⟨h1, h2⟩ := C59_partial E w (.convert "json" "f" (some "g")) true "f" "g" rfl (by simp [w]) rfl (by decide)
  refine ⟨E, w, by simp [w], ?_, ?_⟩
  · rw [h1]; simp [Cmd.body, hl, convertJson, E, cd, w]
  · rw [h2]; simp [w]

end Verif
