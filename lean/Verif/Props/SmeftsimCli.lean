import Verif.Props.SmeftsimSign
import Verif.Props.SmeftsimText
import Verif.Lemmas.CliLemmas
import Verif.Model.SmeftsimCli
import Verif.Model.History

/-!
C23: `wcxf2smeftsim` and the file system.
-/

set_option autoImplicit false

namespace Verif

open Spec

/-- The input file is a valid Wilson coefficient file. -/
def ValidInput (E : Env) (w : World) (f : String) (wc : WC) : Prop :=
  ∃ text, w.file f = some text ∧ loadWC E.cd E.fl text = .ok wc ∧ validateWC E.st wc = .ok ()

/-- The card can be written: the values are numbers, and no independent coefficient that conserves baryon and lepton number is omitted. -/
def Complete (E : Env) (wc : WC) : Prop :=
  ∃ d, wc.numDict E.fl = .ok d ∧ ∀ key k op i, IsCoeff key k op i → key ∈ Dict.keys d

/-- The basis is right, or the warning is ignored. -/
def Accepted (wc : WC) (answer : Option String) : Prop :=
  wc.basis = "Warsaw mass" ∨ answer = some "i" ∨ answer = some "I"

theorem smeftsim_shape (E : Env) (lha : Card → String) (answer : Option String) (w : World) (a : SimArgs) :
    ((smeftsimMain E lha answer w a).1 = [] ∧ ∀ wc, ValidInput E w a.file wc → ¬ Accepted wc answer) ∨
    ∃ wc, ValidInput E w a.file wc ∧ Accepted wc answer ∧ smeftsimMain E lha answer w a = simWrite E lha a wc := by
  unfold smeftsimMain ValidInput
  cases h1 : w.file a.file with
  | none => left; exact ⟨rfl, by rintro wc ⟨t, ht, -⟩; cases ht⟩
  | some text =>
    dsimp only
    cases h2 : loadWC E.cd E.fl text with
    | error e =>
      left
      refine ⟨rfl, ?_⟩
      rintro wc ⟨t, ht, hl, -⟩
      cases ht; rw [h2] at hl; cases hl
    | ok wc =>
      dsimp only
      have huniq : ∀ wc', (∃ t, some text = some t ∧ loadWC E.cd E.fl t = .ok wc' ∧ validateWC E.st wc' = .ok ()) →
          wc' = wc ∧ validateWC E.st wc = .ok () := by
        rintro wc' ⟨t, ht, hl, hv⟩
        cases ht; rw [h2] at hl; cases hl
        exact ⟨rfl, hv⟩
      cases h3 : validateWC E.st wc with
      | error e =>
        left
        refine ⟨rfl, fun wc' hw => ?_⟩
        have := (huniq wc' hw).2
        rw [h3] at this; cases this
      | ok u =>
        dsimp only
        by_cases hb : wc.basis = "Warsaw mass"
        · right
          rw [if_pos hb]
          exact ⟨wc, ⟨text, rfl, h2, h3⟩, .inl hb, rfl⟩
        · rw [if_neg hb]
          cases answer with
          | none =>
            left
            refine ⟨rfl, fun wc' hw => ?_⟩
            rw [(huniq wc' hw).1]
            rintro (h | h | h)
            · exact hb h
            · cases h
            · cases h
          | some key =>
            dsimp only
            by_cases hk : key ≠ "i" ∧ key ≠ "I"
            · left
              rw [if_pos hk]
              refine ⟨rfl, fun wc' hw => ?_⟩
              rw [(huniq wc' hw).1]
              rintro (h | h | h)
              · exact hb h
              · exact hk.1 (Option.some.inj h)
              · exact hk.2 (Option.some.inj h)
            · right
              rw [if_neg hk]
              refine ⟨wc, ⟨text, rfl, h2, h3⟩, ?_, rfl⟩
              by_cases h : key = "i"
              · exact .inr (.inl (by rw [h]))
              · exact .inr (.inr (by rw [not_not.1 fun h' => hk ⟨h, h'⟩]))

/-- The text of the card exists exactly for complete input. -/
theorem simText_ok (E : Env) (lha : Card → String) (a : SimArgs) (wc : WC) :
    (∃ t, simText E lha a wc = .ok t) ↔ Complete E wc := by
  unfold simText Complete
  cases h : wc.numDict E.fl with
  | error e => simp [bind, Except.bind]
  | ok d =>
    obtain ⟨p, q, ht, -⟩ := text_entries a.set a.scheme
    have hc := (C55_complete a.set d a.lam a.scheme).1
    rw [ok_bind]
    constructor
    · rintro ⟨t, h'⟩
      refine ⟨d, rfl, hc.1 ?_⟩
      cases hf : cardFill (initializeCard a.set) d a.set a.lam a.scheme with
      | ok card => exact ⟨card, rfl⟩
      | error e => rw [hf] at h'; cases h'
    · rintro ⟨d', hd, hall⟩
      cases hd
      obtain ⟨card, hf⟩ := hc.2 hall
      exact ⟨p ++ lha card ++ q, by rw [hf, ok_bind, ht]; rfl⟩

/-- C23, what holds, after any number of steps of the command (a crash stops it anywhere):
1. no file other than the output changes;
2. the output is not touched unless the input is valid and in the right basis (or the warning is ignored);
3. for valid, accepted input the command finishes with status 0 exactly if the values are numbers and none of the coefficients in the card is
   omitted; then the output is the whole card at the end and a beginning of it (or the old contents) on the way;
4. otherwise the output file is left empty.
Missing: a file that omits (zero) coefficients is valid but gives case 4. -/
theorem C23_partial (E : Env) (lha : Card → String) (answer : Option String) (w : World) (a : SimArgs) (k : ℕ) :
    let r := smeftsimMain E lha answer w a
    let w' := w.after (r.1.take k)
    (∀ p, p ≠ a.output → w'.file p = w.file p) ∧
    ((∀ wc, ValidInput E w a.file wc → ¬ Accepted wc answer) → w'.file = w.file) ∧
    (∀ wc, ValidInput E w a.file wc → Accepted wc answer → Complete E wc →
      ∃ d card p q, wc.numDict E.fl = .ok d ∧ cardFill (initializeCard a.set) d a.set a.lam a.scheme = .ok card ∧
        cardText a.set a.scheme = .ok (p, q) ∧ r.2 = .status 0 ∧ (w.after r.1).file a.output = some (p ++ lha card ++ q) ∧
        (w'.file a.output = w.file a.output ∨
          ∃ n, w'.file a.output = some (String.ofList ((p ++ lha card ++ q).toList.take n)))) ∧
    (∀ wc, ValidInput E w a.file wc → Accepted wc answer → ¬ Complete E wc →
      (∃ e, r.2 = .exception e) ∧ (w.after r.1).file a.output = some "") := by
  intro r w'
  have huniq : ∀ wc wc', ValidInput E w a.file wc → ValidInput E w a.file wc' → wc = wc' := by
    rintro wc wc' ⟨t, ht, hl, -⟩ ⟨t', ht', hl', -⟩
    rw [ht] at ht'; cases ht'
    rw [hl] at hl'; cases hl'; rfl
  rcases smeftsim_shape E lha answer w a with ⟨hr, hno⟩ | ⟨wc, hv, hacc, hr⟩
  · have hw : w' = w := by simp only [w', r, hr]; cases k <;> rfl
    refine ⟨fun p _ => by rw [hw], fun _ => by rw [hw], fun wc hv ha => absurd ha (hno wc hv), fun wc hv ha => absurd ha (hno wc hv)⟩
  · by_cases hcomp : Complete E wc
    · obtain ⟨t, ht⟩ := (simText_ok E lha a wc).2 hcomp
      have hrr : r = (.truncate a.output :: writeText a.output t, .status 0) := by
        simp only [r, hr, simWrite, ht]
      have hpath : ∀ x ∈ r.1.take k, x.path = a.output := by
        intro x hx
        have hx := List.mem_of_mem_take hx
        rw [hrr] at hx
        rcases List.mem_cons.1 hx with rfl | hx
        · rfl
        · exact writeText_path hx
      refine ⟨?_, fun h => absurd hacc (h wc hv), ?_, ?_⟩
      · intro p hp
        exact after_other w _ p fun x hx => by rw [hpath x hx]; exact fun e => hp e.symm
      · intro wc' hv' _ _
        obtain rfl := huniq _ _ hv hv'
        have ht' := ht
        unfold simText at ht'
        cases hd : wc.numDict E.fl with
        | error e => rw [hd] at ht'; cases ht'
        | ok d =>
          rw [hd, ok_bind] at ht'
          cases hf : cardFill (initializeCard a.set) d a.set a.lam a.scheme with
          | error e => rw [hf] at ht'; cases ht'
          | ok card =>
            rw [hf, ok_bind] at ht'
            cases hx : cardText a.set a.scheme with
            | error e => rw [hx] at ht'; cases ht'
            | ok pq =>
              obtain ⟨p, q⟩ := pq
              rw [hx, ok_bind] at ht'
              cases ht'
              refine ⟨d, card, p, q, rfl, hf, rfl, by rw [hrr], ?_, ?_⟩
              · rw [hrr]
                change ((w.after [.truncate a.output]).after (writeText a.output _)).file a.output = _
                exact after_writeText _ _ (after_truncate w a.output) _
              · simp only [w', hrr]
                cases k with
                | zero => left; rfl
                | succ k =>
                  right
                  refine ⟨k, ?_⟩
                  change ((w.after [.truncate a.output]).after ((writeText a.output _).take k)).file a.output = _
                  exact after_writeText_take _ _ (after_truncate w a.output) _ k
      · intro wc' hv' _ hn
        obtain rfl := huniq _ _ hv hv'
        exact absurd hcomp hn
    · have hex : ∃ e, simText E lha a wc = .error e := by
        cases ht : simText E lha a wc with
        | error e => exact ⟨e, rfl⟩
        | ok t => exact absurd ((simText_ok E lha a wc).1 ⟨t, ht⟩) hcomp
      obtain ⟨e, he⟩ := hex
      have hrr : r = ([.truncate a.output], .exception e) := by
        simp only [r, hr, simWrite, he]
      refine ⟨?_, fun h => absurd hacc (h wc hv), ?_, ?_⟩
      · intro p hp
        refine after_other w _ p fun x hx => ?_
        have hx := List.mem_of_mem_take hx
        rw [hrr] at hx
        rw [List.mem_singleton.1 hx]
        exact fun e => hp e.symm
      · intro wc' hv' _ hc
        obtain rfl := huniq _ _ hv hv'
        exact absurd hc hcomp
      · intro wc' _ _ _
        rw [hrr]
        exact ⟨⟨e, rfl⟩, after_truncate w a.output⟩

/-- An environment with the basis "Warsaw mass" and the file contents `values`. -/
noncomputable def simEnv (values : Dict String JVal) : Env :=
  ⟨⟨fun _ => "", fun _ => "", fun _ => some (.obj [("eft", .str "SMEFT"), ("basis", .str "Warsaw mass"), ("scale", .num 1000),
      ("values", .obj values)]), fun _ => none⟩,
    fun _ => none, fun _ => .ok true, run [.newEFT "SMEFT" [] [], .newBasis "SMEFT" "Warsaw mass" [] []]⟩

/-- **C23 is false.** For a valid file in the basis "Warsaw mass" in which all coefficients are zero (and hence omitted) the command ends
with `KeyError`, and the previous contents of the output file are lost. -/
theorem C23_refuted (lha : Card → String) (answer : Option String) :
    let E := simEnv []
    let w : World := ⟨fun p => if p = "in" then some "x" else if p = "out" then some "old" else none, fun _ => false⟩
    let r := smeftsimMain E lha answer w { file := "in", output := "out" }
    (∃ wc, ValidInput E w "in" wc ∧ wc.basis = "Warsaw mass") ∧
    r.2 = .exception .keyError ∧ w.file "out" = some "old" ∧ (w.after r.1).file "out" = some "" := by
  intro E w r
  have hv : ∃ wc, ValidInput E w "in" wc ∧ wc.basis = "Warsaw mass" ∧ wc.numDict E.fl = .ok [] := by
    refine ⟨_, ⟨"x", rfl, rfl, rfl⟩, rfl, rfl⟩
  obtain ⟨wc, hv, hb, hd⟩ := hv
  have hn : ¬ Complete E wc := by
    rintro ⟨d, hd', hall⟩
    rw [hd] at hd'
    cases hd'
    exact absurd (hall _ _ _ _ coeff_G) (by simp)
  have hp := (C23_partial E lha answer w { file := "in", output := "out" } 0).2.2.2 wc hv (.inl hb) hn
  refine ⟨⟨wc, hv, hb⟩, ?_, rfl, hp.2⟩
  have hs : smeftsimMain E lha answer w { file := "in", output := "out" } = simWrite E lha { file := "in", output := "out" } wc := by
    rcases smeftsim_shape E lha answer w { file := "in", output := "out" } with ⟨-, hno⟩ | ⟨wc', hv', -, hr⟩
    · exact absurd (.inl hb) (hno wc hv)
    · obtain ⟨t, ht, hl, -⟩ := hv
      obtain ⟨t', ht', hl', -⟩ := hv'
      dsimp only at ht ht'
      rw [ht] at ht'; cases ht'
      rw [hl] at hl'; cases hl'
      exact hr
  change (smeftsimMain E lha answer w { file := "in", output := "out" }).2 = _
  rw [hs]
  unfold simWrite simText
  rw [hd, ok_bind, (C55_complete _ _ _ _).2 ⟨_, _, _, _, coeff_G, by simp⟩]
  rfl

/-- The same environment, where the basis has the coefficients `l` (already read once). -/
noncomputable def simEnvOf (l : List String) (values : Dict String JVal) : Env :=
  { simEnv values with
    st := (run [.newEFT "SMEFT" [] [], .newBasis "SMEFT" "Warsaw mass" [] []]).setObj 1
      (.basis ⟨"SMEFT", "Warsaw mass", [], some 0, some (some l)⟩) }

theorem simEnvOf_valid (l : List String) (values : Dict String JVal) (h : ∀ k ∈ Dict.keys values, k ∈ l) (w : World) (f t : String)
    (hw : w.file f = some t) : ∃ wc, ValidInput (simEnvOf l values) w f wc ∧ wc.basis = "Warsaw mass" ∧ wc.values = .obj values ∧
      wc.cache = .none := by
  refine ⟨⟨"SMEFT", "Warsaw mass", 1000, .obj values, .none, []⟩, ⟨t, hw, rfl, ?_⟩, rfl, rfl, rfl⟩
  change (if ∀ k ∈ Dict.keys values, k ∈ l then pure () else Except.error PyErr.assertionError : Except PyErr Unit) = .ok ()
  rw [if_pos h]
  rfl

/-- Case: a valid file with all coefficients is exported completely. -/
example (lha : Card → String) (w : World) (hw : w.file "in" = some "x") :
    ∃ E t, (smeftsimMain E lha none w { file := "in", output := "out", set := .B }).2 = .status 0 ∧
      (w.after (smeftsimMain E lha none w { file := "in", output := "out", set := .B }).1).file "out" = some t := by
  obtain ⟨values, hval⟩ : ∃ v, exReal = .obj v := ⟨_, rfl⟩
  obtain ⟨wc, hv, hb, hvs, hc⟩ := simEnvOf_valid (Dict.keys values) values (fun _ h => h) w "in" "x" hw
  have hcomp : Complete (simEnvOf (Dict.keys values) values) wc := by
    refine ⟨_, exReal_dict _ wc hc (hvs.trans hval.symm), fun key k op i h => ?_⟩
    exact Dict.find_isSome_iff.1 (by rw [allDict_find _ h]; rfl)
  obtain ⟨d, card, p, q, -, -, -, h1, h2, -⟩ :=
    (C23_partial (simEnvOf (Dict.keys values) values) lha none w { file := "in", output := "out", set := .B } 0).2.2.1 wc hv (.inl hb) hcomp
  exact ⟨_, _, h1, h2⟩

end Verif
