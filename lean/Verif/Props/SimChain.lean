import Verif.Props.SmeftsimCli
import Verif.Props.Threshold

/-! C99: a file in the Warsaw basis exported to SMEFTsim by the two commands `wcxf translate "Warsaw mass"` and `wcxf2smeftsim`. -/

set_option autoImplicit false

namespace Verif

open Spec

/-- All coefficients of the card are nonzero after the rotation of the left-handed up quarks by `V`. -/
def Spec.MassComplete (V : M3) (C : Dict String ℂ) : Prop :=
  (∀ key k op i, IsCoeff key k op i → k ∉ upNames → Dict.getD C key 0 ≠ 0) ∧
  ∀ name ∈ upNames, ∀ p r, ∑ s, V p s * Dict.getD C (label name [s, r]) 0 ≠ 0

theorem onMat_inv {f : (Ix2 → ℂ) → Ix2 → ℂ} {a a' : Arr} (h : a.onMat f = .ok a') : ∃ m, a' = .mat m := by
  cases a <;> simp only [Arr.onMat] at h
  case mat m => exact ⟨_, (Except.ok.inj h).symm⟩
  all_goals cases h

theorem mem_fromarray {name key : String} {m : Ix2 → ℂ} (h : key ∈ Dict.keys (smeftFromarray name (.mat m))) :
    ∃ p r, key = label name [p, r] := by
  unfold smeftFromarray Dict.ofPairs at h
  rw [Dict.mem_keys_upd] at h
  rcases h with h | h
  · simp at h
  · rw [flatEntries_eq] at h
    obtain ⟨q, hq, rfl⟩ := List.mem_map.1 h
    obtain ⟨i, hi, rfl⟩ := List.mem_map.1 hq
    obtain ⟨⟨p, r⟩, -, rfl⟩ := List.mem_map.1 hi
    exact ⟨p, r, rfl⟩

theorem rotateU_keys {ckm : ℝ → ℝ → ℝ → ℝ → M3} {p : Par} {C out out' : Dict String ℂ} {name : String}
    (h : rotateU ckm p C out name = .ok out') : (Dict.WF out → Dict.WF out') ∧
      ∀ key ∈ Dict.keys out', key ∈ Dict.keys out ∨ ∃ p r, key = label name [p, r] := by
  unfold rotateU at h
  cases h1 : smeftToarray name C with
  | error e => rw [h1] at h; cases h
  | ok a =>
    cases h2 : ckmOf ckm p with
    | error e => rw [h1, h2] at h; cases h
    | ok V =>
      rw [h1, h2, ok_bind, ok_bind] at h
      dsimp only at h
      cases h3 : a.onMat fun m i => (V.conjTranspose.conjTranspose * Matrix.of fun x y => m (x, y)) i.1 i.2 with
      | error e => rw [h3] at h; cases h
      | ok a' =>
        rw [h3, ok_bind] at h
        obtain ⟨m, rfl⟩ := onMat_inv h3
        obtain rfl := Except.ok.inj h
        refine ⟨fun hw => Dict.WF_upd hw _, fun key hk => ?_⟩
        rw [Dict.mem_keys_upd] at hk
        exact hk.imp id mem_fromarray

/-- The names that the translator returns. -/
theorem mass_keys {ckm : ℝ → ℝ → ℝ → ℝ → M3} {msvd : M3 → Fin 3 → ℝ} {default : Par} {par : Option Par} {C D : Dict String ℂ}
    (hw : Dict.WF C) (h : warsawToWarsawmass ckm msvd default C par = .ok D) : Dict.WF D ∧
      ∀ key ∈ Dict.keys D, key ∈ Dict.keys C ∨ ∃ name ∈ "llphiphi" :: upNames, ∃ p r, key = label name [p, r] := by
  unfold warsawToWarsawmass at h
  dsimp only at h
  have hfold : ∀ (l : List String) (out out' : Dict String ℂ), l.foldlM (rotateU ckm (withPar default par) C) out = .ok out' →
      (Dict.WF out → Dict.WF out') ∧
        ∀ key ∈ Dict.keys out', key ∈ Dict.keys out ∨ ∃ name ∈ l, ∃ p r, key = label name [p, r] := by
    intro l
    induction l with
    | nil =>
      intro out out' h
      obtain rfl := Except.ok.inj h
      exact ⟨id, fun key hk => .inl hk⟩
    | cons x l ih =>
      intro out out' h
      rw [List.foldlM_cons] at h
      cases h1 : rotateU ckm (withPar default par) C out x with
      | error e => rw [h1] at h; cases h
      | ok o =>
        rw [h1, ok_bind] at h
        obtain ⟨a1, a2⟩ := rotateU_keys h1
        obtain ⟨b1, b2⟩ := ih o out' h
        refine ⟨fun hw => b1 (a1 hw), fun key hk => ?_⟩
        rcases b2 key hk with hk | ⟨name, hn, hk⟩
        · exact (a2 key hk).imp id fun hk => ⟨x, by simp, hk⟩
        · exact .inr ⟨name, by simp [hn], hk⟩
  cases h1 : ["uphi", "uG", "uW", "uB"].foldlM (rotateU ckm (withPar default par) C) C with
  | error e => rw [h1] at h; cases h
  | ok out =>
    obtain ⟨a1, a2⟩ := hfold _ _ _ h1
    rw [h1, ok_bind] at h
    cases h2 : smeftToarray "llphiphi" C with
    | error e => rw [h2] at h; cases h
    | ok a =>
      rw [h2, ok_bind] at h
      cases h3 : a.onMat fun m i => if i.1 = i.2 then (msvd (Matrix.of fun x y => m (x, y)) i.1 : ℂ) else 0 with
      | error e => rw [h3] at h; cases h
      | ok a' =>
        rw [h3, ok_bind] at h
        obtain ⟨m, rfl⟩ := onMat_inv h3
        obtain rfl := Except.ok.inj h
        refine ⟨Dict.WF_upd (a1 hw) _, fun key hk => ?_⟩
        rw [Dict.mem_keys_upd] at hk
        rcases hk with hk | hk
        · exact (a2 key hk).imp id fun ⟨name, hn, hk⟩ => ⟨name, List.mem_cons_of_mem _ hn, hk⟩
        · exact .inr ⟨"llphiphi", by simp, mem_fromarray hk⟩

theorem toNumber_eq (fl : String → Option ℝ) (v : JVal) : toNumber fl v = (toCNum fl v).map CNum.val := by
  cases v with
  | obj d =>
    simp only [toNumber, toCNum]
    cases pyFloat fl (Dict.getD d "Re" (.num 0)) with
    | error e => rfl
    | ok x =>
      rw [ok_bind, ok_bind]
      cases pyFloat fl (Dict.getD d "Im" (.num 0)) <;> rfl
  | _ => simp only [toNumber, toCNum]; cases pyFloat fl _ <;> rfl

/-- The numbers that the card uses are the values of the coefficients. -/
theorem numDict_dict {fl : String → Option ℝ} {w : WC} {D : Dict String ℂ} (hc : w.cache = .none) (h : w.dict fl = .ok D) :
    ∃ d, w.numDict fl = .ok d ∧ Dict.mapVals CNum.val d = D := by
  replace h : convertValues fl w.values = .ok D := by
    unfold WC.dict WC.readDict at h
    rw [hc] at h
    cases hv : convertValues fl w.values with
    | error e => rw [hv] at h; cases h
    | ok d => rw [hv] at h; exact h
  unfold convertValues at h
  unfold WC.numDict
  rw [hc]
  cases hi : itemsOf w.values with
  | error e => rw [hi] at h; cases h
  | ok l =>
    rw [hi, ok_bind] at h
    dsimp only
    rw [ok_bind]
    clear hi
    induction l generalizing D with
    | nil => exact ⟨[], rfl, Except.ok.inj h⟩
    | cons p l ih =>
      rw [List.mapM_cons, toNumber_eq] at h
      rw [List.mapM_cons]
      cases hz : toCNum fl p.2 with
      | error e => rw [hz] at h; cases h
      | ok z =>
        rw [hz] at h
        simp only [Except.map, ok_bind] at h
        cases hl : l.mapM fun p => (do let z ← toNumber fl p.2; return (p.1, z) : Except PyErr (String × ℂ)) with
        | error e => rw [hl] at h; cases h
        | ok D' =>
          rw [hl] at h
          obtain rfl := Except.ok.inj h
          obtain ⟨d, h1, h2⟩ := ih hl
          refine ⟨(p.1, z) :: d, ?_, ?_⟩
          · rw [ok_bind, h1]; rfl
          · rw [← h2]; rfl

theorem loaded_cache {cd : Codec} {fl : String → Option ℝ} {t : String} {w : WC} {D : Dict String ℂ} (h : loadWC cd fl t = .ok w)
    (hd : w.dict fl = .ok D) : w.cache = .none := by
  have : (∃ j, w.cache = .raw j) ∨ w.cache = .none := by
    unfold loadWC at h
    simp only [bind, Except.bind] at h
    repeat' split at h
    all_goals first
      | cases h
      | skip
    unfold newWC at h
    simp only [bind, Except.bind, pure, Except.pure] at h
    repeat' split at h
    all_goals first
      | cases h; done
      | skip
    all_goals
      obtain rfl := Except.ok.inj h
      dsimp only
      first
        | exact .inr rfl
        | exact .inl ⟨_, rfl⟩
  rcases this with ⟨j, hj⟩ | h
  · unfold WC.dict WC.readDict at hd
    rw [hj] at hd
    cases hd
  · exact h

/-- The translated file contains all coefficients of the card exactly if `MassComplete`. -/
theorem massComplete_iff {V : M3} {C D : Dict String ℂ} (hD : Dict.WF D)
    (h1 : ∀ key, headPart key ∉ "llphiphi" :: upNames → Dict.find D key = Dict.find C key)
    (h2 : ∀ name ∈ upNames, ∀ p r, Dict.find D (label name [p, r]) = some (∑ s, V p s * Dict.getD C (label name [s, r]) 0)) :
    (∀ key k op i, IsCoeff key k op i → key ∈ Dict.keys (nz D)) ↔ MassComplete V C := by
  have hmem : ∀ key, key ∈ Dict.keys (nz D) ↔ Dict.getD D key 0 ≠ 0 := fun key => by
    rw [← Dict.find_isSome_iff, find_nz hD]
    by_cases h : Dict.getD D key 0 = 0 <;> simp [h]
  simp only [hmem]
  have hll : ∀ key op i, ¬ IsCoeff key "llphiphi" op i := by
    rintro key op i ⟨⟨ho, -⟩, hc, -⟩
    have : IsOp "llphiphi" (.two (n .l) (n .l)) := by decide +kernel
    rw [isOp_unique ho this] at hc
    revert hc; decide
  have hhead : ∀ {key k op i}, IsCoeff key k op i → headPart key = k := fun h => by
    rw [h.1.2.2]; exact headPart_label (isOp_plain h.1.1) _
  have hops : ∀ name ∈ upNames, IsOp name (.two (b .q) (n .u)) := by decide +kernel
  constructor
  · intro h
    refine ⟨fun key k op i hk hn => ?_, fun name hn p r => ?_⟩
    · have := h key k op i hk
      have hne : headPart key ∉ "llphiphi" :: upNames := by
        rw [hhead hk, List.mem_cons, not_or]
        exact ⟨fun e => hll key op i (e ▸ hk), hn⟩
      rw [Dict.getD, h1 key hne] at this
      exact this
    · have := h (label name [p, r]) name _ [p, r] ⟨⟨hops name hn, rfl, rfl⟩, by decide, (indepB_iff _ _).1 (by revert p r; decide)⟩
      rw [Dict.getD, h2 name hn p r] at this
      exact this
  · rintro ⟨h3, h4⟩ key k op i hk
    by_cases hn : k ∈ upNames
    · have hl := hk.1.2.1
      rw [isOp_unique hk.1.1 (hops k hn)] at hl
      match i, hl with
      | [p, r], _ =>
        rw [hk.1.2.2, Dict.getD, h2 k hn p r]
        exact h4 k hn p r
    · have hne : headPart key ∉ "llphiphi" :: upNames := by
        rw [hhead hk, List.mem_cons, not_or]
        exact ⟨fun e => hll key op i (e ▸ hk), hn⟩
      rw [Dict.getD, h1 key hne]
      exact h3 key k op i hk hn

/-- **C99, commands.** With the installed package: `wcxf translate "Warsaw mass" f --output g` on a file of the SMEFT in the Warsaw basis
ends with status 0 and `g` is valid. Then `wcxf2smeftsim g --output h` ends with status 0 exactly if all coefficients of the card are
nonzero after the rotation; in this case `h` contains the whole card with the translated values. Otherwise it ends with an exception,
and `h` is left empty. The basis "Warsaw mass" is assumed to list its coefficients, and the libraries to keep the document that
is written. Missing: the claim that the second command always succeeds, which is false. -/
theorem C99_partial (E : REnv) (p : Par) (files : List Verif.Op) (hf : ∀ op ∈ files, IsDefinition op) (T : Env)
    (hT : T.st = imported E p files) (W : World) (f g text fmt : String) (htext : W.file f = some text) (hgf : g ≠ f)
    (w : WC) (hload : loadWC T.cd T.fl text = .ok w) (hwe : w.eft = "SMEFT") (hwb : w.basis = "Warsaw")
    (V : M3) (hV : ckmOf E.ckm p = .ok V) (C : Dict String ℂ) (hd : w.dict T.fl = .ok C) (hw : Dict.WF C)
    (hC : ∀ key ∈ Dict.keys C, headPart key ∈ "llphiphi" :: upNames → ∃ i, i.length = 2 ∧ key = label (headPart key) i)
    (i b : Id) (l : List String) (he : (imported E p files).lookup .eft ["SMEFT"] = .ok i)
    (hb : (imported E p files).lookup .basis ["SMEFT", "Warsaw mass"] = .ok b)
    (hl : (readAllWcs (imported E p files) b).2 = .ok l)
    (hcov : ∀ key ∈ Dict.keys C, headPart key ∉ "llphiphi" :: upNames → key ∈ l)
    (hcovU : ∀ name ∈ upNames, ∀ p r, label name [p, r] ∈ l) (hcovL : ∀ p, label "llphiphi" [p, p] ∈ l)
    (hfmt : IsJson fmt ∨ IsYaml fmt)
    (hcd : ∀ w1, w.translate T.fl T.st "Warsaw mass" none = .ok w1 → Faithful T.cd fmt (wcDoc w1))
    (lha : Card → String) (answer : Option String) (a : SimArgs) (ha : a.file = g) (o : Bool) (W1 : World)
    (hW1 : W1 = W.after (wcxfMain T W (.translate "Warsaw mass" f (some g) fmt) o).1) :
    (wcxfMain T W (.translate "Warsaw mass" f (some g) fmt) o).2 = .status 0 ∧ (∃ wc, ValidInput T W1 g wc) ∧
    ((smeftsimMain T lha answer W1 a).2 = .status 0 ↔ MassComplete V C) ∧
    (MassComplete V C → ∃ D d card x y, warsawToWarsawmass E.ckm E.msvd p C none = .ok D ∧
      (∀ key, (Dict.find d key).elim 0 CNum.val = Dict.getD D key 0) ∧
      cardFill (initializeCard a.set) d a.set a.lam a.scheme = .ok card ∧ cardText a.set a.scheme = .ok (x, y) ∧
      (W1.after (smeftsimMain T lha answer W1 a).1).file a.output = some (x ++ lha card ++ y)) ∧
    (¬ MassComplete V C → (∃ e, (smeftsimMain T lha answer W1 a).2 = .exception e) ∧
      (W1.after (smeftsimMain T lha answer W1 a).1).file a.output = some "") := by
  have hreg : ([w.eft, w.basis, "Warsaw mass"], fun p => registeredSmeft (warsawToWarsawmass E.ckm E.msvd p)) ∈ translators E := by
    rw [hwe, hwb]; simp [translators]
  obtain ⟨D, r1, f1, f2, f3⟩ := C36_frame E.ckm E.msvd p none V hV C hw hC
  obtain ⟨r3, r2⟩ := mass_keys hw r1
  have h1 : w.translate T.fl T.st "Warsaw mass" none = .ok ⟨"SMEFT", "Warsaw mass", w.scale, .obj (dict2values (nz D)), .none, []⟩ := by
    rw [hT, (C94_installed E p files hf T.fl w none).1 "Warsaw mass" _ hreg, applyFn_fresh hd r1, hwe]
  have hz : Dict.WF (nz D) := Dict.WF_filt r3
  have hbody : (Cmd.translate "Warsaw mass" f (some g) fmt).body T ((W.file f).getD "") =
      dump T.cd (WC.attrs ⟨"SMEFT", "Warsaw mass", w.scale, .obj (dict2values (nz D)), .none, []⟩) fmt "" := by
    simp only [Cmd.body, htext, Option.getD_some, hload, h1]
  obtain ⟨a1, ⟨tx, w1, a2, a3, -⟩, -⟩ := command_writes T W (.translate "Warsaw mass" f (some g) fmt) o f g fmt
    rfl (by simp [htext]) rfl hgf _ _ _ (nz D) hz hbody hfmt (hcd _ h1)
  obtain ⟨tx', w'', b1, b2, b3, b4, -, b5, -, b6⟩ := C15_dump_load_wc T.cd T.fl _ ⟨by simp [Dict.WF, Dict.keys], by simp [Dict.keys]⟩
    fmt hfmt (hcd _ h1)
  have htx : tx = tx' := by
    rw [(C59_partial T W _ o f g rfl (by simp [htext]) rfl hgf).1, hbody, b1] at a2
    exact (Option.some.inj a2).symm
  subst htx
  obtain ⟨D', c1, c2, c3⟩ := b6 _ _ rfl (by unfold Dict.WF; rw [keys_dict2values]; exact hz) (C11_numbers_round_trip T.fl (nz D)).1
  have hkeys : ∀ n ∈ Dict.keys (nz D), n ∈ l := fun n hn => by
    have hnz : Dict.getD D n 0 ≠ 0 := mem_nz r3 hn
    have hn' : n ∈ Dict.keys D := by
      obtain ⟨q, hq, rfl⟩ := List.mem_map.1 hn
      exact List.mem_map_of_mem (List.mem_of_mem_filter hq)
    have hlab : (∃ name ∈ "llphiphi" :: upNames, ∃ p r, n = label name [p, r]) → n ∈ l := by
      rintro ⟨name, hname, p, r, rfl⟩
      rcases List.mem_cons.1 hname with rfl | hname
      · rw [Dict.getD, f3 p r] at hnz
        by_cases hpr : p = r
        · subst hpr; exact hcovL p
        · simp [hpr] at hnz
      · exact hcovU name hname p r
    rcases r2 n hn' with h | h
    · by_cases hh : headPart n ∈ "llphiphi" :: upNames
      · obtain ⟨i, hi, e⟩ := hC n h hh
        match i, hi with
        | [p, r], _ => exact hlab ⟨_, hh, p, r, e⟩
      · exact hcov n h hh
    · exact hlab h
  have hval : validateWC T.st w'' = .ok () := by
    obtain ⟨vs', hvs⟩ := b5.obj_inv
    rw [hvs] at b5
    cases b5 with
    | obj hk _ =>
      rw [hT]
      refine ((C09_wc_validation _ _).2.1).2 ⟨i, b, vs', l, by rw [b3]; exact he, by rw [b3, b4]; exact hb, hvs, hl, fun n hn => ?_⟩
      have := hk.mem_iff.2 hn
      rw [keys_dict2values] at this
      exact hkeys n this
  rw [← hW1] at a2
  have hvi : ValidInput T W1 g w'' := ⟨tx, a2, b2, hval⟩
  obtain ⟨d, d1, d2⟩ := numDict_dict (loaded_cache b2 c1) c1
  have hcomp : Complete T w'' ↔ MassComplete V C := by
    rw [← massComplete_iff r3 f1 f2]
    have hkd : ∀ key, key ∈ Dict.keys d ↔ key ∈ Dict.keys (nz D) := fun key => by
      rw [c2.mem_iff, ← d2, Dict.keys_mapVals]
    constructor
    · rintro ⟨d', h', hall⟩ key k op i hk
      obtain rfl := Except.ok.inj (d1.symm.trans h')
      exact (hkd key).1 (hall key k op i hk)
    · exact fun hall => ⟨d, d1, fun key k op i hk => (hkd key).2 (hall key k op i hk)⟩
  obtain ⟨-, -, s3, s4⟩ := C23_partial T lha answer W1 a 0
  rw [ha] at s3 s4
  have hok : MassComplete V C → ∃ card x y, cardFill (initializeCard a.set) d a.set a.lam a.scheme = .ok card ∧
      cardText a.set a.scheme = .ok (x, y) ∧ (smeftsimMain T lha answer W1 a).2 = .status 0 ∧
      (W1.after (smeftsimMain T lha answer W1 a).1).file a.output = some (x ++ lha card ++ y) := fun hm => by
    obtain ⟨d', card, x, y, e1, e2, e3, e4, e5, -⟩ := s3 w'' hvi (.inl b4) (hcomp.2 hm)
    obtain rfl := Except.ok.inj (d1.symm.trans e1)
    exact ⟨card, x, y, e2, e3, e4, e5⟩
  have hno : ¬ MassComplete V C → (∃ e, (smeftsimMain T lha answer W1 a).2 = .exception e) ∧
      (W1.after (smeftsimMain T lha answer W1 a).1).file a.output = some "" := fun hm =>
    s4 w'' hvi (.inl b4) fun h => hm (hcomp.1 h)
  refine ⟨a1, ⟨w'', hvi⟩, ⟨fun h => ?_, fun h => ?_⟩, fun h => ?_, hno⟩
  · by_contra hm
    obtain ⟨⟨e, he⟩, -⟩ := hno hm
    rw [h] at he
    cases he
  · obtain ⟨_, _, _, -, -, h, -⟩ := hok h
    exact h
  · obtain ⟨card, x, y, e1, e2, -, e4⟩ := hok h
    refine ⟨D, d, card, x, y, r1, fun key => ?_, e1, e2, e4⟩
    rw [← getD_nz r3, Dict.getD, c3 key, ← d2, Dict.find_mapVals]
    cases Dict.find d key <;> rfl

/-! ### Cases and the witness -/

def massNames (names : List String) : List String :=
  names ++ (upNames.flatMap fun name => ix2s.map fun x => label name [x.1, x.2]) ++ ix2s.map fun x => label "llphiphi" [x.1, x.2]

def massFiles (names : List String) : List Verif.Op :=
  [.newEFT "SMEFT" [("a", .null)] [], .newBasis "SMEFT" "Warsaw mass" [("a", .obj ((massNames names).map fun n => (n, .null)))] []]

noncomputable def exMassReg : REnv := ⟨exEnv.ckm, fun _ _ => 0, exEnv.rd, fun _ _ => []⟩

set_option maxRecDepth 20000 in
theorem massFiles_defined (names : List String) :
    (imported exMassReg defaultPar (massFiles names)).lookup .eft ["SMEFT"] = .ok 32 ∧
    (imported exMassReg defaultPar (massFiles names)).lookup .basis ["SMEFT", "Warsaw mass"] = .ok 33 ∧
    ∃ l, (readAllWcs (imported exMassReg defaultPar (massFiles names)) 33).2 = .ok l ∧ ∀ n ∈ massNames names, n ∈ l := by
  refine ⟨rfl, rfl, _, rfl, fun n hn => ?_⟩
  simpa [Dict.keys, Function.comp_def] using hn

/-- The two commands for given coefficients. -/
theorem sim_chain (fl : String → Option ℝ) (lha : Card → String) (answer : Option String) (C : Dict String ℂ) (hw : Dict.WF C)
    (hC : ∀ key ∈ Dict.keys C, headPart key ∈ "llphiphi" :: upNames → ∃ i, i.length = 2 ∧ key = label (headPart key) i) :
    ∃ (T : Env) (W W1 : World) (w : WC), T.st = imported exMassReg defaultPar (massFiles (Dict.keys C)) ∧ W.file "f" = some "0" ∧
      W.file "h" = some "old" ∧ loadWC T.cd T.fl "0" = .ok w ∧ w.eft = "SMEFT" ∧ w.basis = "Warsaw" ∧ w.dict T.fl = .ok C ∧
      W1 = W.after (wcxfMain T W (.translate "Warsaw mass" "f" (some "g") "json") false).1 ∧
      (wcxfMain T W (.translate "Warsaw mass" "f" (some "g") "json") false).2 = .status 0 ∧ (∃ wc, ValidInput T W1 "g" wc) ∧
      ((smeftsimMain T lha answer W1 { file := "g", output := "h" }).2 = .status 0 ↔ MassComplete exV C) ∧
      (¬ MassComplete exV C → (∃ e, (smeftsimMain T lha answer W1 { file := "g", output := "h" }).2 = .exception e) ∧
        (W1.after (smeftsimMain T lha answer W1 { file := "g", output := "h" }).1).file "h" = some "") := by
  classical
  let w : WC := ⟨"SMEFT", "Warsaw", 160, .obj (dict2values C), .none, []⟩
  have hfiles : ∀ op ∈ massFiles (Dict.keys C), IsDefinition op := by simp [massFiles, IsDefinition]
  have hd : w.dict fl = .ok C := dict_result _ _ _ _ _
  have hj : IsJson "json" := by simp [IsJson]
  have hjson : lower "json" = "json" := by decide +kernel
  have hny : ¬ IsYaml "json" := fun h => absurd ((lower_eq_iff _ _).2 h) (by rw [hjson]; decide)
  obtain ⟨d1, d2, l, d3, d4⟩ := massFiles_defined (Dict.keys C)
  have hix : ∀ x : Ix2, x ∈ ix2s := by decide
  let res := w.translate fl (imported exMassReg defaultPar (massFiles (Dict.keys C))) "Warsaw mass" none
  let cd : Codec := ⟨fun _ => "1", fun _ => "", fun t => if t = "0" then some (wcDoc w) else match res with
    | .ok w1 => some (wcDoc w1)
    | .error _ => none, fun _ => none⟩
  obtain ⟨T, hTc, hTf, hTs⟩ : ∃ T : Env, T.cd = cd ∧ T.fl = fl ∧ T.st = imported exMassReg defaultPar (massFiles (Dict.keys C)) :=
    ⟨⟨cd, fl, fun _ => .ok true, _⟩, rfl, rfl, rfl⟩
  have l0 : loadWC cd fl "0" = .ok w := rfl
  obtain ⟨h1, h2, h3, -, h4⟩ := C99_partial exMassReg defaultPar _ hfiles T hTs
    ⟨fun q => if q = "f" then some "0" else if q = "h" then some "old" else none, fun _ => false⟩ "f" "g" "0" "json" (by simp) (by decide) w
    (by rw [hTc, hTf]; exact l0) rfl rfl exV rfl C (by rw [hTf]; exact hd) hw hC _ _ l d1 d2 d3
    (fun key hk _ => d4 key (by simp [massNames, hk]))
    (fun name hn p r => d4 _ (by
      unfold massNames
      exact List.mem_append_left _ (List.mem_append_right _ (List.mem_flatMap.2 ⟨name, hn, List.mem_map.2 ⟨(p, r), hix _, rfl⟩⟩))))
    (fun p => d4 _ (by
      unfold massNames
      exact List.mem_append_right _ (List.mem_map.2 ⟨(p, p), hix _, rfl⟩)))
    (.inl hj) (fun w2 hw2 => by
      rw [hTf, hTs] at hw2
      have hres : res = .ok w2 := hw2
      rw [hTc]
      exact ⟨fun _ => ⟨_, Same.refl _, .inl (by simp [cd, hres])⟩, fun hy => absurd hy hny⟩)
    lha answer { file := "g", output := "h" } rfl false _ rfl
  exact ⟨T, _, _, w, hTs, by simp, by simp, by rw [hTc, hTf]; exact l0, rfl, rfl, by rw [hTf]; exact hd, rfl, h1, h2, h3, h4⟩

/-- **C99 is false** as stated: a file of the Warsaw basis with the only coefficient `W` is translated to the basis "Warsaw mass" as the
warning of `wcxf2smeftsim` asks, and the result is valid. The export ends with an exception, and the previous contents of the output
are lost. -/
theorem C99_refuted (fl : String → Option ℝ) (lha : Card → String) (answer : Option String) :
    ∃ (T : Env) (W W1 : World) (w : WC), T.st = imported exMassReg defaultPar (massFiles ["W"]) ∧ W.file "f" = some "0" ∧
      W.file "h" = some "old" ∧ loadWC T.cd T.fl "0" = .ok w ∧ w.eft = "SMEFT" ∧ w.basis = "Warsaw" ∧ w.dict T.fl = .ok [("W", 1)] ∧
      W1 = W.after (wcxfMain T W (.translate "Warsaw mass" "f" (some "g") "json") false).1 ∧
      (wcxfMain T W (.translate "Warsaw mass" "f" (some "g") "json") false).2 = .status 0 ∧ (∃ wc, ValidInput T W1 "g" wc) ∧
      (∃ e, (smeftsimMain T lha answer W1 { file := "g", output := "h" }).2 = .exception e) ∧
      (W1.after (smeftsimMain T lha answer W1 { file := "g", output := "h" }).1).file "h" = some "" := by
  obtain ⟨T, W, W1, w, h1, h2, h3, h4, h5, h6, h7, h8, h9, h10, -, h11⟩ := sim_chain fl lha answer [("W", 1)]
    (by simp [Dict.WF, Dict.keys]) (by
      have : headPart "W" ∉ "llphiphi" :: upNames := by decide +kernel
      simp only [Dict.keys, List.map_cons, List.map_nil, List.mem_singleton]
      rintro key rfl h
      exact absurd h this)
  refine ⟨T, W, W1, w, h1, h2, h3, h4, h5, h6, h7, h8, h9, h10, h11 fun hm => ?_⟩
  refine hm.1 "G" _ _ _ coeff_G (by decide) ?_
  simp [Dict.getD, Dict.find]

theorem coeff_names : ∃ names : List String, names.Nodup ∧ (∀ key k op i, IsCoeff key k op i → key ∈ names) ∧
    ∀ key ∈ names, ∃ k op i, IsCoeff key k op i := by
  classical
  refine ⟨((Dict.keys (allDict fun _ => (1 : ℂ))).dedup).filter fun key => decide (∃ k op i, IsCoeff key k op i),
    (List.nodup_dedup _).filter _, fun key k op i h => ?_, fun key h => ?_⟩
  · exact List.mem_filter.2 ⟨List.mem_dedup.2 (Dict.find_isSome_iff.1 (by rw [allDict_find _ h]; rfl)), decide_eq_true ⟨k, op, i, h⟩⟩
  · exact of_decide_eq_true (List.mem_filter.1 h).2

/-- Case: all coefficients are one. -/
example (fl : String → Option ℝ) (lha : Card → String) : ∃ (T : Env) (W W1 : World) (C : Dict String ℂ),
    W1 = W.after (wcxfMain T W (.translate "Warsaw mass" "f" (some "g") "json") false).1 ∧ MassComplete exV C ∧
    (smeftsimMain T lha none W1 { file := "g", output := "h" }).2 = .status 0 := by
  obtain ⟨names, n1, n2, n3⟩ := coeff_names
  obtain ⟨C, hC⟩ : ∃ C : Dict String ℂ, C = names.map fun k => (k, 1) := ⟨_, rfl⟩
  have hkeys : Dict.keys C = names := by simp [hC, Dict.keys, Function.comp_def]
  have hmem : ∀ {key k op i}, IsCoeff key k op i → Dict.getD C key 0 = 1 := fun {key k op i} hc => by
    rw [hC, Dict.getD, find_map_self (fun _ => (1 : ℂ)), if_pos (n2 key k op i hc)]
    rfl
  have hops : ∀ name ∈ upNames, IsOp name (.two (b .q) (n .u)) := by decide +kernel
  have hm : MassComplete exV C := by
    refine ⟨fun key k op i hc _ => by rw [hmem hc]; exact one_ne_zero, fun name hn p r => ?_⟩
    have : ∀ s, Dict.getD C (label name [s, r]) 0 = 1 := fun s =>
      hmem ⟨⟨hops name hn, rfl, rfl⟩, by decide, (indepB_iff _ _).1 (by revert s r; decide)⟩
    simp only [this]
    fin_cases p
    all_goals simp [exV, Fin.sum_univ_three]
    all_goals norm_num
  obtain ⟨T, W, W1, w, -, -, -, -, -, -, -, h1, -, -, h2, -⟩ := sim_chain fl lha none C (by unfold Dict.WF; rw [hkeys]; exact n1) (by
    intro key hk hh
    rw [hkeys] at hk
    obtain ⟨k, op, i, hc⟩ := n3 key hk
    have hk : headPart key = k := by rw [hc.1.2.2]; exact headPart_label (isOp_plain hc.1.1) _
    rw [hk] at hh ⊢
    refine ⟨i, ?_, hc.1.2.2⟩
    have hall : ∀ name ∈ "llphiphi" :: upNames, ∃ x y, IsOp name (.two x y) := by
      intro name hn
      rcases List.mem_cons.1 hn with rfl | hn
      · exact ⟨n .l, n .l, by decide +kernel⟩
      · exact ⟨_, _, hops name hn⟩
    obtain ⟨x, y, hxy⟩ := hall k hh
    rw [hc.1.2.1, isOp_unique hc.1.1 hxy]
    rfl)
  exact ⟨T, W, W1, C, h1, hm, h2.2 hm⟩

end Verif
