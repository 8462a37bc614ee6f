import Verif.Props.EosTable
import Verif.Props.Threshold
import Verif.Props.Agree

/-! C98: a file in the JMS basis exported to EOS by the two commands `wcxf translate EOS` and `wcxf2eos`. -/

set_option autoImplicit false

namespace Verif

open Spec

/-- The charged currents `b -> u l nu` in the JMS basis, and in EOS. -/
def Spec.jmsCharged : List (String × String) :=
  [("VnueduLL", "cVL"), ("VnueduLR", "cVR"), ("SnueduRL", "cSR"), ("SnueduRR", "cSL"), ("TnueduRR", "cT")]

/-- The charged currents `b -> u l nu` are the same for electrons and muons, in the JMS basis. -/
def Spec.UniversalJms (C : Dict String ℂ) : Prop :=
  ∀ k ∈ jmsCharged, coeff C (k.1 ++ "_1131") = coeff C (k.1 ++ "_2231")

theorem jmsCharged_plain : ∀ k ∈ jmsCharged, (k.1 ∉ jmsHermitian ∧ k.1 ∉ jmsExchange) ∧ (k.1 ∉ hermKeys ∧ k.1 ∉ currentKeys ∧ k.1 ∉ hermCurrentKeys) ∧
    (k.1, [3, 3, 3, 2]) ∈ jmsRanges ∧ label k.1 [0, 0, 2, 0] = k.1 ++ "_1131" ∧ label k.1 [1, 1, 2, 0] = k.1 ++ "_2231" := by
  decide +kernel

theorem jval_charged {L : List String} (hL : JmsListing L) (C : Dict String ℂ) {k : String × String} (hk : k ∈ jmsCharged)
    (i : List (Fin 3)) (hi : List.Forall₂ (fun (i : Fin 3) n => i.val < n) i [3, 3, 3, 2]) :
    jval L C (k.1, i) = coeff C (label k.1 i) := by
  obtain ⟨⟨h1, h2⟩, ⟨h3, h4, h5⟩, h6, -⟩ := jmsCharged_plain k hk
  obtain ⟨c, j, ht, hj⟩ := hL.full (k.1, i) ⟨_, h6, hi⟩
  cases ht with
  | refl => simp [jval, fillOpt, h3, h4, h5, listedOpt, hj, coeff, Dict.getD]
  | herm _ _ _ _ _ _ h => exact absurd h h1
  | exch _ _ _ _ _ _ h => exact absurd h h2

/-- **C98, condition.** The charged currents of the translated coefficients are the same for electrons and muons exactly if those of
the JMS coefficients are. -/
theorem C98_condition {E : WEnv} {P : PEnv} {scale : ℝ} {par : Option Par} (hp : penv E scale par = .ok P) (hP : Admissible P)
    (ht : WT.jmsEos.Ready E P) (C d : Dict String ℂ) (hd : jmsToEos E C scale par = .ok d) : Universal d ↔ UniversalJms C := by
  have hL : JmsListing E.jms := ht.1
  have hm : P.p.m_b ^ 2 ≠ P.p.m_s ^ 2 := ht.2
  have hpre : (prefIIv P 0 2 : ℂ) ≠ 0 := prefIIv_ne hP 0 2
  have val : ∀ l ∈ [(0 : Fin 3), 1], ∀ k ∈ jmsCharged,
      coeff d ("b->" ++ ("u" ++ (qname (.e, l) ++ ("nu" ++ qname (.nu, l)))) ++ ("::" ++ k.2)) =
        prefIIv P 0 2 * starRingEnd ℂ (coeff C (label k.1 [l, l, 2, 0])) := by
    intro l hl
    have hj : ∀ k ∈ jmsCharged, jval E.jms C (k.1, [l, l, 2, 0]) = coeff C (label k.1 [l, l, 2, 0]) := fun k hk =>
      jval_charged hL C hk _ (by fin_cases l <;> simp)
    obtain ⟨A, hA, hV⟩ := etable_II hP (jval E.jms C) hm l hl
    simp only [scaleBy, jmsBernIITable, bernEosIITable, List.map_cons, List.map_nil, List.forall_mem_cons, Ex.val_mul, Ex.val_src,
      Ex.val_cj] at hA hV
    obtain ⟨A1, A2, A3, A4, A5, -⟩ := hA
    obtain ⟨V1, V2, V3, V4, V5, -⟩ := hV
    simp only [jmsCharged, List.forall_mem_cons, List.not_mem_nil, false_implies, implies_true, and_true] at hj ⊢
    obtain ⟨j1, j2, j3, j4, j5⟩ := hj
    have e : ∀ n, coeff d n = bat (jval E.jms C) (blkEos P).flatten n := fun n => eos_bat hp hP hm hL hd n
    have n1 : "::" ++ "cVL" = "::cVL" := by decide +kernel
    have n2 : "::" ++ "cVR" = "::cVR" := by decide +kernel
    have n3 : "::" ++ "cSR" = "::cSR" := by decide +kernel
    have n4 : "::" ++ "cSL" = "::cSL" := by decide +kernel
    have n5 : "::" ++ "cT" = "::cT" := by decide +kernel
    simp only [e, ← j1, ← j2, ← j3, ← j4, ← j5, n1, n2, n3, n4, n5]
    rw [V1, V2, V3, V4, V5, A1, A2, A3, A4, A5]
    exact ⟨rfl, rfl, rfl, rfl, rfl⟩
  have names : ∀ k ∈ jmsCharged,
      "b->" ++ ("u" ++ (qname (.e, 0) ++ ("nu" ++ qname (.nu, 0)))) ++ ("::" ++ k.2) = "b->uenue::" ++ k.2 ∧
      "b->" ++ ("u" ++ (qname (.e, 1) ++ ("nu" ++ qname (.nu, 1)))) ++ ("::" ++ k.2) = "b->umunumu::" ++ k.2 := by decide +kernel
  have key : ∀ k ∈ jmsCharged, (coeff d ("b->uenue::" ++ k.2) = coeff d ("b->umunumu::" ++ k.2) ↔
      coeff C (k.1 ++ "_1131") = coeff C (k.1 ++ "_2231")) := by
    intro k hk
    obtain ⟨n1, n2⟩ := names k hk
    obtain ⟨-, -, -, l1, l2⟩ := jmsCharged_plain k hk
    rw [← n1, ← n2, val 0 (by simp) k hk, val 1 (by simp) k hk, l1, l2]
    constructor
    · intro h
      exact (starRingEnd ℂ).injective (mul_left_cancel₀ hpre h)
    · intro h
      rw [h]
  have hperm : ∀ c, c ∈ eosCharged ↔ ∃ k ∈ jmsCharged, k.2 = c := by
    intro c
    simp only [eosCharged, jmsCharged, List.mem_cons, List.not_mem_nil, or_false]
    constructor
    · rintro (rfl | rfl | rfl | rfl | rfl)
      · exact ⟨_, .inl rfl, rfl⟩
      · exact ⟨_, .inr (.inl rfl), rfl⟩
      · exact ⟨_, .inr (.inr (.inr (.inl rfl))), rfl⟩
      · exact ⟨_, .inr (.inr (.inl rfl)), rfl⟩
      · exact ⟨_, .inr (.inr (.inr (.inr rfl))), rfl⟩
    · rintro ⟨k, rfl | rfl | rfl | rfl | rfl, rfl⟩ <;> simp
  constructor
  · intro h k hk
    exact (key k hk).1 (h k.2 ((hperm _).2 ⟨k, hk, rfl⟩))
  · intro h c hc
    obtain ⟨k, hk, rfl⟩ := (hperm c).1 hc
    exact (key k hk).2 (h k hk)

theorem coeff_congr {d d' : Dict String ℂ} (h : ∀ n, coeff d n = coeff d' n) : Universal d ↔ Universal d' := by
  unfold Universal
  simp only [h]

theorem value_congr {d d' : Dict String ℂ} (h : ∀ n, coeff d n = coeff d' n) {k : String} {x : ℝ} (hx : EosValue d k x) :
    EosValue d' k x := by
  cases hx with
  | real _ hn => rw [h]; exact .real _ hn
  | re p hp => rw [h]; exact .re p hp
  | im p hp => rw [h]; exact .im p hp
  | chargedRe c hc => rw [h]; exact .chargedRe c hc
  | chargedIm c hc => rw [h]; exact .chargedIm c hc

/-- **C98, commands.** With the installed package and an EOS directory that contains the tables: `wcxf translate EOS f --output g` on a
file of the WET in the JMS basis ends with status 0, and then `wcxf2eos g --output h` ends with status 0 exactly if the
coefficients of the charged currents `b -> u l nu` in `f` are the same for electrons and muons. In this case `h` contains all
parameters, and each is the sum of its value in the tables and the contribution of the translated coefficients. The basis
EOS is assumed to list its coefficients, and the libraries to keep the document that is written. -/
theorem C98_commands (E : REnv) (p : Par) (files : List Verif.Op) (hf : ∀ op ∈ files, IsDefinition op) (T : Env)
    (hT : T.st = imported E p files) (W : World) (f g h text fmt : String) (htext : W.file f = some text) (hgf : g ≠ f) (hhg : h ≠ g)
    (w : WC) (hload : loadWC T.cd T.fl text = .ok w) (hwe : w.eft = "WET") (hwb : w.basis = "JMS")
    (P : PEnv) (hp : penv (E.wet p) w.scale none = .ok P) (hP : Admissible P) (ht : WT.jmsEos.Ready (E.wet p) P)
    (C : Dict String ℂ) (hd : w.dict T.fl = .ok C) (i b : Id) (l : List String)
    (he : (imported E p files).lookup .eft ["WET"] = .ok i) (hb : (imported E p files).lookup .basis ["WET", "EOS"] = .ok b)
    (hl : (readAllWcs (imported E p files) b).2 = .ok l) (hcov : ∀ n ∈ eosTargets, n ∈ l)
    (hfmt : IsJson fmt ∨ IsYaml fmt) (hcd : ∀ w1, w.translate T.fl T.st "EOS" none = .ok w1 → Faithful T.cd fmt (wcDoc w1))
    (sm : List JVal) (hsm : EosDir sm) (o o' : Bool) (W1 : World)
    (hW1 : W1 = W.after (wcxfMain T W (.translate "EOS" f (some g) fmt) o).1) :
    (wcxfMain T W (.translate "EOS" f (some g) fmt) o).2 = .status 0 ∧
    ((eosMain T (getSmWcs sm) W1 ⟨g, some h, none⟩ o').2.code = 0 ↔ UniversalJms C) ∧
    (UniversalJms C → ∃ t d out, getSmWcs sm = .ok t ∧ IsEosTable t ∧ jmsToEos (E.wet p) C w.scale none = .ok d ∧
      (W1.after (eosMain T (getSmWcs sm) W1 ⟨g, some h, none⟩ o').1).file h = some (T.cd.printYaml (eosDoc out)) ∧
      (Dict.keys out).Perm eosParams ∧ ∀ k x, EosValue d k x → ∃ v c, Dict.find t k = some v ∧ Central v c ∧
        Dict.find out k = some [("central", c + x), ("min", c + x), ("max", c + x)]) := by
  have hreg : ([w.eft, w.basis, "EOS"], fun p => WT.jmsEos.run (E.wet p)) ∈ translators E := by
    rw [hwe, hwb]; simp [translators, WT.run]
  obtain ⟨d, r1, r2, r3⟩ := C95_names hp hP .jmsEos ht C
  have r1' : jmsToEos (E.wet p) C w.scale none = .ok d := r1
  have h1 : w.translate T.fl T.st "EOS" none = .ok ⟨"WET", "EOS", w.scale, .obj (dict2values (nz d)), .none, []⟩ := by
    rw [hT, (C94_installed E p files hf T.fl w none).1 "EOS" _ hreg, applyFn_fresh hd r1, hwe]
  have hz : Dict.WF (nz d) := Dict.WF_filt r3
  have hbody : (Cmd.translate "EOS" f (some g) fmt).body T ((W.file f).getD "") =
      dump T.cd (WC.attrs ⟨"WET", "EOS", w.scale, .obj (dict2values (nz d)), .none, []⟩) fmt "" := by
    simp only [Cmd.body, htext, Option.getD_some, hload, h1]
  obtain ⟨a1, ⟨tx, w1, a2, a3, -⟩, -⟩ := command_writes T W (.translate "EOS" f (some g) fmt) o f g fmt
    rfl (by simp [htext]) rfl hgf _ _ _ (nz d) hz hbody hfmt (hcd _ h1)
  obtain ⟨tx', w'', b1, b2, b3, b4, -, b5, -, b6⟩ := C15_dump_load_wc T.cd T.fl _ ⟨by simp [Dict.WF, Dict.keys], by simp [Dict.keys]⟩
    fmt hfmt (hcd _ h1)
  have htx : tx = tx' := by
    rw [(C59_partial T W _ o f g rfl (by simp [htext]) rfl hgf).1, hbody, b1] at a2
    exact (Option.some.inj a2).symm
  subst htx
  obtain ⟨D, c1, c2, c3⟩ := b6 _ _ rfl (by unfold Dict.WF; rw [keys_dict2values]; exact hz) (C11_numbers_round_trip T.fl (nz d)).1
  have hkeys : ∀ n ∈ Dict.keys (nz d), n ∈ eosTargets := fun n hn => by
    refine r2.mem_iff.1 ?_
    obtain ⟨q, hq, rfl⟩ := List.mem_map.1 hn
    exact List.mem_map_of_mem (List.mem_of_mem_filter hq)
  have hval : validateWC T.st w'' = .ok () := by
    obtain ⟨vs', hvs⟩ := b5.obj_inv
    rw [hvs] at b5
    cases b5 with
    | obj hk _ =>
      rw [hT]
      refine ((C09_wc_validation _ _).2.1).2 ⟨i, b, vs', l, by rw [b3]; exact he, by rw [b3, b4]; exact hb, hvs, hl, fun n hn => ?_⟩
      have := hk.mem_iff.2 hn
      rw [keys_dict2values] at this
      exact hcov n (hkeys n this)
  have hco : ∀ n, coeff d n = coeff D n := fun n => by
    have := getD_nz r3 n
    rw [coeff, coeff, ← c3]
    exact this.symm
  rw [← hW1] at a2
  obtain ⟨k1, k2⟩ := C96_command T sm hsm W1 g h tx hhg a2 w'' b2 hval c1 (fun n hn => hkeys n (c2.mem_iff.2 hn)) o'
  have hu : Universal D ↔ UniversalJms C := (coeff_congr hco).symm.trans (C98_condition hp hP ht C d r1')
  refine ⟨a1, k1.trans hu, fun hj => ?_⟩
  obtain ⟨t, out, m1, m2, m3, m4, m5⟩ := k2 (hu.2 hj)
  exact ⟨t, d, out, m1, m2, r1', m3, m4, fun k x hx => m5 k x (value_congr hco hx)⟩

/-! ### Case -/

noncomputable def exEosReg : REnv := ⟨exEnv.ckm, fun _ _ => 0, exEnv.rd, fun _ b => if b = "JMS" then allJms else bernNames⟩

def exEosFiles : List Verif.Op :=
  [.newEFT "WET" [("a", .null)] [], .newBasis "WET" "EOS" [("a", .obj (eosTargets.map fun n => (n, .null)))] []]

set_option maxRecDepth 20000 in
theorem exEosFiles_defined : (imported exEosReg defaultPar exEosFiles).lookup .eft ["WET"] = .ok 32 ∧
    (imported exEosReg defaultPar exEosFiles).lookup .basis ["WET", "EOS"] = .ok 33 ∧
    (readAllWcs (imported exEosReg defaultPar exEosFiles) 33).2 = .ok eosTargets := ⟨rfl, rfl, rfl⟩

/-- Case of `C98_commands`: `VnueduLL` is 1 for electrons and `c` for muons; the second command succeeds exactly if `c = 1`. -/
example (fl : String → Option ℝ) (c : ℂ) : ∃ (T : Env) (W : World) (w : WC),
    T.st = imported exEosReg defaultPar exEosFiles ∧ W.file "f" = some "0" ∧ loadWC T.cd T.fl "0" = .ok w ∧
    w.dict T.fl = .ok [("VnueduLL_1131", 1), ("VnueduLL_2231", c)] ∧
    (wcxfMain T W (.translate "EOS" "f" (some "g") "json") false).2 = .status 0 ∧
    ((eosMain T (getSmWcs [eosFileDoc eosBtos, eosFileDoc eosBtou])
      (W.after (wcxfMain T W (.translate "EOS" "f" (some "g") "json") false).1) ⟨"g", some "h", none⟩ false).2.code = 0 ↔ c = 1) := by
  classical
  let w : WC := ⟨"WET", "JMS", 160, .obj (dict2values [("VnueduLL_1131", 1), ("VnueduLL_2231", c)]), .none, []⟩
  have hfiles : ∀ op ∈ exEosFiles, IsDefinition op := by simp [exEosFiles, IsDefinition]
  have hp : penv (exEosReg.wet defaultPar) 160 none = .ok exP := exEnv_ok
  have hd : w.dict fl = .ok [("VnueduLL_1131", 1), ("VnueduLL_2231", c)] := dict_result _ _ _ _ _
  have hj : IsJson "json" := by simp [IsJson]
  have hjson : lower "json" = "json" := by decide +kernel
  have hny : ¬ IsYaml "json" := fun h => absurd ((lower_eq_iff _ _).2 h) (by rw [hjson]; decide)
  have hready : WT.jmsEos.Ready (exEosReg.wet defaultPar) exP := by
    refine ⟨?_, exP_masses⟩
    have : (exEosReg.wet defaultPar).jms = allJms := by simp [REnv.wet, exEosReg]
    rw [this]
    exact allJms_listing
  let res := w.translate fl (imported exEosReg defaultPar exEosFiles) "EOS" none
  let cd : Codec := ⟨fun _ => "1", fun _ => "", fun t => if t = "0" then some (wcDoc w) else match res with
    | .ok w1 => some (wcDoc w1)
    | .error _ => none, fun _ => none⟩
  obtain ⟨T, hTc, hTf, hTs⟩ : ∃ T : Env, T.cd = cd ∧ T.fl = fl ∧ T.st = imported exEosReg defaultPar exEosFiles :=
    ⟨⟨cd, fl, fun _ => .ok true, _⟩, rfl, rfl, rfl⟩
  have l0 : loadWC cd fl "0" = .ok w := rfl
  obtain ⟨h1, h2, -⟩ := C98_commands exEosReg defaultPar exEosFiles hfiles T hTs
    ⟨fun q => if q = "f" then some "0" else none, fun _ => false⟩ "f" "g" "h" "0" "json" (by simp) (by decide) (by decide) w
    (by rw [hTc, hTf]; exact l0) rfl rfl exP hp exP_admissible hready _ (by rw [hTf]; exact hd) _ _ _ exEosFiles_defined.1
    exEosFiles_defined.2.1 exEosFiles_defined.2.2 (fun n hn => hn) (.inl hj) (fun w2 hw2 => by
      rw [hTf, hTs] at hw2
      have hres : res = .ok w2 := hw2
      rw [hTc]
      exact ⟨fun _ => ⟨_, Same.refl _, .inl (by simp [cd, hres])⟩, fun hy => absurd hy hny⟩)
    [eosFileDoc eosBtos, eosFileDoc eosBtou] ⟨[], by simp, List.Perm.refl _⟩ false false _ rfl
  refine ⟨T, _, w, hTs, by simp, by rw [hTc, hTf]; exact l0, by rw [hTf]; exact hd, h1, h2.trans ?_⟩
  constructor
  · intro h
    have := h ("VnueduLL", "cVL") (by simp [jmsCharged])
    have n1 : "VnueduLL" ++ "_1131" = "VnueduLL_1131" := by decide +kernel
    have n2 : "VnueduLL" ++ "_2231" = "VnueduLL_2231" := by decide +kernel
    simpa [n1, n2, coeff, Dict.find, eq_comm] using this
  · rintro rfl k hk
    have : ∀ k ∈ jmsCharged, (k.1 = "VnueduLL" ∨
      ("VnueduLL_1131" ≠ k.1 ++ "_1131" ∧ "VnueduLL_2231" ≠ k.1 ++ "_1131" ∧
       "VnueduLL_1131" ≠ k.1 ++ "_2231" ∧ "VnueduLL_2231" ≠ k.1 ++ "_2231")) := by decide +kernel
    rcases this k hk with h | ⟨h1, h2, h3, h4⟩
    · rw [h]
      have n1 : "VnueduLL" ++ "_1131" = "VnueduLL_1131" := by decide +kernel
      have n2 : "VnueduLL" ++ "_2231" = "VnueduLL_2231" := by decide +kernel
      simp [n1, n2, coeff, Dict.find]
    · simp [coeff, Dict.find, h1, h2, h3, h4]

end Verif
