import Verif.Props.Targets
import Verif.Props.MatchComp

/-! C97: in the installed package, matching at flavour thresholds commutes with translation, on objects and through files. -/

set_option autoImplicit false

namespace Verif

open Spec

/-- The same coefficients, in the same basis at the same scale. -/
def Spec.SameWC (fl : String → Option ℝ) (w w' : WC) : Prop :=
  w.eft = w'.eft ∧ w.basis = w'.basis ∧ w.scale = w'.scale ∧ ∃ C C', w.dict fl = .ok C ∧ w'.dict fl = .ok C' ∧
    Dict.WF C ∧ Dict.WF C' ∧ ∀ k, Dict.find C k = Dict.find C' k

/-- The names of the target basis of a theory with active fields `act` only. -/
def WT.TargetWithin (t : WT) (act : Kind × Fin 3 → Bool) (M : List String) : Prop :=
  ∀ n ∈ t.targets, ∀ f, t.outFlavour n = some f → (n ∈ M ↔ f.Within act)

theorem find_nz {d : Dict String ℂ} (h : Dict.WF d) (n : String) :
    Dict.find (nz d) n = if Dict.getD d n 0 = 0 then none else some (Dict.getD d n 0) := by
  have hz := getD_nz h n
  split_ifs with h0
  · refine Dict.find_eq_none_iff.2 fun hn => mem_nz h hn h0
  · cases hf : Dict.find (nz d) n with
    | none =>
      rw [Dict.getD, hf] at hz
      exact absurd hz.symm h0
    | some z =>
      rw [Dict.getD, hf] at hz
      rw [← hz]; rfl

theorem getD_filt_keys {d : Dict String ℂ} (L L' : List String) (h : ∀ n ∈ Dict.keys d, n ∈ L ↔ n ∈ L') (n : String) :
    Dict.getD (Dict.filt (fun k _ => decide (k ∈ L)) d) n 0 = Dict.getD (Dict.filt (fun k _ => decide (k ∈ L')) d) n 0 := by
  rw [find_restrict, find_restrict]
  by_cases hn : n ∈ Dict.keys d
  · simp only [h n hn]
  · have : Dict.getD d n 0 = 0 := by rw [Dict.getD, Dict.find_eq_none_iff.2 hn]; rfl
    rw [this, ite_self, ite_self]

/-- The square on coefficients, without hypothesis on the names that the translator returns. -/
theorem threshold_square {E : WEnv} {P : PEnv} {scale : ℝ} {par par' : Option Par} (hp : penv E scale par = .ok P) (hP : Admissible P)
    (t : WT) (ht : t.Ready E P) (hφ : t = .jmsFlavio ∨ t = .jmsBern ∨ t = .bernFlavio ∨ t = .flavioBern)
    (act : Kind × Fin 3 → Bool) {L L' M' : List String} (hL : t.SourceBelow act L L') (hM : t.TargetWithin act M')
    (C : Dict String ℂ) (hC : ∀ n ∈ Dict.keys C, n ∈ L) :
    ∃ d e e' D, t.run E C scale par = .ok d ∧ restrictTo M' d scale par' = .ok e ∧
      restrictTo L' C scale par' = .ok D ∧ t.run E D scale par = .ok e' ∧ Dict.WF d ∧ Dict.WF e ∧ Dict.WF e' ∧
      ∀ n, Dict.getD e n 0 = Dict.getD e' n 0 := by
  obtain ⟨d, h1, h2, h3⟩ := C95_names hp hP t ht C
  have hM' : t.TargetBelow act t.targets (t.targets.filter fun n => decide (n ∈ M')) := by
    intro n f hf
    rw [List.mem_filter, decide_eq_true_iff]
    exact and_congr_right fun hn => hM n hn f hf
  obtain ⟨d', e, e', D, a1, a2, a3, a4, a5⟩ := C77_threshold hp hP t ht hφ act hL hM' C hC (fun d' hd' n hn => by
    obtain rfl := Except.ok.inj (h1.symm.trans hd')
    exact h2.mem_iff.1 hn)
  obtain rfl := Except.ok.inj (h1.symm.trans a1)
  obtain ⟨e'', b1, -, b3⟩ := C95_names hp hP t ht D
  obtain rfl := Except.ok.inj (a4.symm.trans b1)
  refine ⟨d, _, e', D, h1, rfl, a3, a4, h3, Dict.WF_filt h3, b3, fun n => ?_⟩
  rw [← a5 n]
  obtain rfl := Except.ok.inj a2
  refine getD_filt_keys _ _ (fun n hn => ?_) n
  rw [List.mem_filter, decide_eq_true_iff]
  exact ⟨fun h => ⟨h2.mem_iff.1 hn, h⟩, fun h => h.2⟩

theorem applyFn_fresh {fl : String → Option ℝ} {fn : Fn} {e b : String} {w : WC} {par : Option Par} {C d : Dict String ℂ}
    (h : w.dict fl = .ok C) (hd : fn C w.scale par = .ok d) :
    applyFn fl fn e b w par = .ok ⟨e, b, w.scale, .obj (dict2values (nz d)), .none, []⟩ := by
  rw [applyFn_eq, h]
  change (fn C w.scale par).bind _ = _
  rw [hd]; rfl

/-- **C97, objects.** In the installed package: let `A` and `B` be two bases of a theory between which there is a translator, and let the
theory `e'` have the fields `act` of this theory only. Translating to `B` and then matching to `e'` gives the same coefficients,
with the same names, as matching to `e'` and then translating to `B`. The intermediate objects may be replaced by any objects
with the same coefficients. -/
theorem C97_objects (E : REnv) (p : Par) (files : List Verif.Op) (hf : ∀ op ∈ files, IsDefinition op) (fl : String → Option ℝ)
    (w : WC) (par par1 par2 : Option Par) (e' A B : String) (hA : w.basis = A) (t : WT)
    (hφ : t = .jmsFlavio ∨ t = .jmsBern ∨ t = .bernFlavio ∨ t = .flavioBern) (L' M' : List String)
    (ht1 : ([w.eft, A, B], fun p => t.run (E.wet p)) ∈ translators E) (ht2 : ([e', A, B], fun p => t.run (E.wet p)) ∈ translators E)
    (hm1 : ([w.eft, A, e', A], fun _ => restrictTo L') ∈ matchers E) (hm2 : ([w.eft, B, e', B], fun _ => restrictTo M') ∈ matchers E)
    (P : PEnv) (hp : penv (E.wet p) w.scale par = .ok P) (hP : Admissible P) (ht : t.Ready (E.wet p) P)
    (act : Kind × Fin 3 → Bool) (L : List String) (hL : t.SourceBelow act L L') (hM : t.TargetWithin act M')
    (C : Dict String ℂ) (hd : w.dict fl = .ok C) (hw : Dict.WF C) (hC : ∀ n ∈ Dict.keys C, n ∈ L) :
    ∃ v1 u1 : WC, w.translate fl (imported E p files) B par = .ok v1 ∧ w.matchTo fl (imported E p files) e' A par1 = .ok u1 ∧
      v1.eft = w.eft ∧ v1.basis = B ∧ u1.eft = e' ∧ u1.basis = A ∧ SameWC fl v1 v1 ∧ SameWC fl u1 u1 ∧
      ∀ v1' u1', SameWC fl v1 v1' → SameWC fl u1 u1' →
        ∃ v2 u2, v1'.matchTo fl (imported E p files) e' B par2 = .ok v2 ∧ u1'.translate fl (imported E p files) B par = .ok u2 ∧
          v2.eft = e' ∧ v2.basis = B ∧ SameWC fl v2 u2 := by
  obtain ⟨d, e, f, D, a1, a2, a3, a4, a5, a6, a7, a8⟩ := threshold_square (par' := par1) hp hP t ht hφ act hL hM C hC
  have hD : Dict.WF D := by obtain rfl := Except.ok.inj a3; exact Dict.WF_filt hw
  have hI := fun (w : WC) (par : Option Par) => C94_installed E p files hf fl w par
  refine ⟨⟨w.eft, B, w.scale, .obj (dict2values (nz d)), .none, []⟩, ⟨e', A, w.scale, .obj (dict2values (nz D)), .none, []⟩, ?_, ?_,
    rfl, rfl, rfl, rfl, ⟨rfl, rfl, rfl, _, _, dict_result .., dict_result .., Dict.WF_filt a5, Dict.WF_filt a5, fun _ => rfl⟩,
    ⟨rfl, rfl, rfl, _, _, dict_result .., dict_result .., Dict.WF_filt hD, Dict.WF_filt hD, fun _ => rfl⟩, ?_⟩
  · rw [(hI w par).1 B _ (by rw [hA]; exact ht1)]
    exact applyFn_fresh hd a1
  · rw [(hI w par1).2.2.1 e' A _ (by rw [hA]; exact hm1)]
    exact applyFn_fresh hd a3
  · rintro v1 u1 ⟨v2, v3, v4, d1, d1', v5, v6, -, v7, v8⟩ ⟨u2, u3, u4, D1, D1', u5, u6, -, u7, u8⟩
    obtain rfl := Except.ok.inj ((dict_result ..).symm.trans v5)
    obtain rfl := Except.ok.inj ((dict_result ..).symm.trans u5)
    dsimp only at v2 v3 v4 u2 u3 u4
    have hrun : t.run (E.wet p) D1' u1.scale par = .ok f := by
      rw [← u4, ← a4]
      refine C44_absent_zero _ t _ _ _ _ fun k => ?_
      rw [← getD_nz hD k, Dict.getD, Dict.getD, u8]
    have h1 : v1.matchTo fl (imported E p files) e' B par2 =
        .ok ⟨e', B, v1.scale, .obj (dict2values (nz (Dict.filt (fun k _ => decide (k ∈ M')) d1'))), .none, []⟩ := by
      rw [(hI v1 par2).2.2.1 e' B _ (by rw [← v2, ← v3]; exact hm2)]
      exact applyFn_fresh v6 rfl
    have h2 : u1.translate fl (imported E p files) B par =
        .ok ⟨u1.eft, B, u1.scale, .obj (dict2values (nz f)), .none, []⟩ := by
      rw [(hI u1 par).1 B _ (by rw [← u2, ← u3]; exact ht2)]
      exact applyFn_fresh u6 hrun
    refine ⟨_, _, h1, h2, rfl, rfl, u2, rfl, v4.symm.trans u4, _, _, dict_result .., dict_result .., Dict.WF_filt (Dict.WF_filt v7),
      Dict.WF_filt a7, fun k => ?_⟩
    have hval : Dict.getD (Dict.filt (fun k _ => decide (k ∈ M')) d1') k 0 = Dict.getD f k 0 := by
      rw [← a8 k]
      obtain rfl := Except.ok.inj a2
      rw [find_restrict, find_restrict]
      rw [← getD_nz a5 k, Dict.getD, Dict.getD, v8]
    rw [find_nz (Dict.WF_filt v7), find_nz a7, hval]

/-- A command that writes the object `v` leaves a file that is read as the same object. -/
theorem command_same (T : Env) (W : World) (c : Cmd) (o : Bool) (f g fmt : String) (hf : c.file = some f) (hr : (W.file f).isSome)
    (ho : c.output = some g) (hne : g ≠ f) (v : WC)
    (hv : ∃ e b s C, v = ⟨e, b, s, .obj (dict2values C), .none, []⟩ ∧ Dict.WF C)
    (hbody : c.body T ((W.file f).getD "") = dump T.cd v.attrs fmt "") (hfmt : IsJson fmt ∨ IsYaml fmt)
    (hcd : Faithful T.cd fmt (wcDoc v)) :
    (wcxfMain T W c o).2 = .status 0 ∧ ∃ t v', (W.after (wcxfMain T W c o).1).file g = some t ∧ loadWC T.cd T.fl t = .ok v' ∧
      SameWC T.fl v v' := by
  obtain ⟨e, b, s, C, rfl, hw⟩ := hv
  obtain ⟨a1, ⟨t, w', a2, a3, a4, a5, a6, C', a7, a8, a9⟩, -⟩ := command_writes T W c o f g fmt hf hr ho hne e b s C hw hbody hfmt hcd
  exact ⟨a1, t, w', a2, a3, a4.symm, a5.symm, a6.symm, C, C', dict_result .., a7, hw, a8, a9⟩

/-- What `translate` and `match` return. -/
theorem fresh_of_applyFn {fl : String → Option ℝ} {fn : Fn} {e b : String} {w v : WC} {par : Option Par}
    (h : applyFn fl fn e b w par = .ok v) (hs : ∃ C C', v.dict fl = .ok C ∧ v.dict fl = .ok C' ∧ Dict.WF C) :
    ∃ e b s C, v = ⟨e, b, s, .obj (dict2values C), .none, []⟩ ∧ Dict.WF C := by
  obtain ⟨d, out, -, -, rfl⟩ := applyFn_inv h
  obtain ⟨C, -, h1, -, h2⟩ := hs
  obtain rfl := Except.ok.inj ((dict_result ..).symm.trans h1)
  exact ⟨_, _, _, _, rfl, h2⟩

theorem fresh_translate {fl : String → Option ℝ} {st : Store} {w v v' : WC} {b : String} {par : Option Par}
    (h : w.translate fl st b par = .ok v) (hs : SameWC fl v v' ∨ SameWC fl v' v) :
    ∃ e b s C, v = ⟨e, b, s, .obj (dict2values C), .none, []⟩ ∧ Dict.WF C := by
  have : ∃ C, v.dict fl = .ok C ∧ Dict.WF C := by
    rcases hs with ⟨-, -, -, C, C', h1, h2, h3, h4, -⟩ | ⟨-, -, -, C, C', h1, h2, h3, h4, -⟩
    · exact ⟨C, h1, h3⟩
    · exact ⟨C', h2, h4⟩
  obtain ⟨C, h1, h2⟩ := this
  unfold WC.translate at h
  split at h
  · cases h
  · split at h
    · exact fresh_of_applyFn h ⟨C, C, h1, h1, h2⟩
    · cases h

theorem fresh_matchTo {fl : String → Option ℝ} {st : Store} {w v v' : WC} {e b : String} {par : Option Par}
    (h : w.matchTo fl st e b par = .ok v) (hs : SameWC fl v v') :
    ∃ e b s C, v = ⟨e, b, s, .obj (dict2values C), .none, []⟩ ∧ Dict.WF C := by
  obtain ⟨-, -, -, C, C', h1, h2, h3, h4, -⟩ := hs
  unfold WC.matchTo at h
  split at h
  · cases h
  · split at h
    · exact fresh_of_applyFn h ⟨C, C, h1, h1, h3⟩
    · cases h

theorem SameWC.trans {fl : String → Option ℝ} {a b c : WC} (h : SameWC fl a b) (h' : SameWC fl b c) : SameWC fl a c := by
  obtain ⟨h1, h2, h3, C, C', h4, h5, h6, h7, h8⟩ := h
  obtain ⟨k1, k2, k3, D, D', k4, k5, k6, k7, k8⟩ := h'
  obtain rfl := Except.ok.inj (h5.symm.trans k4)
  exact ⟨h1.trans k1, h2.trans k2, h3.trans k3, C, D', h4, k5, h6, k7, fun k => (h8 k).trans (k8 k)⟩

theorem SameWC.symm {fl : String → Option ℝ} {a b : WC} (h : SameWC fl a b) : SameWC fl b a := by
  obtain ⟨h1, h2, h3, C, C', h4, h5, h6, h7, h8⟩ := h
  exact ⟨h1.symm, h2.symm, h3.symm, C', C, h5, h4, h7, h6, fun k => (h8 k).symm⟩

/-- **C97, files.** With the installed package, `wcxf translate B f --output g`, `wcxf match e' B g --output h` and `wcxf match e' A f
--output g'`, `wcxf translate B g' --output h'` all end with status 0, and `h` and `h'` contain the same coefficients. The
libraries are assumed to keep the four documents that are written. -/
theorem C97_files (E : REnv) (p : Par) (files : List Verif.Op) (hf : ∀ op ∈ files, IsDefinition op) (T : Env)
    (hT : T.st = imported E p files) (W : World) (f g h g' h' text : String) (htext : W.file f = some text) (hgf : g ≠ f)
    (hhg : h ≠ g) (hgf' : g' ≠ f) (hhg' : h' ≠ g') (w : WC) (hload : loadWC T.cd T.fl text = .ok w) (e' A B : String)
    (hA : w.basis = A) (t : WT) (hφ : t = .jmsFlavio ∨ t = .jmsBern ∨ t = .bernFlavio ∨ t = .flavioBern) (L' M' : List String)
    (ht1 : ([w.eft, A, B], fun p => t.run (E.wet p)) ∈ translators E) (ht2 : ([e', A, B], fun p => t.run (E.wet p)) ∈ translators E)
    (hm1 : ([w.eft, A, e', A], fun _ => restrictTo L') ∈ matchers E) (hm2 : ([w.eft, B, e', B], fun _ => restrictTo M') ∈ matchers E)
    (P : PEnv) (hp : penv (E.wet p) w.scale none = .ok P) (hP : Admissible P) (ht : t.Ready (E.wet p) P)
    (act : Kind × Fin 3 → Bool) (L : List String) (hL : t.SourceBelow act L L') (hM : t.TargetWithin act M')
    (C : Dict String ℂ) (hd : w.dict T.fl = .ok C) (hw : Dict.WF C) (hC : ∀ n ∈ Dict.keys C, n ∈ L)
    (fmt : String) (hfmt : IsJson fmt ∨ IsYaml fmt) (o1 o2 o3 o4 : Bool) (W1 W2 U1 U2 : World)
    (hW1 : W1 = W.after (wcxfMain T W (.translate B f (some g) fmt) o1).1)
    (hW2 : W2 = W1.after (wcxfMain T W1 (.matchTo e' B g (some h) fmt) o2).1)
    (hU1 : U1 = W.after (wcxfMain T W (.matchTo e' A f (some g') fmt) o3).1)
    (hU2 : U2 = U1.after (wcxfMain T U1 (.translate B g' (some h') fmt) o4).1)
    (hcd1 : ∀ v, w.translate T.fl T.st B none = .ok v → Faithful T.cd fmt (wcDoc v))
    (hcd2 : ∀ x v1 v, W1.file g = some x → loadWC T.cd T.fl x = .ok v1 → v1.matchTo T.fl T.st e' B none = .ok v →
      Faithful T.cd fmt (wcDoc v))
    (hcd3 : ∀ v, w.matchTo T.fl T.st e' A none = .ok v → Faithful T.cd fmt (wcDoc v))
    (hcd4 : ∀ x u1 u, U1.file g' = some x → loadWC T.cd T.fl x = .ok u1 → u1.translate T.fl T.st B none = .ok u →
      Faithful T.cd fmt (wcDoc u)) :
    (wcxfMain T W (.translate B f (some g) fmt) o1).2 = .status 0 ∧
    (wcxfMain T W1 (.matchTo e' B g (some h) fmt) o2).2 = .status 0 ∧
    (wcxfMain T W (.matchTo e' A f (some g') fmt) o3).2 = .status 0 ∧
    (wcxfMain T U1 (.translate B g' (some h') fmt) o4).2 = .status 0 ∧
    ∃ x y v u, W2.file h = some x ∧ U2.file h' = some y ∧ loadWC T.cd T.fl x = .ok v ∧ loadWC T.cd T.fl y = .ok u ∧
      v.eft = e' ∧ v.basis = B ∧ SameWC T.fl v u := by
  obtain ⟨v1, u1, k1, k2, -, -, -, -, k3, k4, k5⟩ := C97_objects E p files hf T.fl w none none none e' A B hA t hφ L' M' ht1 ht2 hm1 hm2 P hp hP ht
    act L hL hM C hd hw hC
  rw [← hT] at k1 k2 k5
  obtain ⟨a1, x1, v1', a2, a3, a4⟩ := command_same T W (.translate B f (some g) fmt) o1 f g fmt rfl (by simp [htext]) rfl hgf v1
    (fresh_translate k1 (.inl k3)) (by simp only [Cmd.body, htext, Option.getD_some, hload, k1]) hfmt (hcd1 _ k1)
  obtain ⟨b1, y1, u1', b2, b3, b4⟩ := command_same T W (.matchTo e' A f (some g') fmt) o3 f g' fmt rfl (by simp [htext]) rfl hgf' u1
    (fresh_matchTo k2 k4) (by simp only [Cmd.body, htext, Option.getD_some, hload, k2]) hfmt (hcd3 _ k2)
  rw [← hW1] at a2
  rw [← hU1] at b2
  obtain ⟨v2, u2, l1, l2, l3, l4, l5⟩ := k5 v1' u1' a4 b4
  obtain ⟨c1, x2, v2', c2, c3, c4⟩ := command_same T W1 (.matchTo e' B g (some h) fmt) o2 g h fmt rfl (by simp [a2]) rfl hhg v2
    (fresh_matchTo l1 l5) (by simp only [Cmd.body, a2, Option.getD_some, a3, l1]) hfmt (hcd2 _ _ _ a2 a3 l1)
  obtain ⟨d1, y2, u2', d2, d3, d4⟩ := command_same T U1 (.translate B g' (some h') fmt) o4 g' h' fmt rfl (by simp [b2]) rfl hhg' u2
    (fresh_translate l2 (.inr l5)) (by simp only [Cmd.body, b2, Option.getD_some, b3, l2]) hfmt (hcd4 _ _ _ b2 b3 l2)
  rw [← hW2] at c2
  rw [← hU2] at d2
  exact ⟨a1, c1, b1, d1, x2, y2, v2', u2', c2, d2, c3, d3, c4.1.symm.trans l3, c4.2.1.symm.trans l4,
    SameWC.trans (SameWC.symm c4) (SameWC.trans l5 d4)⟩

/-- **C97, registrations.** The hypotheses on the registries hold for both thresholds and the four translations. -/
theorem C97_registered (E : REnv) : ∀ x ∈ [("WET", "WET-4"), ("WET-4", "WET-3")],
    ∀ y ∈ [(WT.jmsFlavio, "JMS", "flavio"), (.jmsBern, "JMS", "Bern"), (.bernFlavio, "Bern", "flavio"), (.flavioBern, "flavio", "Bern")],
    ([x.1, y.2.1, y.2.2], fun p => y.1.run (E.wet p)) ∈ translators E ∧ ([x.2, y.2.1, y.2.2], fun p => y.1.run (E.wet p)) ∈ translators E ∧
    ([x.1, y.2.1, x.2, y.2.1], fun _ => restrictTo (E.all x.2 y.2.1)) ∈ matchers E ∧
    ([x.1, y.2.2, x.2, y.2.2], fun _ => restrictTo (E.all x.2 y.2.2)) ∈ matchers E := by
  intro x hx y hy
  simp only [List.mem_cons, List.not_mem_nil, or_false] at hx hy
  rcases hx with rfl | rfl <;> rcases hy with rfl | rfl | rfl | rfl <;> simp [translators, matchers, WT.run]

/-! ### Cases -/

def bern4 : List String := bernNames.filter fun n => match bernFlavour n with
  | some f => decide (f.Within noBottom)
  | none => false

def flavioTargets4 : List String := flavioTargets.filter fun n => match flavioFlavour n with
  | some f => decide (f.Within noBottom)
  | none => false

noncomputable def exFour : REnv := ⟨exEnv.ckm, fun _ _ => 0, exEnv.rd,
  fun e b => if e = "WET-4" then if b = "Bern" then bern4 else flavioTargets4 else bernNames⟩

theorem bern4_below : WT.bernFlavio.SourceBelow noBottom bernNames bern4 := by
  intro n f hf
  change bernFlavour n = some f at hf
  unfold bern4
  rw [List.mem_filter, hf]
  simp

theorem flavioTargets4_within : WT.bernFlavio.TargetWithin noBottom flavioTargets4 := by
  intro n hn f hf
  change flavioFlavour n = some f at hf
  unfold flavioTargets4
  rw [List.mem_filter, hf]
  simp only [decide_eq_true_eq, and_iff_right_iff_imp]
  exact fun _ => hn

/-- Case of `C97_objects` and `C97_files`: a coefficient with and one without bottom quarks, from Bern to flavio and to WET-4. -/
example (fl : String → Option ℝ) : ∃ (T : Env) (W : World) (w v u : WC) (x y : String),
    T.st = imported exFour defaultPar [] ∧ W.file "f" = some "0" ∧ loadWC T.cd T.fl "0" = .ok w ∧
    w.dict T.fl = .ok [("1dsds", 1), ("1sbsb", 2)] ∧
    let W1 := W.after (wcxfMain T W (.translate "flavio" "f" (some "g") "json") false).1
    let U1 := W.after (wcxfMain T W (.matchTo "WET-4" "Bern" "f" (some "g") "json") false).1
    (W1.after (wcxfMain T W1 (.matchTo "WET-4" "flavio" "g" (some "h") "json") false).1).file "h" = some x ∧
    (U1.after (wcxfMain T U1 (.translate "flavio" "g" (some "h") "json") false).1).file "h" = some y ∧
    loadWC T.cd T.fl x = .ok v ∧ loadWC T.cd T.fl y = .ok u ∧ v.eft = "WET-4" ∧ v.basis = "flavio" ∧ SameWC T.fl v u := by
  classical
  let w : WC := ⟨"WET", "Bern", 160, .obj (dict2values [("1dsds", 1), ("1sbsb", 2)]), .none, []⟩
  have hp : penv (exFour.wet defaultPar) 160 none = .ok exP := exEnv_ok
  have hd : w.dict fl = .ok [("1dsds", 1), ("1sbsb", 2)] := dict_result _ _ _ _ _
  have hwf : Dict.WF [("1dsds", (1 : ℂ)), ("1sbsb", 2)] := by simp [Dict.WF, Dict.keys]
  have hC : ∀ n ∈ Dict.keys [("1dsds", (1 : ℂ)), ("1sbsb", 2)], n ∈ bernNames := by
    have : ∀ n ∈ ["1dsds", "1sbsb"], n ∈ bernNames := by decide +kernel
    exact this
  obtain ⟨r1, r2, r3, r4⟩ := C97_registered exFour ("WET", "WET-4") (by simp) (.bernFlavio, "Bern", "flavio") (by simp)
  have e3 : exFour.all "WET-4" "Bern" = bern4 := by simp [exFour]
  have e4 : exFour.all "WET-4" "flavio" = flavioTargets4 := by simp [exFour]
  dsimp only at r1 r2 r3 r4
  rw [e3] at r3
  rw [e4] at r4
  obtain ⟨v1, u1, h1, h2, i1, i2, i3, i4, s1, s2, hback⟩ := C97_objects exFour defaultPar [] (by simp) fl w none none none "WET-4" "Bern"
    "flavio" rfl .bernFlavio (by simp) bern4 flavioTargets4 r1 r2 r3 r4 exP hp exP_admissible (fun k hk => hk) noBottom bernNames
    bern4_below flavioTargets4_within _ hd hwf hC
  obtain ⟨v2, u2, h3, h4, i5, i6, s3⟩ := hback v1 u1 s1 s2
  obtain ⟨ev1, bv1, sv1, Cv1, rfl, -⟩ := fresh_translate h1 (.inl s1)
  obtain ⟨eu1, bu1, su1, Cu1, rfl, -⟩ := fresh_matchTo h2 s2
  obtain ⟨ev2, bv2, sv2, Cv2, rfl, -⟩ := fresh_matchTo h3 s3
  obtain ⟨eu2, bu2, su2, Cu2, rfl, -⟩ := fresh_translate h4 (.inr s3)
  dsimp only at i1 i2 i3 i4 i5 i6
  have j1 := s3.1
  have j2 := s3.2.1
  dsimp only at j1 j2
  subst i1 i2 i3 i4 i5 i6 j1 j2
  generalize hv1 : (⟨w.eft, "flavio", sv1, .obj (dict2values Cv1), .none, []⟩ : WC) = v1 at *
  generalize hu1 : (⟨"WET-4", "Bern", su1, .obj (dict2values Cu1), .none, []⟩ : WC) = u1 at *
  generalize hv2 : (⟨"WET-4", "flavio", sv2, .obj (dict2values Cv2), .none, []⟩ : WC) = v2 at *
  generalize hu2 : (⟨"WET-4", "flavio", su2, .obj (dict2values Cu2), .none, []⟩ : WC) = u2 at *
  have n21 : wcDoc v2 ≠ wcDoc v1 := by rw [← hv1, ← hv2]; simp [wcDoc, w]
  have n23 : wcDoc v2 ≠ wcDoc u1 := by rw [← hu1, ← hv2]; simp [wcDoc]
  have n31 : wcDoc u1 ≠ wcDoc v1 := by rw [← hv1, ← hu1]; simp [wcDoc, w]
  have n41 : wcDoc u2 ≠ wcDoc v1 := by rw [← hv1, ← hu2]; simp [wcDoc, w]
  have n43 : wcDoc u2 ≠ wcDoc u1 := by rw [← hu1, ← hu2]; simp [wcDoc]
  let cd : Codec := ⟨fun j => if j = wcDoc v1 then "1" else if j = wcDoc u1 then "3" else if j = wcDoc v2 then "2" else "4", fun _ => "",
    fun t => some (if t = "0" then wcDoc w else if t = "1" then wcDoc v1 else if t = "3" then wcDoc u1 else if t = "2" then wcDoc v2
      else wcDoc u2), fun _ => none⟩
  obtain ⟨T, hTc, hTf, hTs⟩ : ∃ T : Env, T.cd = cd ∧ T.fl = fl ∧ T.st = imported exFour defaultPar [] :=
    ⟨⟨cd, fl, fun _ => .ok true, _⟩, rfl, rfl, rfl⟩
  let W : World := ⟨fun q => if q = "f" then some "0" else none, fun _ => false⟩
  have l0 : loadWC cd fl "0" = .ok w := rfl
  have l1 : loadWC cd fl "1" = .ok v1 := by subst hv1; rfl
  have l3 : loadWC cd fl "3" = .ok u1 := by subst hu1; rfl
  have hjson : lower "json" = "json" := by decide +kernel
  have hj : IsJson "json" := by simp [IsJson]
  have hny : ¬ IsYaml "json" := fun h => absurd ((lower_eq_iff _ _).2 h) (by rw [hjson]; decide)
  have dump1 : dump cd v1.attrs "json" "" = ("1", .ok ()) := by
    rw [wc_dump cd v1 _ _ (by rw [← hv1]; simp [Dict.keys]), if_pos hjson]; simp [cd]
  have dump3 : dump cd u1.attrs "json" "" = ("3", .ok ()) := by
    rw [wc_dump cd u1 _ _ (by rw [← hu1]; simp [Dict.keys]), if_pos hjson]; simp [cd, n31]
  have g1 : (W.after (wcxfMain T W (.translate "flavio" "f" (some "g") "json") false).1).file "g" = some "1" := by
    rw [(C59_partial T W _ false "f" "g" rfl (by simp [W]) rfl (by decide)).1]
    have : (W.file "f").getD "" = "0" := by simp [W]
    rw [this]
    simp only [Cmd.body, hTc, hTf, hTs, l0, h1, dump1]
  have g3 : (W.after (wcxfMain T W (.matchTo "WET-4" "Bern" "f" (some "g") "json") false).1).file "g" = some "3" := by
    rw [(C59_partial T W _ false "f" "g" rfl (by simp [W]) rfl (by decide)).1]
    have : (W.file "f").getD "" = "0" := by simp [W]
    rw [this]
    simp only [Cmd.body, hTc, hTf, hTs, l0, h2, dump3]
  have f1 : Faithful cd "json" (wcDoc v1) := ⟨fun _ => ⟨_, Same.refl _, .inl (by simp [cd])⟩, fun hy => absurd hy hny⟩
  have f3 : Faithful cd "json" (wcDoc u1) := ⟨fun _ => ⟨_, Same.refl _, .inl (by simp [cd, n31])⟩, fun hy => absurd hy hny⟩
  have f2 : Faithful cd "json" (wcDoc v2) := ⟨fun _ => ⟨_, Same.refl _, .inl (by simp [cd, n21, n23])⟩, fun hy => absurd hy hny⟩
  have f4 : Faithful cd "json" (wcDoc u2) := by
    refine ⟨fun _ => ⟨_, Same.refl _, .inl ?_⟩, fun hy => absurd hy hny⟩
    by_cases h : wcDoc u2 = wcDoc v2
    · rw [h]; simp [cd, n21, n23]
    · simp [cd, n41, n43, h]
  obtain ⟨-, -, -, -, x, y, v, u, a1, a2, a3, a4, a5, a6, a7⟩ := C97_files exFour defaultPar [] (by simp) T hTs W "f" "g" "h" "g" "h" "0" (by simp [W])
    (by decide) (by decide) (by decide) (by decide) w (by rw [hTc, hTf]; exact l0) "WET-4" "Bern" "flavio" rfl .bernFlavio (by simp)
    bern4 flavioTargets4 r1 r2 r3 r4 exP hp exP_admissible (fun k hk => hk) noBottom bernNames bern4_below flavioTargets4_within _
    (by rw [hTf]; exact hd) hwf hC "json" (.inl hj) false false false false _ _ _ _ rfl rfl rfl rfl
    (fun v hv => by
      rw [hTf, hTs] at hv
      obtain rfl := Except.ok.inj (h1.symm.trans hv)
      rw [hTc]; exact f1)
    (fun x v' v hx hl hv => by
      rw [g1] at hx
      obtain rfl := Option.some.inj hx
      rw [hTc, hTf] at hl
      obtain rfl := Except.ok.inj (l1.symm.trans hl)
      rw [hTf, hTs] at hv
      obtain rfl := Except.ok.inj (h3.symm.trans hv)
      rw [hTc]; exact f2)
    (fun v hv => by
      rw [hTf, hTs] at hv
      obtain rfl := Except.ok.inj (h2.symm.trans hv)
      rw [hTc]; exact f3)
    (fun x v' v hx hl hv => by
      rw [g3] at hx
      obtain rfl := Option.some.inj hx
      rw [hTc, hTf] at hl
      obtain rfl := Except.ok.inj (l3.symm.trans hl)
      rw [hTf, hTs] at hv
      obtain rfl := Except.ok.inj (h4.symm.trans hv)
      rw [hTc]; exact f4)
  exact ⟨T, W, w, v, u, x, y, hTs, by simp [W], by rw [hTc, hTf]; exact l0, by rw [hTf]; exact hd, a1, a2, a3, a4, a5, a6, a7⟩

end Verif
