import Verif.Lemmas.SerialLemmas
import Verif.Lemmas.BasisLemmas
import Verif.Props.Basis
import Verif.Spec.Files

/-!
C15–C19 and C56: writing and reading files.
-/

set_option autoImplicit false

namespace Verif

open Spec

theorem lower_eq_iff (fmt s : String) : lower fmt = s ↔ fmt.toList.map Char.toLower = s.toList := by
  unfold lower
  rw [← String.toList_inj]
  simp

theorem isPublic_iff (k : String) : isPublic k = true ↔ ¬ Private k := by
  unfold isPublic Private
  cases h : k.toList <;> simp

theorem load_of_readsAs {cd : Codec} {t : String} {j : JVal} (h : ReadsAs cd t j) : cd.load t = .ok j := by
  unfold Codec.load
  rcases h with h | ⟨h, h'⟩
  · rw [h]
  · rw [h]; dsimp only; rw [h']

/-- Attributes with public names. -/
def Spec.publicPart (d : Dict String JVal) : Dict String JVal := d.filter fun p => isPublic p.1

theorem publicPart_wf {d : Dict String JVal} (h : Dict.WF d) : Dict.WF (publicPart d) :=
  Dict.WF_filt (c := fun k _ => isPublic k) h

/-- The document of a Wilson coefficient object: the four named fields and the public extras. -/
def Spec.wcDoc (w : WC) : JVal :=
  .obj ([("eft", .str w.eft), ("basis", .str w.basis), ("scale", .num w.scale), ("values", w.values)] ++
    publicPart w.extra)

/-- Extra attributes of an object as created from keyword arguments: distinct names, none of them a
parameter or the property `dict`; `self` and the empty name are excluded (see `WC_self_attribute`,
`WC_empty_attribute` below for what happens with them). -/
structure Spec.ExtraOk (w : WC) : Prop where
  wf : Dict.WF w.extra
  names : ∀ k ∈ Dict.keys w.extra, k ∉ ["eft", "basis", "scale", "values", "_dict", "dict", "self", ""]

theorem wc_public (w : WC) : Dict.filt (fun k _ => isPublic k) w.attrs =
    ([("eft", .str w.eft), ("basis", .str w.basis), ("scale", .num w.scale), ("values", w.values)] ++
      publicPart w.extra).map fun p => (p.1, AVal.file p.2) := by
  unfold WC.attrs
  rw [filt_append, filt_map_file, List.map_append]
  congr 1
  have h1 : isPublic "eft" = true := by decide
  have h2 : isPublic "basis" = true := by decide
  have h3 : isPublic "scale" = true := by decide
  have h4 : isPublic "values" = true := by decide
  have h5 : isPublic "_dict" = false := by decide
  simp [Dict.filt, h1, h2, h3, h4, h5]

theorem wc_noEmpty {w : WC} (h : "" ∉ Dict.keys w.extra) : "" ∉ Dict.keys w.attrs := by
  unfold WC.attrs
  rw [Dict.keys_append, keys_map_file]
  simp [h]

/-- What `dump` does for a Wilson coefficient object. -/
theorem wc_dump (cd : Codec) (w : WC) (fmt out : String) (h : "" ∉ Dict.keys w.extra) :
    dump cd w.attrs fmt out =
      if lower fmt = "json" then (out ++ cd.printJson (wcDoc w), .ok ())
      else if lower fmt = "yaml" then (out ++ cd.printYaml (wcDoc w), .ok ())
      else (out, .error (.valueError "Format unknown")) :=
  dump_of_files cd w.attrs _ fmt out (wc_noEmpty h) (wc_public w)

/-- Loading any document whose contents are those of `w`. -/
theorem load_wcDoc {cd : Codec} {fl : String → Option ℝ} {w : WC} (hw : ExtraOk w) {t : String} {j : JVal}
    (hs : Same (wcDoc w) j) (hr : ReadsAs cd t j) :
    ∃ w', loadWC cd fl t = .ok w' ∧ w'.eft = w.eft ∧ w'.basis = w.basis ∧ w'.scale = w.scale ∧
      Same w.values w'.values ∧ w'.cache = .none ∧
      (Dict.keys (publicPart w.extra)).Perm (Dict.keys w'.extra) ∧
      Same (.obj (publicPart w.extra)) (.obj w'.extra) := by
  obtain ⟨d', rfl⟩ := hs.obj_inv
  have hpub : ∀ k ∈ Dict.keys (publicPart w.extra), k ∈ Dict.keys w.extra := fun k hk =>
    (Dict.keys_filt_sublist (fun k _ => isPublic k) w.extra).subset hk
  have hnames : ∀ k ∈ Dict.keys (publicPart w.extra),
      k ∉ ["eft", "basis", "scale", "values", "_dict", "dict", "self", ""] := fun k hk => hw.names k (hpub k hk)
  have hkeys : (["eft", "basis", "scale", "values"] ++ Dict.keys (publicPart w.extra)).Perm (Dict.keys d') := by
    cases hs with | obj hkeys _ => simpa using hkeys
  have hwfdoc : (["eft", "basis", "scale", "values"] ++ Dict.keys (publicPart w.extra)).Nodup := by
    refine List.Nodup.append (by decide) (publicPart_wf hw.wf) ?_
    intro k hk hk'
    have := hnames k hk'
    simp at hk this
    tauto
  have hwf' : Dict.WF d' := hkeys.nodup_iff.1 hwfdoc
  have hself : "self" ∉ Dict.keys d' := by
    intro h
    have h := hkeys.mem_iff.2 h
    simp only [List.mem_append] at h
    rcases h with h | h
    · simp at h
    · exact hnames _ h (by simp)
  obtain ⟨v1, h1, s1⟩ := hs.find_some (k := "eft") rfl
  obtain ⟨v2, h2, s2⟩ := hs.find_some (k := "basis") rfl
  obtain ⟨v3, h3, s3⟩ := hs.find_some (k := "scale") rfl
  obtain ⟨v4, h4, s4⟩ := hs.find_some (k := "values") rfl
  cases s1; cases s2; cases s3
  set c : String → JVal → Bool := fun k _ => decide (k ∉ ["eft", "basis", "scale", "values"]) with hcdef
  have hrest : ∀ k, Dict.find (Dict.filt c d') k =
      if k ∈ ["eft", "basis", "scale", "values"] then none else Dict.find d' k := by
    intro k
    split
    · rename_i h
      exact find_filt_neg c k (fun v => by simp [hcdef] at h ⊢; tauto)
    · rename_i h
      exact find_filt_pos c k (fun v => by simpa [hcdef] using h)
  have hkrest : (Dict.keys (publicPart w.extra)).Perm (Dict.keys (Dict.filt c d')) := by
    apply (List.perm_ext_iff_of_nodup (publicPart_wf hw.wf) (Dict.WF_filt hwf')).2
    intro k
    rw [← Dict.find_isSome_iff (d := Dict.filt c d'), hrest]
    by_cases hk : k ∈ ["eft", "basis", "scale", "values"]
    · rw [if_pos hk]
      constructor
      · intro h; have := hnames k h; simp at hk this; tauto
      · simp
    · rw [if_neg hk, Dict.find_isSome_iff, ← hkeys.mem_iff, List.mem_append]
      simp only [hk, false_or]
  have hno : ∀ k ∈ Dict.keys (Dict.filt c d'), k ∉ ["dict"] := by
    intro k hk
    have := hnames k (hkrest.mem_iff.2 hk)
    simp at this ⊢; tauto
  have hcache : Dict.find (Dict.filt c d') "_dict" = none := by
    rw [Dict.find_eq_none_iff, ← hkrest.mem_iff]
    intro h; exact hnames _ h (by simp)
  have hfin : Dict.filt (fun k _ => decide (k ≠ "_dict")) (Dict.filt c d') = Dict.filt c d' := by
    unfold Dict.filt
    apply List.filter_eq_self.2
    intro p hp
    have : p.1 ∈ Dict.keys (Dict.filt c d') := List.mem_map_of_mem hp
    simp only [ne_eq, decide_not, Bool.not_eq_true', decide_eq_false_iff_not]
    intro he
    rw [he] at this
    exact Dict.find_eq_none_iff.1 hcache this
  refine ⟨⟨w.eft, w.basis, w.scale, v4, .none, Dict.filt c d'⟩, ?_, rfl, rfl, rfl, s4, rfl, hkrest, ?_⟩
  · unfold loadWC
    rw [load_of_readsAs hr]
    simp only [bind, Except.bind, docArgs, hself, if_false, needArg, h1, h2, h3, h4, asStr, newWC, pyFloat]
    rw [setAttrs_none_iff.2 hno]
    dsimp only
    rw [← hcdef, hcache, hfin]
    rfl
  · refine .obj hkrest ?_
    intro k v v' hv hv'
    rw [hrest] at hv'
    split at hv'
    · simp at hv'
    · rename_i hk
      have : Dict.find ([("eft", JVal.str w.eft), ("basis", .str w.basis), ("scale", .num w.scale),
          ("values", w.values)] ++ publicPart w.extra) k = some v := by
        rw [Dict.find_append, hv]
        have : Dict.find [("eft", JVal.str w.eft), ("basis", .str w.basis), ("scale", .num w.scale),
          ("values", w.values)] k = none := by
          rw [Dict.find_eq_none_iff]; simpa using hk
        rw [this]; rfl
      obtain ⟨v'', hv'', hsame⟩ := hs.find_some this
      rw [hv''] at hv'; cases hv'
      exact hsame

/-- **C15.** Writing a Wilson coefficient object in JSON or YAML and loading the text gives an object with
the same EFT, basis and scale, the same values and the same public extra attributes (as data, up to
the order of keys), with no cached dictionary. If the values evaluate to numbers, the loaded object
evaluates to the same numbers. -/
theorem C15_dump_load_wc (cd : Codec) (fl : String → Option ℝ) (w : WC) (hw : ExtraOk w) (fmt : String)
    (hf : IsJson fmt ∨ IsYaml fmt) (hcd : Faithful cd fmt (wcDoc w)) :
    ∃ t w', dump cd w.attrs fmt "" = (t, .ok ()) ∧ loadWC cd fl t = .ok w' ∧
      w'.eft = w.eft ∧ w'.basis = w.basis ∧ w'.scale = w.scale ∧ Same w.values w'.values ∧
      Same (.obj (publicPart w.extra)) (.obj w'.extra) ∧
      (∀ vs d, w.values = .obj vs → Dict.WF vs → convertValues fl w.values = .ok d →
        ∃ d', w'.dict fl = .ok d' ∧ (Dict.keys d).Perm (Dict.keys d') ∧
          ∀ k, Dict.find d k = Dict.find d' k) := by
  have hne : "" ∉ Dict.keys w.extra := fun h => hw.names _ h (by simp)
  have main : ∀ t, (∃ j, Same (wcDoc w) j ∧ ReadsAs cd t j) → dump cd w.attrs fmt "" = (t, .ok ()) →
      ∃ t w', dump cd w.attrs fmt "" = (t, .ok ()) ∧ loadWC cd fl t = .ok w' ∧
      w'.eft = w.eft ∧ w'.basis = w.basis ∧ w'.scale = w.scale ∧ Same w.values w'.values ∧
      Same (.obj (publicPart w.extra)) (.obj w'.extra) ∧
      (∀ vs d, w.values = .obj vs → Dict.WF vs → convertValues fl w.values = .ok d →
        ∃ d', w'.dict fl = .ok d' ∧ (Dict.keys d).Perm (Dict.keys d') ∧
          ∀ k, Dict.find d k = Dict.find d' k) := by
    rintro t ⟨j, hs, hr⟩ hd
    obtain ⟨w', hl, h1, h2, h3, h4, h5, _, h7⟩ := load_wcDoc (fl := fl) hw hs hr
    refine ⟨t, w', hd, hl, h1, h2, h3, h4, h7, ?_⟩
    intro vs d hvs hwf hconv
    rw [hvs] at h4 hconv
    obtain ⟨vs', hvs'⟩ := h4.obj_inv
    rw [WC.dict_of_noCache h5, hvs']
    rw [hvs'] at h4
    exact convertValues_same hwf h4 hconv
  have hdump := wc_dump cd w fmt "" hne
  by_cases hj : IsJson fmt
  · rw [if_pos ((lower_eq_iff _ _).2 hj)] at hdump
    exact main _ (hcd.1 hj) (by simpa using hdump)
  · have hy : IsYaml fmt := hf.resolve_left hj
    rw [if_neg (fun h => hj ((lower_eq_iff _ _).1 h)), if_pos ((lower_eq_iff _ _).2 hy)] at hdump
    exact main _ (hcd.2 hy) (by simpa using hdump)

/-- The extra attributes of a constructed object are as required by C15 unless the keyword arguments
contain `self` or the empty name. -/
theorem extraOk_newWC {fl : String → Option ℝ} {e b : String} {sc vs : JVal} {kw : Dict String JVal}
    {w : WC} (hkw : Dict.WF kw) (hn : ∀ k ∈ Dict.keys kw, k ∉ ["eft", "basis", "scale", "values", "self", ""])
    (h : newWC fl e b sc vs kw = .ok w) : ExtraOk w := by
  unfold newWC at h
  simp only [bind, Except.bind] at h
  split at h
  · simp at h
  · split at h
    · simp at h
    · rename_i heq
      simp only [pure, Except.pure, Except.ok.injEq] at h
      subst h
      refine ⟨Dict.WF_filt (c := fun k _ => decide (k ≠ "_dict")) hkw, ?_⟩
      intro k hk
      obtain ⟨v, hv, hne⟩ := (Dict.mem_keys_filt (c := fun k _ => decide (k ≠ "_dict"))).1 hk
      have hmem : k ∈ Dict.keys kw := List.mem_map_of_mem hv
      have h1 := hn k hmem
      have h2 := setAttrs_none_iff.1 heq k hmem
      simp at h1 h2 hne ⊢
      tauto

/-- Concrete case of C15: a codec that keeps one document, in both formats. -/
example (fl : String → Option ℝ) :
    let w : WC := ⟨"WET", "JMS", 91, .obj [("C1", .num 2)], .none, [("metadata", .str "x")]⟩
    let cd : Codec := ⟨fun _ => "J", fun _ => "Y", fun t => if t = "J" then some (wcDoc w) else none,
      fun _ => some (wcDoc w)⟩
    ExtraOk w ∧ Faithful cd "JSON" (wcDoc w) ∧ Faithful cd "yaml" (wcDoc w) ∧
    loadWC cd fl "Y" = .ok w ∧ wcDoc w = .obj [("eft", .str "WET"), ("basis", .str "JMS"),
      ("scale", .num 91), ("values", .obj [("C1", .num 2)]), ("metadata", .str "x")] := by
  intro w cd
  refine ⟨⟨by simp [w, Dict.WF, Dict.keys], by simp [w, Dict.keys]⟩, ⟨fun _ => ⟨wcDoc w, Spec.Same.refl _, Or.inl (by simp [cd])⟩,
    fun _ => ⟨wcDoc w, Spec.Same.refl _, Or.inr (by simp [cd])⟩⟩, ⟨fun _ => ⟨wcDoc w, Spec.Same.refl _, Or.inl (by simp [cd])⟩,
    fun _ => ⟨wcDoc w, Spec.Same.refl _, Or.inr (by simp [cd])⟩⟩, ?_, ?_⟩
  · rfl
  · rfl

/-- An attribute called `self` makes the written file unreadable. -/
theorem WC_self_attribute (fl : String → Option ℝ) (cd : Codec) (t : String) (d : Dict String JVal)
    (hr : ReadsAs cd t (.obj d)) (h : "self" ∈ Dict.keys d) : loadWC cd fl t = .error .typeError := by
  unfold loadWC
  rw [load_of_readsAs hr]
  simp [bind, Except.bind, docArgs, h]

/-- An attribute with empty name makes `dump` raise `IndexError`. -/
theorem WC_empty_attribute (cd : Codec) (w : WC) (fmt out : String) (h : "" ∈ Dict.keys w.extra) :
    dump cd w.attrs fmt out = (out, .error .indexError) := by
  have : "" ∈ Dict.keys w.attrs := by
    unfold WC.attrs
    rw [Dict.keys_append, keys_map_file]
    simp [h]
  unfold dump publicAttrs
  rw [if_pos this]

/-! ### C16 -/

theorem publicAttrs_congr {a b : Dict String AVal} (hk : Dict.keys a = Dict.keys b)
    (hf : Dict.filt (fun k _ => isPublic k) a = Dict.filt (fun k _ => isPublic k) b) :
    publicAttrs a = publicAttrs b := by
  unfold publicAttrs; rw [hk, hf]

/-- **C16, first half (Wilson coefficients).** Reading the numeric dictionary before dumping never changes
the document, whatever the object. -/
theorem C16_read_before_dump_wc (cd : Codec) (fl : String → Option ℝ) (w : WC) (fmt out : String) :
    dump cd (w.readDict fl).2.attrs fmt out = dump cd w.attrs fmt out := by
  have hx : (w.readDict fl).2.extra = w.extra ∧ (w.readDict fl).2.eft = w.eft ∧
      (w.readDict fl).2.basis = w.basis ∧ (w.readDict fl).2.scale = w.scale ∧
      (w.readDict fl).2.values = w.values := by
    unfold WC.readDict
    cases w.cache with
    | none => dsimp only; cases convertValues fl w.values <;> simp
    | nums d => simp
    | raw j => simp
  obtain ⟨h1, h2, h3, h4, h5⟩ := hx
  have : publicAttrs (w.readDict fl).2.attrs = publicAttrs w.attrs := by
    apply publicAttrs_congr
    · unfold WC.attrs
      rw [Dict.keys_append, Dict.keys_append, keys_map_file, keys_map_file, h1]
      rfl
    · rw [wc_public, wc_public, h1, h2, h3, h4, h5]
  unfold dump
  rw [this]

theorem basis_public (o : BasisObj) (s : Sectors) : Dict.filt (fun k _ => isPublic k) (o.attrs s) =
    ([("eft", JVal.str o.eft), ("basis", JVal.str o.basis)] ++ publicPart o.extra ++
      [("sectors", JVal.obj s)] : Dict String JVal).map fun p => (p.1, AVal.file p.2) := by
  have h1 : isPublic "eft" = true := by decide
  have h2 : isPublic "basis" = true := by decide
  have h3 : isPublic "_name" = false := by decide
  have h4 : isPublic "sectors" = true := by decide
  have h5 : isPublic "_all_wcs" = false := by decide
  unfold BasisObj.attrs
  rw [filt_append, filt_append, filt_map_file, List.map_append, List.map_append]
  congr 1
  · congr 1
    simp [Dict.filt, h1, h2, h3]
  · simp [Dict.filt, h4, h5]

/-- **C16, first half (bases).** Reading `all_wcs` before dumping never changes the document. -/
theorem C16_read_before_dump_basis (cd : Codec) (o : BasisObj) (s : Sectors) (l : Option (Option (List String)))
    (fmt out : String) :
    dump cd (BasisObj.attrs { o with allWcs := l } s) fmt out = dump cd (o.attrs s) fmt out := by
  have : publicAttrs (BasisObj.attrs { o with allWcs := l } s) = publicAttrs (o.attrs s) := by
    apply publicAttrs_congr
    · unfold BasisObj.attrs
      simp only [Dict.keys_append, keys_map_file]
      rfl
    · rw [basis_public, basis_public]
  unfold dump
  rw [this]

/-- **C16, what is written.** Whatever the object: if `dump` succeeds, the text is the printed form of a
mapping whose entries are exactly the attributes with public names, in order. -/
theorem C16_document (cd : Codec) (attrs : Dict String AVal) (fmt out out' : String)
    (h : dump cd attrs fmt out = (out', .ok ())) :
    ∃ d : Dict String JVal, (out' = out ++ cd.printJson (.obj d) ∨ out' = out ++ cd.printYaml (.obj d)) ∧
      Dict.keys d = (Dict.keys attrs).filter (fun k => isPublic k) ∧
      ∀ k v, (k, v) ∈ d ↔ (k, AVal.file v) ∈ attrs ∧ ¬ Private k := by
  have key : ∀ (l : Dict String AVal) (d : Dict String JVal),
      l.mapM (fun p => do let j ← p.2.toFile; return (p.1, j)) = (.ok d : Except PyErr _) →
      l = d.map fun p => (p.1, AVal.file p.2) := by
    intro l
    induction l with
    | nil => intro d h; simp [List.mapM_nil, pure, Except.pure] at h; subst h; rfl
    | cons p l ih =>
      intro d h
      obtain ⟨k, v⟩ := p
      rw [List.mapM_cons] at h
      cases v with
      | nums x => simp [AVal.toFile, bind, Except.bind] at h
      | file j =>
        simp only [AVal.toFile, bind, Except.bind, pure, Except.pure] at h ih
        split at h
        · simp at h
        · rename_i d' hd'
          simp only [Except.ok.injEq] at h
          subst h
          rw [List.map_cons, ← ih d' hd']
  have hpub : ∀ p, publicAttrs attrs = .ok p → p = Dict.filt (fun k _ => isPublic k) attrs := by
    intro p hp
    unfold publicAttrs at hp
    split at hp
    · simp at hp
    · simp at hp; exact hp.symm
  have fin : ∀ d : Dict String JVal,
      Dict.filt (fun k _ => isPublic k) attrs = d.map (fun p => (p.1, AVal.file p.2)) →
      Dict.keys d = (Dict.keys attrs).filter (fun k => isPublic k) ∧
      ∀ k v, (k, v) ∈ d ↔ (k, AVal.file v) ∈ attrs ∧ ¬ Private k := by
    intro d hd
    constructor
    · rw [← keys_map_file d, ← hd]
      simp [Dict.keys, Dict.filt, List.filter_map, Function.comp_def]
    · intro k v
      have : (k, v) ∈ d ↔ (k, AVal.file v) ∈ d.map (fun p => (p.1, AVal.file p.2)) := by
        simp
      rw [this, ← hd]
      simp [Dict.filt, isPublic_iff]
  unfold dump at h
  split at h
  · simp at h
  · rename_i p hp
    have hp' := hpub p hp
    split at h
    · split at h
      · simp at h
      · rename_i d hd
        simp only [Prod.mk.injEq, and_true] at h
        exact ⟨d, Or.inl h.symm, fin d (hp' ▸ key p d hd)⟩
    · split at h
      · split at h
        · simp at h
        · rename_i d hd
          simp only [Prod.mk.injEq, and_true] at h
          exact ⟨d, Or.inr h.symm, fin d (hp' ▸ key p d hd)⟩
      · simp at h

/-- **C16, second half, is false.** A document with a private key `_dict` gives an object whose numeric
dictionary is that entry and not computed from the values. -/
theorem C16_refuted (fl : String → Option ℝ) :
    let doc : JVal := .obj [("eft", .str "WET"), ("basis", .str "JMS"), ("scale", .num 5),
      ("values", .obj [("C1", .num 2)]), ("_dict", .obj [("C1", .num 99)])]
    let cd : Codec := ⟨fun _ => "", fun _ => "", fun _ => some doc, fun _ => none⟩
    ∃ w, loadWC cd fl "file" = .ok w ∧ w.values = .obj [("C1", .num 2)] ∧
      convertValues fl w.values = .ok [("C1", 2)] ∧
      (w.readDict fl).1 = .ok (.raw (.obj [("C1", .num 99)])) := by
  refine ⟨⟨"WET", "JMS", 5, .obj [("C1", .num 2)], .raw (.obj [("C1", .num 99)]), []⟩, ?_, rfl, ?_, rfl⟩
  · rfl
  · simp [convertValues, itemsOf, toNumber, pyFloat, bind, Except.bind, List.mapM_cons, List.mapM_nil, pure,
      Except.pure]

/-- **C16, the part of the second half that holds.** Loading a document whose extra keys do not include
`_dict` gives an object whose numeric dictionary is computed from its values; every extra key is
kept as an attribute. -/
theorem C16_partial (cd : Codec) (fl : String → Option ℝ) (t : String) (d : Dict String JVal)
    (hr : ReadsAs cd t (.obj d)) (hd : "_dict" ∉ Dict.keys d) (w : WC) (h : loadWC cd fl t = .ok w) :
    Dict.find d "values" = some w.values ∧ w.dict fl = convertValues fl w.values ∧
    ∀ k, k ∉ ["eft", "basis", "scale", "values"] → Dict.find w.extra k = Dict.find d k := by
  unfold loadWC at h
  rw [load_of_readsAs hr] at h
  simp only [bind, Except.bind, docArgs, needArg, newWC] at h
  split at h
  · simp at h
  · rename_i d0 hd0
    split at hd0
    · simp at hd0
    · simp only [Except.ok.injEq] at hd0
      subst hd0
      cases h1 : Dict.find d "eft" with
      | none => simp [h1] at h
      | some v1 =>
      cases h2 : Dict.find d "basis" with
      | none => simp [h1, h2] at h
      | some v2 =>
      cases h3 : Dict.find d "scale" with
      | none => simp [h1, h2, h3] at h
      | some v3 =>
      cases h4 : Dict.find d "values" with
      | none => simp [h1, h2, h3, h4] at h
      | some v4 =>
      simp only [h1, h2, h3, h4] at h
      split at h
      · simp at h
      · split at h
        · simp at h
        · split at h
          · simp at h
          · split at h
            · simp at h
            · have hc : Dict.find (Dict.filt (fun k _ => decide (k ∉ ["eft", "basis", "scale", "values"])) d)
                  "_dict" = none := by
                rw [find_filt_pos _ _ (by intro v; simp)]
                exact Dict.find_eq_none_iff.2 hd
              rw [hc] at h
              simp only [pure, Except.pure, Except.ok.injEq] at h
              subst h
              refine ⟨rfl, WC.dict_of_noCache rfl, ?_⟩
              intro k hk
              dsimp only
              by_cases hk' : k = "_dict"
              · subst hk'
                rw [find_filt_neg _ _ (by intro v; simp)]
                exact (Dict.find_eq_none_iff.2 hd).symm
              · rw [find_filt_pos _ _ (by intro v; simpa using hk'), find_filt_pos _ _ (by intro v; simpa using hk)]

/-- Concrete case of `C16_partial` (and of a private key other than `_dict`). -/
example (fl : String → Option ℝ) :
    let doc : JVal := .obj [("eft", .str "WET"), ("basis", .str "JMS"), ("scale", .num 5),
      ("values", .obj [("C1", .num 2)]), ("_x", .num 1)]
    let cd : Codec := ⟨fun _ => "", fun _ => "", fun _ => some doc, fun _ => none⟩
    loadWC cd fl "file" = .ok ⟨"WET", "JMS", 5, .obj [("C1", .num 2)], .none, [("_x", .num 1)]⟩ := rfl

/-! ### C17 -/

/-- **C17.** For every object: a format name that is not json or yaml up to letter case raises (a
`ValueError` unless there is an attribute with empty name) and leaves the output as it was. For a
Wilson coefficient object (without empty attribute name) the two format names append exactly the
printed document. -/
theorem C17_unknown_format (cd : Codec) (attrs : Dict String AVal) (fmt out : String)
    (h : ¬ IsJson fmt ∧ ¬ IsYaml fmt) :
    (dump cd attrs fmt out).1 = out ∧
    (("" ∉ Dict.keys attrs) → (dump cd attrs fmt out).2 = .error (.valueError "Format unknown")) ∧
    (∃ e, (dump cd attrs fmt out).2 = .error e) := by
  have h1 : lower fmt ≠ "json" := fun e => h.1 ((lower_eq_iff _ _).1 e)
  have h2 : lower fmt ≠ "yaml" := fun e => h.2 ((lower_eq_iff _ _).1 e)
  unfold dump publicAttrs
  by_cases he : "" ∈ Dict.keys attrs
  · simp [he]
  · simp [he, h1, h2]

theorem C17_known_format (cd : Codec) (w : WC) (fmt out : String) (hw : "" ∉ Dict.keys w.extra) :
    (IsJson fmt → dump cd w.attrs fmt out = (out ++ cd.printJson (wcDoc w), .ok ())) ∧
    (IsYaml fmt → dump cd w.attrs fmt out = (out ++ cd.printYaml (wcDoc w), .ok ())) := by
  constructor
  · intro h
    rw [wc_dump cd w fmt out hw, if_pos ((lower_eq_iff _ _).2 h)]
  · intro h
    have hj : lower fmt ≠ "json" := by
      rw [(lower_eq_iff _ _).2 h]; decide
    rw [wc_dump cd w fmt out hw, if_neg hj, if_pos ((lower_eq_iff _ _).2 h)]

/-- Concrete cases of C17. -/
example : IsJson "JSON" ∧ IsJson "Json" ∧ IsYaml "YAML" ∧ IsYaml "yAml" ∧
    ¬ IsJson "yml" ∧ ¬ IsYaml "yml" ∧ ¬ IsJson "" ∧ ¬ IsYaml "" := by
  unfold IsJson IsYaml; decide

/-! ### C18 -/

/-- **C18.** A text that is JSON is read as JSON whatever the YAML reader would make of it; a text that is
not JSON is read as YAML; equal contents in the two formats load to equal Wilson coefficient
objects and equal bases (also the same exception); a text that is neither raises, and no basis is
registered. -/
theorem C18_format_detection (cd cd' : Codec) (fl : String → Option ℝ) (st : Store) (t1 t2 : String) :
    (∀ j, cd.parseJson t1 = some j → cd'.parseJson t1 = some j →
      loadWC cd fl t1 = loadWC cd' fl t1 ∧ loadBasis cd st t1 = loadBasis cd' st t1) ∧
    (∀ j, cd.parseJson t1 = some j → cd.parseJson t2 = none → cd.parseYaml t2 = some j →
      loadWC cd fl t1 = loadWC cd fl t2 ∧ loadBasis cd st t1 = loadBasis cd st t2) ∧
    (cd.parseJson t1 = none → cd.parseYaml t1 = none →
      loadWC cd fl t1 = .error .yamlError ∧ loadBasis cd st t1 = (st, .error .yamlError)) := by
  have key : ∀ (c1 c2 : Codec) (s1 s2 : String), c1.load s1 = c2.load s2 →
      loadWC c1 fl s1 = loadWC c2 fl s2 ∧ loadBasis c1 st s1 = loadBasis c2 st s2 := by
    intro c1 c2 s1 s2 h
    unfold loadWC loadBasis
    rw [h]
    exact ⟨rfl, rfl⟩
  refine ⟨?_, ?_, ?_⟩
  · intro j h h'
    exact key _ _ _ _ (by rw [load_of_readsAs (Or.inl h), load_of_readsAs (Or.inl h')])
  · intro j h1 h2 h3
    exact key _ _ _ _ (by rw [load_of_readsAs (Or.inl h1), load_of_readsAs (Or.inr ⟨h2, h3⟩)])
  · intro h1 h2
    have : cd.load t1 = .error .yamlError := by unfold Codec.load; rw [h1]; dsimp only; rw [h2]
    unfold loadWC loadBasis
    rw [this]
    exact ⟨rfl, rfl⟩

/-! ### C19 -/

/-- The document of a basis: EFT, name, public extras (among them the parent), merged sectors. -/
def Spec.basisDoc (o : BasisObj) (s : Sectors) : JVal :=
  .obj ([("eft", .str o.eft), ("basis", .str o.basis)] ++ publicPart o.extra ++ [("sectors", .obj s)])

/-- Extra attributes of a basis as created from keyword arguments (`self` and the empty name excluded). -/
structure Spec.BasisExtraOk (kw : Dict String JVal) : Prop where
  wf : Dict.WF kw
  names : ∀ k ∈ Dict.keys kw, k ∉ ["eft", "basis", "sectors", "self", ""]

theorem basis_dump (cd : Codec) (o : BasisObj) (s : Sectors) (fmt out : String)
    (h : "" ∉ Dict.keys o.extra) :
    dump cd (o.attrs s) fmt out =
      if lower fmt = "json" then (out ++ cd.printJson (basisDoc o s), .ok ())
      else if lower fmt = "yaml" then (out ++ cd.printYaml (basisDoc o s), .ok ())
      else (out, .error (.valueError "Format unknown")) := by
  refine dump_of_files cd (o.attrs s) _ fmt out ?_ (basis_public o s)
  unfold BasisObj.attrs
  rw [Dict.keys_append, Dict.keys_append, keys_map_file]
  simp [h]

/-- The objects of a history stay what they are, apart from the cached listing. -/
theorem basis_persist_exec (st : Store) (op : Op) {j : Id} {o : BasisObj}
    (h : st.objs[j]? = some (Obj.basis o)) :
    ∃ l, (exec st op).1.objs[j]? = some (Obj.basis { o with allWcs := l }) := by
  have hj : j < st.objs.length := (List.getElem?_eq_some_iff.1 h).1
  by_cases hb : ∃ e b s kw, op = .newBasis e b s kw
  · obtain ⟨e, b, s, kw, rfl⟩ := hb
    exact ⟨o.allWcs, by simp only [exec]; rw [newBasis_objs_old st e b s kw hj, h]⟩
  by_cases hr : ∃ i, op = .allWcs i
  · obtain ⟨i, rfl⟩ := hr
    simp only [exec]
    rcases readAllWcs_objs st i with h0 | ⟨o', s', l, ho', _, _, _, h1, _⟩
    · exact ⟨o.allWcs, by rw [h0, h]⟩
    · rw [h1]
      by_cases hij : i = j
      · subst hij
        rw [h] at ho'
        cases ho'
        exact ⟨some (some l), by simp [Store.setObj, hj]⟩
      · exact ⟨o.allWcs, by simp [Store.setObj, List.getElem?_set_ne hij, h]⟩
  · push Not at hb hr
    obtain ⟨_, h0 | ⟨x, h0, _⟩⟩ := exec_other_objs st op hb hr
    · exact ⟨o.allWcs, by rw [h0, h]⟩
    · exact ⟨o.allWcs, by rw [h0, List.getElem?_append_left hj, h]⟩

theorem basis_persist (st : Store) (ops : List Op) {j : Id} {o : BasisObj}
    (h : st.objs[j]? = some (Obj.basis o)) :
    ∃ l, (runLog st ops).1.objs[j]? = some (Obj.basis { o with allWcs := l }) := by
  induction ops generalizing st o with
  | nil => exact ⟨o.allWcs, h⟩
  | cons op ops ih =>
    obtain ⟨l, hl⟩ := basis_persist_exec st op h
    obtain ⟨l', hl'⟩ := ih _ hl
    exact ⟨l', hl'⟩

/-- Loading any document whose contents are those of the basis object `o`, in a state where the parent
name (if any) denotes a basis with the same dictionary. -/
theorem load_basisDoc {cd : Codec} {st : Store} (hg : Good st) {o : BasisObj} {a : Nat} {s : Sectors}
    (hx : BasisExtraOk o.extra) (hprop : ∀ k ∈ Dict.keys o.extra, k ∉ ["known_translators", "all_wcs"])
    (hheap : st.heap[a]? = some s) (hsw : Dict.WF s)
    (hpar : Dict.find o.extra "parent" = none ∨
      ∃ par pid, Dict.find o.extra "parent" = some (.str par) ∧ par ≠ o.basis ∧
        st.lookup .basis [o.eft, par] = .ok pid ∧ addrOf st pid = some a)
    {t : String} {j : JVal} (hs : Same (basisDoc o s) j) (hr : ReadsAs cd t j) :
    ∃ i' o' s', (loadBasis cd st t).2 = .ok i' ∧
      (loadBasis cd st t).1.lookup .basis [o.eft, o.basis] = .ok i' ∧
      (loadBasis cd st t).1.objs[i']? = some (Obj.basis o') ∧
      o'.eft = o.eft ∧ o'.basis = o.basis ∧
      Same (.obj (publicPart o.extra)) (.obj o'.extra) ∧
      sectorsOf (loadBasis cd st t).1 i' = .ok s' ∧ Same (.obj s) (.obj s') := by
  obtain ⟨d', rfl⟩ := hs.obj_inv
  have hpub : ∀ k ∈ Dict.keys (publicPart o.extra), k ∈ Dict.keys o.extra := fun k hk =>
    (Dict.keys_filt_sublist (fun k _ => isPublic k) o.extra).subset hk
  have hnames : ∀ k ∈ Dict.keys (publicPart o.extra), k ∉ ["eft", "basis", "sectors", "self", ""] :=
    fun k hk => hx.names k (hpub k hk)
  have hkeys : (["eft", "basis"] ++ Dict.keys (publicPart o.extra) ++ ["sectors"]).Perm (Dict.keys d') := by
    cases hs with | obj hkeys _ => simpa using hkeys
  have hwfdoc : (["eft", "basis"] ++ Dict.keys (publicPart o.extra) ++ ["sectors"]).Nodup := by
    refine List.Nodup.append (List.Nodup.append (by decide) (publicPart_wf hx.wf) ?_) (by decide) ?_
    · intro k hk hk'
      have := hnames k hk'
      simp at hk this
      tauto
    · intro k hk hk'
      simp only [List.mem_singleton] at hk'
      subst hk'
      simp only [List.mem_append] at hk
      rcases hk with hk | hk
      · simp at hk
      · exact hnames _ hk (by simp)
  have hwf' : Dict.WF d' := hkeys.nodup_iff.1 hwfdoc
  have hself : "self" ∉ Dict.keys d' := by
    intro h
    have h := hkeys.mem_iff.2 h
    simp only [List.mem_append] at h
    rcases h with (h | h) | h
    · simp at h
    · exact hnames _ h (by simp)
    · simp at h
  have hdocfind : ∀ k, Dict.find ([("eft", JVal.str o.eft), ("basis", JVal.str o.basis)] ++
      publicPart o.extra ++ [("sectors", JVal.obj s)]) k =
      if k = "eft" then some (.str o.eft) else if k = "basis" then some (.str o.basis)
      else (Dict.find (publicPart o.extra) k).or (if k = "sectors" then some (.obj s) else none) := by
    intro k
    rw [List.append_assoc, Dict.find_append, Dict.find_append]
    by_cases h1 : k = "eft"
    · subst h1; simp [Dict.find_cons]
    · by_cases h2 : k = "basis"
      · subst h2; simp [Dict.find_cons]
      · simp only [Dict.find_cons, Ne.symm h1, Ne.symm h2, if_false, Dict.find_nil, Option.none_or, h1, h2]
        by_cases h3 : k = "sectors"
        · subst h3; simp
        · simp [h3, Ne.symm h3]
  obtain ⟨v1, h1, s1⟩ := hs.find_some (k := "eft") (v := .str o.eft) (by rw [hdocfind]; simp)
  obtain ⟨v2, h2, s2⟩ := hs.find_some (k := "basis") (v := .str o.basis) (by rw [hdocfind]; simp)
  obtain ⟨v3, h3, s3⟩ := hs.find_some (k := "sectors") (v := .obj s) (by
    rw [hdocfind]
    have : Dict.find (publicPart o.extra) "sectors" = none := by
      rw [Dict.find_eq_none_iff]; intro h; exact hnames _ h (by simp)
    simp [this])
  cases s1; cases s2
  obtain ⟨s', rfl⟩ := s3.obj_inv
  set c : String → JVal → Bool := fun k _ => decide (k ∉ ["eft", "basis", "sectors"]) with hcdef
  have hrest : ∀ k, Dict.find (Dict.filt c d') k =
      if k ∈ ["eft", "basis", "sectors"] then none else Dict.find d' k := by
    intro k
    split
    · rename_i h
      exact find_filt_neg c k (fun v => by simp [hcdef] at h ⊢; tauto)
    · rename_i h
      exact find_filt_pos c k (fun v => by simpa [hcdef] using h)
  have hkrest : (Dict.keys (publicPart o.extra)).Perm (Dict.keys (Dict.filt c d')) := by
    apply (List.perm_ext_iff_of_nodup (publicPart_wf hx.wf) (Dict.WF_filt hwf')).2
    intro k
    rw [← Dict.find_isSome_iff (d := Dict.filt c d'), hrest]
    by_cases hk : k ∈ ["eft", "basis", "sectors"]
    · rw [if_pos hk]
      constructor
      · intro h; have := hnames k h; simp at hk this; tauto
      · simp
    · rw [if_neg hk, Dict.find_isSome_iff, ← hkeys.mem_iff, List.mem_append, List.mem_append]
      simp at hk
      simp [hk]
  have hsamex : Same (.obj (publicPart o.extra)) (.obj (Dict.filt c d')) := by
    refine .obj hkrest ?_
    intro k v v' hv hv'
    rw [hrest] at hv'
    split at hv'
    · simp at hv'
    · rename_i hk
      simp at hk
      obtain ⟨v'', hv'', hsame⟩ := hs.find_some (k := k) (v := v) (by
        rw [hdocfind]; simp [hk, hv])
      rw [hv''] at hv'; cases hv'
      exact hsame
  have hno : ∀ k ∈ Dict.keys (Dict.filt c d'), k ∉ ["known_translators", "all_wcs"] := fun k hk =>
    hprop k (hpub k (hkrest.mem_iff.2 hk))
  have hload : loadBasis cd st t = newBasis st o.eft o.basis s' (Dict.filt c d') := by
    unfold loadBasis
    rw [load_of_readsAs hr]
    simp only [bind, Except.bind, docArgs, hself, if_false, needArg, h1, h2, h3, asStr, asObj, pure,
      Except.pure]
    rfl
  rw [hload]
  have hlook : (newBasis st o.eft o.basis s' (Dict.filt c d')).1.lookup .basis [o.eft, o.basis] =
      .ok st.objs.length := by
    unfold Store.lookup Store.registry
    rw [newBasis_instances, register_of_noBase hg.noBase]
    simp [Dict.get, Dict.find_put]
  have hpp : isPublic "parent" = true := by decide
  have hppf : Dict.find (publicPart o.extra) "parent" = Dict.find o.extra "parent" :=
    find_filt_pos (fun k _ => isPublic k) "parent" (fun _ => hpp)
  have hswf' : Dict.WF s' := by
    cases s3 with | obj hk _ => exact hk.nodup_iff.1 hsw
  rcases hpar with hpar | ⟨par, pid, hp1, hp2, hp3, hp4⟩
  · have hp : Dict.find (Dict.filt c d') "parent" = none :=
      (hsamex.find_none "parent").1 (hppf.trans hpar)
    obtain ⟨o', ho1, ho2, hobjs, hcase⟩ := newBasis_cases st o.eft o.basis s' (Dict.filt c d')
    have hok : (newBasis st o.eft o.basis s' (Dict.filt c d')).2 = .ok st.objs.length := by
      unfold newBasis
      dsimp only
      rw [setAttrs_none_iff.2 hno, setAttrs_ok (setAttrs_none_iff.2 hno), hp]
    rcases hcase with ⟨_, _, _, err, herr⟩ | ⟨_, hex, hsec, _, hh, _⟩ | ⟨_, _, _, _, hpa, _⟩
    · rw [hok] at herr; cases herr
    · have hobj : (newBasis st o.eft o.basis s' (Dict.filt c d')).1.objs[st.objs.length]? =
          some (Obj.basis o') := by rw [hobjs]; simp
      refine ⟨st.objs.length, o', s', hok, hlook, hobj, ho1, ho2, hex ▸ hsamex, ?_, s3⟩
      rw [sectorsOf_basis hobj, hsec, hh]
      simp
    · rw [hp] at hpa; cases hpa
  · have hp : Dict.find (Dict.filt c d') "parent" = some (.str par) := by
      obtain ⟨v, hv, hsv⟩ := hsamex.find_some (hppf.trans hp1)
      cases hsv
      exact hv
    rcases newBasis_parent hg o.eft o.basis par s' (Dict.filt c d') hp hno with
      ⟨pid', a', _, hl', ha', hok, hh, hobjs⟩ | ⟨hbad, _⟩
    · rw [hp3] at hl'; cases hl'
      rw [hp4] at ha'; cases ha'
      have hobj : (newBasis st o.eft o.basis s' (Dict.filt c d')).1.objs[st.objs.length]? =
          some (Obj.basis ⟨o.eft, o.basis, Dict.filt c d', some a, some none⟩) := by rw [hobjs]; simp
      refine ⟨st.objs.length, _, Dict.upd s s', hok, hlook, hobj, rfl, rfl, hsamex, ?_, same_upd hsw s3⟩
      rw [sectorsOf_basis hobj, hh]
      simp [List.getElem?_modify, hheap]
    · rcases hbad with hbad | hbad
      · exact absurd hbad.symm hp2
      · rw [hbad pid hp3] at hp4; cases hp4

/-- **C19.** Take any history, a successful basis definition (with or without a parent) and any further
history at whose end the parent name still denotes the object it denoted at the definition.
Dumping the basis in JSON or YAML and loading the text (with libraries that keep this document)
registers under the same names a basis with the same public extra attributes, among them the same
parent, and the same sectors as the dumped basis had. -/
theorem C19_dump_load_basis (cd : Codec) (ops1 ops2 : List Op) (h1 : ∀ op ∈ ops1, op.onFour)
    (h2 : ∀ op ∈ ops2, op.onFour) (e b : String) (s0 : Sectors) (kw : Dict String JVal)
    (hkw : BasisExtraOk kw) (i : Id) (hok : (newBasis (run ops1) e b s0 kw).2 = .ok i)
    (hpar : ∀ par, Dict.find kw "parent" = some (.str par) →
      (run (ops1 ++ .newBasis e b s0 kw :: ops2)).lookup .basis [e, par] =
        (run ops1).lookup .basis [e, par])
    (o : BasisObj) (s : Sectors)
    (ho : (run (ops1 ++ .newBasis e b s0 kw :: ops2)).objs[i]? = some (Obj.basis o))
    (hs : sectorsOf (run (ops1 ++ .newBasis e b s0 kw :: ops2)) i = .ok s) (hsw : Dict.WF s)
    (fmt : String) (hf : IsJson fmt ∨ IsYaml fmt) (hcd : Faithful cd fmt (basisDoc o s)) :
    ∃ t i' o' s', dump cd (o.attrs s) fmt "" = (t, .ok ()) ∧
      (loadBasis cd (run (ops1 ++ .newBasis e b s0 kw :: ops2)) t).2 = .ok i' ∧
      (loadBasis cd (run (ops1 ++ .newBasis e b s0 kw :: ops2)) t).1.lookup .basis [e, b] = .ok i' ∧
      (loadBasis cd (run (ops1 ++ .newBasis e b s0 kw :: ops2)) t).1.objs[i']? = some (Obj.basis o') ∧
      o'.eft = e ∧ o'.basis = b ∧ Same (.obj (publicPart kw)) (.obj o'.extra) ∧
      sectorsOf (loadBasis cd (run (ops1 ++ .newBasis e b s0 kw :: ops2)) t).1 i' = .ok s' ∧
      Same (.obj s) (.obj s') := by
  set st := run (ops1 ++ .newBasis e b s0 kw :: ops2) with hst
  have hrun : st = (runLog (newBasis (run ops1) e b s0 kw).1 ops2).1 := by
    rw [hst]; unfold run; rw [runLog_append]; rfl
  have hg1 := good_run ops1 h1
  have hg : Good st := good_run _ (by
    intro op hop
    rcases List.mem_append.1 hop with hop | hop
    · exact h1 op hop
    · rcases List.mem_cons.1 hop with rfl | hop
      · trivial
      · exact h2 op hop)
  -- the object right after its definition
  obtain ⟨o0, he0, hb0, hobjs, hcase⟩ := newBasis_cases (run ops1) e b s0 kw
  have hi : i = (run ops1).objs.length := by
    rcases hcase with ⟨_, _, _, err, herr⟩ | ⟨_, _, _, _, _, hi⟩ | ⟨_, _, _, _, _, _, _, _, _, _, _, _, hi⟩
    · rw [hok] at herr; cases herr
    · rw [hok] at hi; cases hi; rfl
    · rw [hok] at hi; cases hi; rfl
  have hobj0 : (newBasis (run ops1) e b s0 kw).1.objs[i]? = some (Obj.basis o0) := by
    rw [hobjs, hi]; simp
  obtain ⟨l, hl⟩ := basis_persist _ ops2 hobj0
  rw [← hrun, ho] at hl
  simp only [Option.some.injEq, Obj.basis.injEq] at hl
  subst hl
  have hprop : ∀ k ∈ Dict.keys kw, k ∉ ["known_translators", "all_wcs"] := by
    apply setAttrs_none_iff.1
    cases hr : (setAttrs ["known_translators", "all_wcs"] kw).2 with
    | none => rfl
    | some err =>
      unfold newBasis at hok
      simp only [hr] at hok
      cases hok
  have hex : o0.extra = kw := by
    rcases hcase with ⟨_, _, _, err, herr⟩ | ⟨_, hi, _⟩ | ⟨_, _, _, _, _, hi, _⟩
    · rw [hok] at herr; cases herr
    · exact hi
    · exact hi
  obtain ⟨a, ha⟩ : ∃ a, o0.sectors = some a := by
    rcases hcase with ⟨_, _, _, err, herr⟩ | ⟨_, _, hi, _⟩ | ⟨_, _, _, a, _, _, _, _, _, hi, _⟩
    · rw [hok] at herr; cases herr
    · exact ⟨_, hi⟩
    · exact ⟨_, hi⟩
  have hheap : st.heap[a]? = some s := by
    rw [sectorsOf_basis ho] at hs
    dsimp only at hs
    rw [ha] at hs
    simp only [Option.bind_some] at hs
    cases hh : st.heap[a]? with
    | none => rw [hh] at hs; cases hs
    | some x => rw [hh] at hs; cases hs; rfl
  have hparent : Dict.find o0.extra "parent" = none ∨
      ∃ par pid, Dict.find o0.extra "parent" = some (.str par) ∧ par ≠ b ∧
        st.lookup .basis [e, par] = .ok pid ∧ addrOf st pid = some a := by
    rcases hcase with ⟨_, _, _, err, herr⟩ | ⟨hn, _⟩ | ⟨par, pid0, po0, a0, hp, _⟩
    · rw [hok] at herr; cases herr
    · left; rw [hex]; exact hn
    · right
      rcases newBasis_parent hg1 e b par s0 kw hp hprop with
        ⟨pid, a', hne, hlk, haddr, _, _, hobjs'⟩ | ⟨_, herr, _⟩
      · rw [hobjs] at hobjs'
        simp only [List.append_cancel_left_eq, List.cons.injEq, Obj.basis.injEq, and_true] at hobjs'
        have haa : a' = a := by
          rw [hobjs'] at ha; simpa using ha
        subst haa
        refine ⟨par, pid, by rw [hex]; exact hp, Ne.symm hne, by rw [hpar par hp, hlk], ?_⟩
        unfold addrOf at haddr ⊢
        cases hpo : (run ops1).objs[pid]? with
        | none => rw [hpo] at haddr; cases haddr
        | some x =>
          rw [hpo] at haddr
          cases x with
          | basis x =>
            have hpo' : (newBasis (run ops1) e b s0 kw).1.objs[pid]? = some (Obj.basis x) := by
              rw [newBasis_objs_old _ _ _ _ _ (List.getElem?_eq_some_iff.1 hpo).1, hpo]
            obtain ⟨l', hl'⟩ := basis_persist _ ops2 hpo'
            rw [← hrun] at hl'
            rw [hl']
            exact haddr
          | eft x => cases haddr
          | translator x => cases haddr
          | matcher x => cases haddr
      · rw [hok] at herr; cases herr
  have hne : "" ∉ Dict.keys o0.extra := by rw [hex]; intro h; exact hkw.names _ h (by simp)
  have main : ∀ t, (∃ j, Same (basisDoc { o0 with allWcs := l } s) j ∧ ReadsAs cd t j) →
      ∃ i' o' s', (loadBasis cd st t).2 = .ok i' ∧ (loadBasis cd st t).1.lookup .basis [e, b] = .ok i' ∧
      (loadBasis cd st t).1.objs[i']? = some (Obj.basis o') ∧
      o'.eft = e ∧ o'.basis = b ∧ Same (.obj (publicPart kw)) (.obj o'.extra) ∧
      sectorsOf (loadBasis cd st t).1 i' = .ok s' ∧ Same (.obj s) (.obj s') := by
    rintro t ⟨j, hsame, hr⟩
    have := load_basisDoc (cd := cd) hg (o := { o0 with allWcs := l }) (a := a) (s := s) (t := t) (j := j)
      (by rw [show ({ o0 with allWcs := l } : BasisObj).extra = kw from hex]; exact hkw)
      (by rw [show ({ o0 with allWcs := l } : BasisObj).extra = kw from hex]; exact hprop)
      hheap hsw (by subst he0; subst hb0; exact hparent) hsame hr
    subst he0; subst hb0; subst hex
    exact this
  have hdump := basis_dump cd { o0 with allWcs := l } s fmt "" hne
  by_cases hj : IsJson fmt
  · rw [if_pos ((lower_eq_iff _ _).2 hj)] at hdump
    obtain ⟨i', o', s', h⟩ := main _ (hcd.1 hj)
    exact ⟨_, i', o', s', by simpa using hdump, h⟩
  · have hy : IsYaml fmt := hf.resolve_left hj
    rw [if_neg (fun h => hj ((lower_eq_iff _ _).1 h)), if_pos ((lower_eq_iff _ _).2 hy)] at hdump
    obtain ⟨i', o', s', h⟩ := main _ (hcd.2 hy)
    exact ⟨_, i', o', s', by simpa using hdump, h⟩

/-- Why C19 asks that the parent has not been replaced: after a re-definition of the parent with a new
sector, the reloaded child also has that sector. -/
theorem C19_replaced_parent :
    let st := run [.newBasis "WET" "P" [("a", .null)] [], .newBasis "WET" "C" [] [("parent", .str "P")],
      .newBasis "WET" "P" [("z", .null)] []]
    let o : BasisObj := ⟨"WET", "C", [("parent", .str "P")], some 0, some none⟩
    let cd : Codec := ⟨fun _ => "J", fun _ => "", fun _ => some (basisDoc o [("a", .null)]), fun _ => none⟩
    st.objs[1]? = some (.basis o) ∧ sectorsOf st 1 = .ok [("a", .null)] ∧
    dump cd (o.attrs [("a", .null)]) "json" "" = ("J", .ok ()) ∧
    sectorsOf (loadBasis cd st "J").1 3 = .ok [("z", .null), ("a", .null)] := by
  intro st o cd
  refine ⟨rfl, rfl, ?_, rfl⟩
  rw [basis_dump cd o _ "json" "" (by simp [o, Dict.keys]), if_pos (by decide)]
  rfl

/-- Concrete case of C19: a child with one own sector. -/
example :
    let ops1 : List Op := [.newBasis "WET" "P" [("a", .null)] []]
    let kw : Dict String JVal := [("parent", .str "P"), ("metadata", .str "m")]
    let st := run (ops1 ++ .newBasis "WET" "C" [("x", .null)] kw :: [.allWcs 1])
    BasisExtraOk kw ∧ (newBasis (run ops1) "WET" "C" [("x", .null)] kw).2 = .ok 1 ∧
    st.lookup .basis ["WET", "P"] = (run ops1).lookup .basis ["WET", "P"] ∧
    sectorsOf st 1 = .ok [("a", .null), ("x", .null)] := by
  intro ops1 kw st
  refine ⟨⟨by simp [kw, Dict.WF, Dict.keys], by simp [kw, Dict.keys]⟩, rfl, rfl, rfl⟩

/-! ### C56 -/

theorem Spec.Same.trans {a b c : JVal} (h1 : Same a b) (h2 : Same b c) : Same a c := by
  induction h1 generalizing c with
  | null => exact h2
  | bool b => exact h2
  | num x => exact h2
  | str s => exact h2
  | @list l l' hlen _ ih =>
    cases h2 with
    | list hlen' h' =>
      refine .list (hlen.trans hlen') ?_
      intro i v v' hv hv'
      have hi : i < l.length := (List.getElem?_eq_some_iff.1 hv).1
      have hm : l'[i]? = some (l'[i]'(hlen ▸ hi)) := List.getElem?_eq_getElem (hlen ▸ hi)
      exact ih i v _ hv hm (h' i _ v' hm hv')
  | obj hk _ ih =>
    have h20 := h2
    cases h2 with
    | obj hk' h' =>
      refine .obj (hk.trans hk') ?_
      intro k v v' hv hv'
      obtain ⟨w, hw, _⟩ := h20.find_some' hv'
      exact ih k v w hv hw (h' k w v' hw hv')

/-- **C56.** Converting YAML to JSON and the result back to YAML gives a text with the same data, and the
same for JSON to YAML to JSON, if the libraries keep the data that are printed; a text that the
reader of the converter refuses gives status 1 and writes nothing. -/
theorem C56_yaml_json (cd : Codec) (x : String) (d : JVal)
    (hj : ∀ j, Same d j → ∃ j', cd.parseJson (cd.printJson j) = some j' ∧ Same j j')
    (hy : ∀ j, Same d j → ∃ j', cd.parseYaml (cd.printYaml j) = some j' ∧ Same j j') :
    (cd.parseYaml x = some d → ∃ t u d', convertJson cd x "" = (t, .ok none) ∧
      convertYaml cd t "" = (u, .ok none) ∧ cd.parseYaml u = some d' ∧ Same d d') ∧
    (cd.parseJson x = some d → ∃ t u d', convertYaml cd x "" = (t, .ok none) ∧
      convertJson cd t "" = (u, .ok none) ∧ cd.parseJson u = some d' ∧ Same d d') ∧
    (∀ out, cd.parseYaml x = none → convertJson cd x out = (out, .ok (some 1))) ∧
    (∀ out, cd.parseJson x = none → convertYaml cd x out = (out, .ok (some 1))) := by
  refine ⟨?_, ?_, ?_, ?_⟩
  · intro h
    obtain ⟨j1, hp1, hs1⟩ := hj d (Spec.Same.refl d)
    obtain ⟨j2, hp2, hs2⟩ := hy j1 hs1
    refine ⟨cd.printJson d, cd.printYaml j1, j2, ?_, ?_, hp2, hs1.trans hs2⟩
    · simp [convertJson, h]
    · simp [convertYaml, hp1]
  · intro h
    obtain ⟨j1, hp1, hs1⟩ := hy d (Spec.Same.refl d)
    obtain ⟨j2, hp2, hs2⟩ := hj j1 hs1
    refine ⟨cd.printYaml d, cd.printJson j1, j2, ?_, ?_, hp2, hs1.trans hs2⟩
    · simp [convertYaml, h]
    · simp [convertJson, hp1]
  · intro out h; simp [convertJson, h]
  · intro out h; simp [convertYaml, h]

/-- Concrete case of C56: a document with one number, as two texts. -/
example :
    let d : JVal := .list [.num 1, .null]
    let cd : Codec := ⟨fun _ => "[1, null]", fun _ => "- 1\n-", fun t => if t = "[1, null]" then some d else none,
      fun t => if t = "- 1\n-" then some d else none⟩
    convertJson cd "- 1\n-" "" = ("[1, null]", .ok none) ∧ convertYaml cd "[1, null]" "" = ("- 1\n-", .ok none) ∧
    convertYaml cd "{" "old" = ("old", .ok (some 1)) := by
  simp [convertJson, convertYaml]

end Verif
