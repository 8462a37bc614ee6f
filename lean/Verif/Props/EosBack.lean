import Verif.Props.Eos

/-! C93: what the EOS parameter file says about the coefficients. -/

set_option autoImplicit false

namespace Verif

namespace Spec

/-- The value of the coefficient `name`: its own, or the common one of its electron and muon versions. -/
def ValueOf (d : Dict String ℂ) (name : String) (z : ℂ) : Prop :=
  Dict.find d name = some z ∨ (Dict.find d name = none ∧ ∃ ke km, Lepton "enue" name ke ∧ Lepton "munumu" name km ∧
    coeff d ke = z ∧ coeff d km = z)

end Spec

open Spec

variable {d d' : Dict String ℂ} {sm : Dict String JVal} {out : Dict String (Dict String ℝ)}

theorem central_unique {v : JVal} {c c' : ℝ} (h : Central v c) (h' : Central v c') : c = c' := by
  obtain ⟨m, rfl, h⟩ := h
  obtain ⟨m', e, h'⟩ := h'
  cases e
  rcases h with h | ⟨b, h, rfl⟩ <;> rcases h' with h' | ⟨b', h', rfl⟩ <;> rw [h] at h' <;> cases h' <;> rfl

theorem np_same (h : wcxf2eos d sm = .ok out) (h' : wcxf2eos d' sm = .ok out) {k : String} (hk : k ∈ Dict.keys sm) :
    ∃ x, NP d k x ∧ NP d' k x := by
  have a := (C20_sm_plus_np d sm out).1 h
  have b := (C20_sm_plus_np d' sm out).1 h'
  clear h h'
  induction a with
  | nil => cases hk
  | cons p _ ih =>
    cases b with
    | cons q b =>
      rcases List.mem_cons.1 hk with rfl | hk
      · obtain ⟨-, c, x, h1, h2, h3⟩ := p
        obtain ⟨-, c', x', h1', h2', h3'⟩ := q
        obtain rfl := central_unique h1 h1'
        rw [h3] at h3'
        injection h3' with e
        injection e with _ e
        obtain rfl := add_left_cancel e
        exact ⟨x, h2, h2'⟩
      · exact ih hk b

theorem partOf_unique {tag key n n' : String} (h : PartOf tag key n) (h' : PartOf tag key n') : n = n' :=
  ((partOf_iff h.1 (tag ++ "{") (by simp)).1 h).trans ((partOf_iff h.1 (tag ++ "{") (by simp)).1 h').symm

theorem np_re {k name : String} {x : ℝ} (hk : Dict.find d k = none) (hp : PartOf "Re" k name) (h : NP d k x) :
    Contribution d Complex.re name x := by
  cases h with
  | direct z hz => rw [hk] at hz; cases hz
  | re n _ _ hq hc => rwa [partOf_unique hp hq]
  | im _ _ _ hno => exact absurd hp.1 hno
  | none _ hno => exact absurd hp.1 hno

theorem np_im {k name : String} {x : ℝ} (hk : Dict.find d k = none) (hn : NoPart "Re" k) (hp : PartOf "Im" k name) (h : NP d k x) :
    Contribution d Complex.im name x := by
  cases h with
  | direct z hz => rw [hk] at hz; cases hz
  | re n _ _ hq hc => exact absurd hq.1 hn
  | im n _ _ _ hq hc => rwa [partOf_unique hp hq]
  | none _ _ hno => exact absurd hp.1 hno

theorem value_of_parts {name : String} {x y : ℝ} (h : Contribution d Complex.re name x) (h' : Contribution d Complex.im name y) :
    ValueOf d name ⟨x, y⟩ := by
  cases h with
  | own z hz =>
    cases h' with
    | own z' hz' =>
      rw [hz] at hz'
      injection hz' with e
      subst e
      exact .inl hz
    | universal ke km hn => rw [hz] at hn; cases hn
  | universal ke km hn he hm e =>
    cases h' with
    | own z' hz' => rw [hn] at hz'; cases hz'
    | universal ke' km' _ he' hm' e' =>
      obtain rfl : ke = ke' := (lepton_iff.1 he).trans (lepton_iff.1 he').symm
      exact .inr ⟨hn, ke, km, he, hm, rfl, e.symm⟩

/-- **C93, partial**: if two coefficient sets give the same EOS parameter file with the same table of the Standard Model, then every
coefficient with real and imaginary part in the table has the same value in both. -/
theorem C93_partial (h : wcxf2eos d sm = .ok out) (h' : wcxf2eos d' sm = .ok out) {kr ki name : String}
    (hr : kr ∈ Dict.keys sm) (hi : ki ∈ Dict.keys sm) (pr : PartOf "Re" kr name) (pi : PartOf "Im" ki name) (ni : NoPart "Re" ki)
    (hd : ∀ k ∈ [kr, ki], Dict.find d k = none ∧ Dict.find d' k = none) : ∃ z, ValueOf d name z ∧ ValueOf d' name z := by
  obtain ⟨x, hx, hx'⟩ := np_same h h' hr
  obtain ⟨y, hy, hy'⟩ := np_same h h' hi
  obtain ⟨r, r'⟩ := hd kr (by simp)
  obtain ⟨i, i'⟩ := hd ki (by simp)
  exact ⟨⟨x, y⟩, value_of_parts (np_re r pr hx) (np_im i ni pi hy), value_of_parts (np_re r' pr hx') (np_im i' ni pi hy')⟩

/-- **C93**, in terms of the coefficients: without `lnu` in the name the coefficients are equal (absent counts as zero). -/
theorem C93_neutral (h : wcxf2eos d sm = .ok out) (h' : wcxf2eos d' sm = .ok out) {kr ki name : String}
    (hr : kr ∈ Dict.keys sm) (hi : ki ∈ Dict.keys sm) (pr : PartOf "Re" kr name) (pi : PartOf "Im" ki name) (ni : NoPart "Re" ki)
    (hd : ∀ k ∈ [kr, ki], Dict.find d k = none ∧ Dict.find d' k = none) (hl : ¬ "lnu".toList <:+: name.toList) :
    coeff d name = coeff d' name := by
  have key : ∀ (new : String) (s s' : List Char), ¬ "lnu".toList <:+: s → Replaced "lnu".toList new.toList s s' → s' = s := by
    intro new s s' hs hr
    induction hr with
    | nil => rfl
    | hit rest rest' _ _ => exact absurd ⟨[], rest, by simp⟩ hs
    | char c s s' _ _ ih => rw [ih fun ⟨a, b, e⟩ => hs ⟨c :: a, b, by rw [← e]; rfl⟩]
  have val : ∀ {D : Dict String ℂ} {z}, ValueOf D name z → coeff D name = z := by
    rintro D z (h | ⟨-, ke, km, he, -, e, -⟩)
    · rw [coeff, h]; rfl
    · have : ke = name := String.toList_injective (key _ _ _ hl he)
      rwa [← this]
  obtain ⟨z, h1, h2⟩ := C93_partial h h' hr hi pr pi ni hd
  rw [val h1, val h2]

/-- **C93**, charged currents: if neither set has the coefficient without lepton flavour, the electron and muon versions are equal. -/
theorem C93_charged (h : wcxf2eos d sm = .ok out) (h' : wcxf2eos d' sm = .ok out) {kr ki name ke km : String}
    (hr : kr ∈ Dict.keys sm) (hi : ki ∈ Dict.keys sm) (pr : PartOf "Re" kr name) (pi : PartOf "Im" ki name) (ni : NoPart "Re" ki)
    (hd : ∀ k ∈ [kr, ki], Dict.find d k = none ∧ Dict.find d' k = none) (hn : Dict.find d name = none ∧ Dict.find d' name = none)
    (he : Lepton "enue" name ke) (hm : Lepton "munumu" name km) :
    coeff d ke = coeff d' ke ∧ coeff d km = coeff d' km := by
  have val : ∀ {D : Dict String ℂ} {z}, Dict.find D name = none → ValueOf D name z → coeff D ke = z ∧ coeff D km = z := by
    rintro D z hn (h | ⟨-, ke', km', he', hm', e, e'⟩)
    · rw [hn] at h; cases h
    · obtain rfl : ke = ke' := (lepton_iff.1 he).trans (lepton_iff.1 he').symm
      obtain rfl : km = km' := (lepton_iff.1 hm).trans (lepton_iff.1 hm').symm
      exact ⟨e, e'⟩
  obtain ⟨z, h1, h2⟩ := C93_partial h h' hr hi pr pi ni hd
  obtain ⟨a, b⟩ := val hn.1 h1
  obtain ⟨a', b'⟩ := val hn.2 h2
  exact ⟨a.trans a'.symm, b.trans b'.symm⟩

/-- **C93, refuted**: of a coefficient whose own name is a parameter, such as `b->s::c1`, only the real part is written. -/
theorem C93_refuted : ¬ ∀ (d d' : Dict String ℂ) (sm : Dict String JVal) (out : Dict String (Dict String ℝ)),
    wcxf2eos d sm = .ok out → wcxf2eos d' sm = .ok out → ∀ k ∈ Dict.keys sm, coeff d k = coeff d' k := by
  intro h
  have key : ∀ z : ℂ, z.re = 1 → wcxf2eos [("b->s::c1", z)] [("b->s::c1", .obj [("central", .num 2)])] =
      .ok [("b->s::c1", [("central", 3), ("min", 3), ("max", 3)])] := by
    intro z hz
    rw [C20_sm_plus_np]
    refine .cons ⟨rfl, 2, 1, ⟨_, rfl, .inl rfl⟩, ?_, by norm_num⟩ .nil
    rw [← hz]
    exact .direct z rfl
  have := h [("b->s::c1", ⟨1, 5⟩)] [("b->s::c1", ⟨1, 0⟩)] _ _ (key _ rfl) (key _ rfl) "b->s::c1" (by simp [Dict.keys])
  have e := congrArg Complex.im this
  simp [coeff, Dict.find] at e

/-- Non-trivial instance: a file with one complex coefficient can only come from that coefficient. -/
example (d : Dict String ℂ) (hd : ∀ k ∈ ["b->s::Re{c9}", "b->s::Im{c9}"], Dict.find d k = none)
    (h : wcxf2eos d [("b->s::Re{c9}", .obj [("central", .num 4)]), ("b->s::Im{c9}", .obj [("central", .num 1)])] =
      .ok [("b->s::Re{c9}", [("central", 6), ("min", 6), ("max", 6)]), ("b->s::Im{c9}", [("central", 4), ("min", 4), ("max", 4)])]) :
    coeff d "b->s::c9" = ⟨2, 3⟩ := by
  have p1 : PartOf "Re" "b->s::Re{c9}" "b->s::c9" :=
    C20_single_group "Re" "b->s::" "c9" "" (by decide) (by decide +kernel) (by decide +kernel) (by decide +kernel) (by decide +kernel)
  have p2 : PartOf "Im" "b->s::Im{c9}" "b->s::c9" :=
    C20_single_group "Im" "b->s::" "c9" "" (by decide) (by decide +kernel) (by decide +kernel) (by decide +kernel) (by decide +kernel)
  have n2 : NoPart "Re" "b->s::Im{c9}" := by unfold NoPart; decide +kernel
  have h' : wcxf2eos [("b->s::c9", ⟨2, 3⟩)]
      [("b->s::Re{c9}", .obj [("central", .num 4)]), ("b->s::Im{c9}", .obj [("central", .num 1)])] =
      .ok [("b->s::Re{c9}", [("central", 6), ("min", 6), ("max", 6)]), ("b->s::Im{c9}", [("central", 4), ("min", 4), ("max", 4)])] := by
    rw [C20_sm_plus_np]
    refine .cons ⟨rfl, 4, 2, ⟨_, rfl, .inl rfl⟩, .re _ _ rfl p1 (.own ⟨2, 3⟩ rfl), by norm_num⟩ ?_
    exact .cons ⟨rfl, 1, 3, ⟨_, rfl, .inl rfl⟩, .im _ _ rfl n2 p2 (.own ⟨2, 3⟩ rfl), by norm_num⟩ .nil
  rw [C93_neutral h h' (by simp [Dict.keys]) (by simp [Dict.keys]) p1 p2 n2 (fun k hk => ⟨hd k hk, ?_⟩) (by decide +kernel)]
  · rfl
  · simp only [List.mem_cons, List.not_mem_nil, or_false] at hk
    rcases hk with rfl | rfl <;> rfl

end Verif
