import Verif.Lemmas.SmeftsimName

/-!
C55: the SMEFTsim parameter card (wcxf/converters/smeftsim.py) is complete and correctly addressed.
C66: whether it determines the coefficients. C67: whether its entries are real numbers.
-/

set_option autoImplicit false

namespace Verif

open Spec

/-- An entry of a card, with its block. -/
def InCard (card : Card) (p : String × CEntry) : Prop := ∃ es, (p.1, some es) ∈ card ∧ p.2 ∈ es

/-- `FRBlock` and `NEWCOUP` are numbered lists, all other blocks have the flavour indices as addresses. -/
def numbered (b : String) : Bool := decide (b = "FRBlock" ∨ b = "NEWCOUP")

/-- The comment of an entry is the SMEFTsim name (up to the case of the letters) of a parameter. -/
def NamedAs (p : String × CEntry) (k part : String) (j : List (Fin 3)) : Prop :=
  p.2.comment.toList.map Char.toLower = '#' :: ' ' :: simParam k part (!numbered p.1) j

/-- The number of a parameter for the coefficient `z` (in units of the inverse cutoff squared): the argument for a phase; the
magnitude, or the coefficient itself if it is real. -/
def CardValue (lam : ℝ) (op : Op) (i : List (Fin 3)) (part : String) (z : ℂ) (x : CNum) : Prop :=
  (part = "ph" ∧ x = .float (Complex.arg z)) ∨
  (part ≠ "ph" ∧ x = .float (‖z‖ * lam ^ 2)) ∨
  (part ≠ "ph" ∧ IsReal op i ∧ x.val = z * (lam : ℂ) ^ 2)

/-- The entry for the cutoff. -/
def IsCutoff (lam : ℝ) (p : String × CEntry) : Prop :=
  (p.2.comment = "# LambdaSMEFT" ∨ p.2.comment = "# Lambda") ∧ p.2.num = .float lam

/-! ### Entries and rows -/

theorem numbered_eq (b : String) : (!numbered b) = decide (b ≠ "FRBlock" ∧ b ≠ "NEWCOUP") := by
  unfold numbered
  by_cases h1 : b = "FRBlock" <;> by_cases h2 : b = "NEWCOUP" <;> simp [h1, h2]

theorem frblock_mem (m : ModelSet) : "FRBlock" ∈ (setBlocks m).map Prod.fst := by
  rw [blocks_keys, ← init_keys]
  cases m <;> decide +kernel

theorem inCard_iff {m : ModelSet} {d : Dict String CNum} {lam : ℝ} {s : Scheme} {p : String × CEntry} :
    InCard (fullCard m d lam s) p ↔ (∃ q ∈ flat m, p = (q.1, (flatRow m q).entryD d lam)) ∨
      (p.1 = "FRBlock" ∧ p.2 ∈ mwRows m s) := by
  obtain ⟨b, e⟩ := p
  unfold InCard fullCard
  constructor
  · rintro ⟨es, hm, he⟩
    obtain ⟨x, hx, hxe⟩ := List.mem_map.1 hm
    simp only [Prod.mk.injEq, Option.some.injEq] at hxe
    obtain ⟨rfl, rfl⟩ := hxe
    rcases List.mem_append.1 he with he | he
    · obtain ⟨r, hr, rfl⟩ := List.mem_map.1 he
      obtain ⟨q, hq, hb, rfl⟩ := mem_flat.1 ⟨x.2, hx, hr⟩
      exact .inl ⟨q, hq, by rw [hb]⟩
    · split_ifs at he with hb
      · exact .inr ⟨hb, he⟩
      · exact absurd he List.not_mem_nil
  · rintro (⟨q, hq, he⟩ | ⟨rfl, he⟩)
    · simp only [Prod.mk.injEq] at he
      obtain ⟨rfl, rfl⟩ := he
      obtain ⟨rs, hrs, hr⟩ := mem_flat.2 ⟨q, hq, rfl, rfl⟩
      exact ⟨_, List.mem_map.2 ⟨_, hrs, rfl⟩, List.mem_append.2 (.inl (List.mem_map.2 ⟨_, hr, rfl⟩))⟩
    · obtain ⟨x, hx, hxe⟩ := List.mem_map.1 (frblock_mem m)
      exact ⟨_, List.mem_map.2 ⟨x, hx, by rw [hxe]⟩, List.mem_append.2 (.inr (by rw [if_pos rfl]; exact he))⟩

/-- A filled card is the full card, and all coefficients are present. -/
theorem fill_inv {m : ModelSet} {d : Dict String CNum} {lam : ℝ} {s : Scheme} {card : Card}
    (h : cardFill (initializeCard m) d m lam s = .ok card) : HaveAll m d ∧ card = fullCard m d lam s := by
  by_cases ha : HaveAll m d
  · rw [fill_ok lam s ha] at h
    exact ⟨ha, (Except.ok.inj h).symm⟩
  · rw [fill_err lam s ha] at h; cases h

theorem cardPart_iff (op : Op) (i : List (Fin 3)) (part : String) :
    CardPart op i part ↔ ∃ ph, part = partName op ph ∧ (ph = true → op ≠ .boson ∧ ¬ IsReal op i) ∧ (op = .boson → ph = false) := by
  unfold CardPart
  constructor
  · rintro (⟨rfl, rfl⟩ | ⟨h, rfl⟩ | ⟨h, rfl, hr⟩)
    · exact ⟨false, rfl, by simp, by simp⟩
    · exact ⟨false, by cases op <;> first | rfl | exact absurd rfl h, by simp, by simp⟩
    · exact ⟨true, by cases op <;> first | rfl | exact absurd rfl h, fun _ => ⟨h, hr⟩, fun e => absurd e h⟩
  · rintro ⟨ph, rfl, h, h'⟩
    by_cases hb : op = .boson
    · subst hb; exact .inl ⟨rfl, rfl⟩
    · cases ph with
      | false => exact .inr (.inl ⟨hb, by cases op <;> first | rfl | exact absurd rfl hb⟩)
      | true => exact .inr (.inr ⟨hb, by cases op <;> first | rfl | exact absurd rfl hb, (h rfl).2⟩)

theorem code_part {m : ModelSet} {c : ℕ} (h : c ∈ codesOf m) (hl : c % 8 ≠ 4) :
    CardPart (cOp c).op (cIx c) (partName (cOp c).op (cPh c)) := by
  rw [cardPart_iff]
  refine ⟨cPh c, rfl, fun hp => ⟨?_, ?_⟩, boson_ph h hl⟩
  · intro hb; rw [boson_ph h hl hb] at hp; cases hp
  · exact (valid_spec h hl).ph (of_decide_eq_true hp)

theorem code_named {m : ModelSet} {q : String × Bool × List ℕ × ℕ} (h : q ∈ flat m) (hl : q.2.2.2 % 8 ≠ 4)
    (d : Dict String CNum) (lam : ℝ) :
    NamedAs (q.1, (flatRow m q).entryD d lam) (cOp q.2.2.2).name (partName (cOp q.2.2.2).op (cPh q.2.2.2)) (cIx' q.2.2.2) := by
  unfold NamedAs
  dsimp only
  rw [numbered_eq, ← flat_sep h]
  exact comment_low (code_of_flat h) hl _ _

theorem part_ph {op : Op} {ph : Bool} (h : op = .boson → ph = false) : partName op ph = "ph" ↔ ph = true := by
  cases op <;> cases ph <;> simp_all [partName]

/-- The row of a coefficient. -/
theorem code_entry {m : ModelSet} {d : Dict String CNum} (ha : HaveAll m d) {q : String × Bool × List ℕ × ℕ} (h : q ∈ flat m)
    (hl : q.2.2.2 % 8 ≠ 4) (lam : ℝ) : ∃ z, Dict.find d (label (cOp q.2.2.2).name (cIx q.2.2.2)) = some z ∧
      (flatRow m q).entryD d lam = ⟨q.2.2.1, (cKind q.2.2.2).apply lam z, (flatRow m q).comment⟩ := by
  have hv := valid_spec (code_of_flat h) hl
  have hk := (haveAll_iff m d).1 ha _ _ _ _ hv.coeff
  obtain ⟨z, hz⟩ := Option.isSome_iff_exists.1 (Dict.find_isSome_iff.2 hk)
  change Dict.find d _ = some z at hz
  refine ⟨z, hz, ?_⟩
  unfold CRow.entryD flatRow
  rw [expand_coeff _ _ _ hv.notLam]
  dsimp only
  rw [Dict.getD, hz]
  rfl

theorem apply_value {m : ModelSet} {c : ℕ} (h : c ∈ codesOf m) (hl : c % 8 ≠ 4) (lam : ℝ) (z : CNum) :
    CardValue lam (cOp c).op (cIx c) (partName (cOp c).op (cPh c)) z.val ((cKind c).apply lam z) := by
  have hv := valid_spec h hl
  have hp := part_ph (boson_ph h hl)
  unfold CardValue
  rw [ne_eq, hp, cPh]
  cases hk : cKind c with
  | ph => exact .inl ⟨by simp, rfl⟩
  | abs => exact .inr (.inl ⟨by simp, rfl⟩)
  | absOf =>
    refine .inr (.inl ⟨by simp, ?_⟩)
    simp only [CKind.apply, norm_mul, Complex.norm_real, Real.norm_eq_abs]
    rw [abs_of_nonneg (sq_nonneg lam)]
  | val =>
    refine .inr (.inr ⟨by simp, hv.val hk, ?_⟩)
    cases z with
    | float x => simp [CKind.apply, CNum.val]
    | complex z => simp [CKind.apply, CNum.val]
  | lam => exact absurd hk hv.notLam

/-! ### C55 -/

/-- C55: filling the card succeeds exactly if every independent coefficient that conserves baryon and lepton number is present;
otherwise `KeyError`. -/
theorem C55_complete (m : ModelSet) (d : Dict String CNum) (lam : ℝ) (s : Scheme) :
    ((∃ card, cardFill (initializeCard m) d m lam s = .ok card) ↔ ∀ key k op i, IsCoeff key k op i → key ∈ Dict.keys d) ∧
    ((∃ key k op i, IsCoeff key k op i ∧ key ∉ Dict.keys d) → cardFill (initializeCard m) d m lam s = .error .keyError) := by
  constructor
  · rw [← haveAll_iff m]
    exact ⟨fun ⟨card, h⟩ => (fill_inv h).1, fun h => ⟨_, fill_ok lam s h⟩⟩
  · rintro ⟨key, k, op, i, hc, hk⟩
    exact fill_err lam s fun h => hk ((haveAll_iff m d).1 h key k op i hc)

/-- C55: what the entries are: the cutoff, the W mass (set A with the W mass as input), or a parameter of an independent coefficient
with the name of that coefficient (possibly with indices that give the same entry by a symmetry of the operator) and its value. In
blocks with flavour indices as addresses the address and the name have the indices of the coefficient. -/
theorem C55_entries {m : ModelSet} {d : Dict String CNum} {lam : ℝ} {s : Scheme} {card : Card}
    (h : cardFill (initializeCard m) d m lam s = .ok card) {p : String × CEntry} (hp : InCard card p) :
    IsCutoff lam p ∨ (m = .A ∧ s = .mw ∧ p = ("FRBlock", mwRow)) ∨
    ∃ key k op i part j z, IsCoeff key k op i ∧ CardPart op i part ∧ SameEntry op i j ∧ NamedAs p k part j ∧
      Dict.find d key = some z ∧ CardValue lam op i part z.val p.2.num ∧
      (numbered p.1 = false → j = i ∧ p.2.addr = i.map fun f => f.val + 1) := by
  obtain ⟨ha, rfl⟩ := fill_inv h
  rcases inCard_iff.1 hp with ⟨q, hq, rfl⟩ | ⟨hb, he⟩
  · by_cases hl : q.2.2.2 % 8 = 4
    · left
      have hlam := (lam_iff q.2.2.2).2 (by omega)
      unfold IsCutoff flatRow
      rw [expand_lam _ _ _ hlam]
      refine ⟨?_, rfl⟩
      cases m
      · exact .inl rfl
      · exact .inr rfl
    · right; right
      have hv := valid_spec (code_of_flat hq) hl
      obtain ⟨z, hz, he⟩ := code_entry ha hq hl lam
      refine ⟨_, _, _, _, _, _, z, hv.coeff, code_part (code_of_flat hq) hl, hv.same, code_named hq hl d lam, hz, ?_, ?_⟩
      · rw [he]; exact apply_value (code_of_flat hq) hl lam z
      · intro hn
        obtain ⟨h1, -, h3⟩ := flat_addr hq (by rw [flat_sep hq, ← numbered_eq]; simpa using hn)
        refine ⟨h3, ?_⟩
        rw [he]; exact h1
  · right; left
    obtain ⟨b, e⟩ := p
    cases m <;> cases s <;> simp only [mwRows, List.not_mem_nil, List.mem_singleton] at he
    dsimp only at hb
    exact ⟨rfl, rfl, by rw [hb, he]⟩

/-- Entries that name a parameter come from the row of that coefficient. -/
theorem named_row {m : ModelSet} {d : Dict String CNum} {lam : ℝ} {s : Scheme} {p : String × CEntry}
    (hp : InCard (fullCard m d lam s) p) {key k : String} {op : Op} {i j : List (Fin 3)} {part : String} (hc : IsCoeff key k op i)
    (hpart : CardPart op i part) (hs : SameEntry op i j) (hn : NamedAs p k part j) :
    ∃ q ∈ flat m, p = (q.1, (flatRow m q).entryD d lam) ∧ q.2.2.2 % 8 ≠ 4 ∧ (cOp q.2.2.2).name = k ∧ (cOp q.2.2.2).op = op ∧
      cIx q.2.2.2 = i ∧ partName op (cPh q.2.2.2) = part ∧ (op = .boson → cPh q.2.2.2 = false) := by
  have hnot : ∀ l : List Char, ∀ x l', x ≠ 'c' → p.2.comment.toList.map Char.toLower = '#' :: ' ' :: x :: l' → False := by
    intro l x l' hx he
    unfold NamedAs at hn
    rw [hn] at he
    simp only [simParam, List.cons_append, List.cons.injEq, true_and] at he
    exact hx he.1.symm
  rcases inCard_iff.1 hp with ⟨q, hq, rfl⟩ | ⟨hb, he⟩
  · by_cases hl : q.2.2.2 % 8 = 4
    · exfalso
      have hlam := (lam_iff q.2.2.2).2 (by omega)
      have : (flatRow m q).comment.toList = lamComment m := by
        rw [flatRow, expand_lam _ _ _ hlam, String.toList_ofList]
      refine hnot [] 'l' ((lamComment m).drop 3 |>.map Char.toLower) (by decide) ?_
      change (flatRow m q).comment.toList.map Char.toLower = _
      rw [this]
      cases m <;> rfl
    · refine ⟨q, hq, rfl, hl, ?_⟩
      have hv := valid_spec (code_of_flat hq) hl
      have hn' := code_named hq hl d lam
      obtain ⟨n, t, hlt, ht, hk, hop, hi⟩ := coeff_no hc
      obtain ⟨ph, rfl, h1, h2⟩ := (cardPart_iff _ _ _).1 hpart
      unfold NamedAs at hn hn'
      rw [hn'] at hn
      simp only [List.cons.injEq, true_and] at hn
      rw [← hk, ← hop] at hn
      obtain ⟨e1, e2, e3⟩ := simParam_inj hv.op hlt (boson_ph (code_of_flat hq) hl) (by rw [hop]; exact h2) hn
      have hco : cOp q.2.2.2 = opNo n := by rw [cOp, e1]
      have hso := hv.same
      have hio := hv.coeff.2.2
      rw [hco, hop] at hso hio
      rw [e3] at hso
      refine ⟨by rw [hco, hk], by rw [hco, hop], indep_unique hio hc.2.2 (SameEntry.trans hso (SameEntry.symm hs)), by rw [e2], ?_⟩
      rw [e2]; exact h2
  · exfalso
    cases m <;> cases s <;> simp only [mwRows, List.not_mem_nil, List.mem_singleton] at he
    refine hnot [] 'm' ['w', '0'] (by decide) ?_
    rw [he]
    decide +kernel

/-- C55: every parameter of every independent coefficient has exactly one entry in the card. -/
theorem C55_once {m : ModelSet} {d : Dict String CNum} {lam : ℝ} {s : Scheme} {card : Card}
    (h : cardFill (initializeCard m) d m lam s = .ok card) {key k : String} {op : Op} {i : List (Fin 3)} {part : String}
    (hc : IsCoeff key k op i) (hpart : CardPart op i part) :
    ∃! p, InCard card p ∧ ∃ j, SameEntry op i j ∧ NamedAs p k part j := by
  obtain ⟨ha, rfl⟩ := fill_inv h
  refine existsUnique_of_exists_of_unique ?_ ?_
  · obtain ⟨ph, hph, h1, h2⟩ := (cardPart_iff _ _ _).1 hpart
    have hex : ∃ c ∈ codesOf m, c % 8 ≠ 4 ∧ cPh c = ph ∧ (cOp c).name = k ∧ (cOp c).op = op ∧ cIx c = i := by
      cases ph with
      | true =>
        obtain ⟨c, hm, hp, hk⟩ := coeff_ph m hc (h1 rfl).2
        exact ⟨c, hm, ph_ne4 ((isPh_iff c).1 hp), decide_eq_true ((isPh_iff c).1 hp), hk⟩
      | false =>
        obtain ⟨c, hm, hp, hk⟩ := coeff_mag m hc
        exact ⟨c, hm, ((isMag_iff c).1 hp).2.1, decide_eq_false ((isMag_iff c).1 hp).1, hk⟩
    obtain ⟨c, hm, hl, hp, hk, hop, hi⟩ := hex
    obtain ⟨q, hq, rfl⟩ := flat_of_code hm
    have hn := code_named hq hl d lam
    have hs := (valid_spec hm hl).same
    rw [hk, hop, hp, ← hph] at hn
    rw [hop, hi] at hs
    exact ⟨_, inCard_iff.2 (.inl ⟨q, hq, rfl⟩), _, hs, hn⟩
  · rintro p p' ⟨hp, j, hj, hn⟩ ⟨hp', j', hj', hn'⟩
    obtain ⟨q, hq, rfl, hl, hk, hop, hi, hpt, hb⟩ := named_row hp hc hpart hj hn
    obtain ⟨q', hq', rfl, hl', hk', hop', hi', hpt', hb'⟩ := named_row hp' hc hpart hj' hn'
    have hv := valid_spec (code_of_flat hq) hl
    have hv' := valid_spec (code_of_flat hq') hl'
    have e1 : q.2.2.2 / 8 % 64 = q'.2.2.2 / 8 % 64 := opNo_inj hv.op hv'.op (hk.trans hk'.symm)
    have e2 : q.2.2.2 / 512 % 128 = q'.2.2.2 / 512 % 128 := by
      have hii := hi.trans hi'.symm
      rw [cIx, cIx, hop, hop'] at hii
      exact ixOf_inj op (by rw [← hop]; exact hv.ix) (by rw [← hop']; exact hv'.ix) hii
    have hpp : cPh q.2.2.2 = cPh q'.2.2.2 := by
      have := hpt.trans hpt'.symm
      have h1 := part_ph hb
      have h2 := part_ph hb'
      rw [this] at h1
      have h3 : cPh q.2.2.2 = true ↔ cPh q'.2.2.2 = true := h1.symm.trans h2
      cases hx : cPh q.2.2.2 <;> cases hy : cPh q'.2.2.2 <;> simp_all
    have := codes_unique hq hq' hl hl' hpp (by rw [magKey, magKey, e1, e2])
    rw [this]

theorem addrNodup (m : ModelSet) : (codeTable m).all (fun p => p.2.1.isSome ||
    decide ((p.2.2.map fun c => (cIx c).map fun i => i.val + 1).Nodup)) = true := by
  cases m <;> decide +kernel

/-- C55: all blocks of the card are filled, and no address occurs twice in a block. -/
theorem C55_addresses {m : ModelSet} {d : Dict String CNum} {lam : ℝ} {s : Scheme} {card : Card}
    (h : cardFill (initializeCard m) d m lam s = .ok card) :
    Dict.keys card = Dict.keys (initializeCard m) ∧ (Dict.keys card).Nodup ∧
    ∀ p ∈ card, ∃ es, p.2 = some es ∧ (es.map CEntry.addr).Nodup := by
  obtain ⟨ha, rfl⟩ := fill_inv h
  have hkeys : Dict.keys (fullCard m d lam s) = Dict.keys (initializeCard m) := by
    rw [init_keys, ← blocks_keys]
    simp [Dict.keys, fullCard, Function.comp_def]
  refine ⟨hkeys, by rw [hkeys, init_keys]; exact init_nodup m, ?_⟩
  intro p hp
  obtain ⟨⟨b, rs⟩, hx, rfl⟩ := List.mem_map.1 hp
  refine ⟨_, rfl, ?_⟩
  dsimp only
  rw [setBlocks_eq] at hx
  obtain ⟨⟨b', st, l⟩, ht, he⟩ := List.mem_map.1 hx
  simp only [Prod.mk.injEq] at he
  obtain ⟨rfl, rfl⟩ := he
  have hexp : ∀ sep a c, (expand m sep a c).addr = a := by
    intro sep a c
    by_cases hk : cKind c = .lam
    · rw [expand_lam _ _ _ hk]
    · rw [expand_coeff _ _ _ hk]
  have haddr : ((codeRows m st l).map (CRow.entryD d lam)).map CEntry.addr = (addrCodes st l).map Prod.fst := by
    rw [codeRows, List.map_map, List.map_map]
    refine List.map_congr_left fun q _ => ?_
    exact hexp _ _ _
  rw [List.map_append, haddr]
  cases st with
  | none =>
    have hb : b' ≠ "FRBlock" := by
      have := table_sep m _ ht
      dsimp only at this
      exact (of_decide_eq_true (by rw [← this]; rfl : decide (b' ≠ "FRBlock" ∧ b' ≠ "NEWCOUP") = true)).1
    rw [if_neg hb, List.map_nil, List.append_nil]
    have := List.all_eq_true.1 (addrNodup m) _ ht
    simp only [Option.isSome_none, Bool.false_or, decide_eq_true_eq] at this
    simpa [addrCodes, Function.comp_def] using this
  | some n =>
    have hz : (addrCodes (some n) l).map Prod.fst = (List.range' n l.length).map fun x => [x] := by
      simp only [addrCodes, List.map_map]
      rw [← List.zipIdx_map_snd n l, List.map_map]
      rfl
    rw [hz]
    have hnd : ((List.range' n l.length).map fun x => [x]).Nodup :=
      List.Nodup.map (fun a b hab => by simpa using hab) List.nodup_range'
    split_ifs with hb
    · cases m with
      | B => cases s <;> simpa [mwRows] using hnd
      | A =>
        cases s with
        | alpha => simpa [mwRows] using hnd
        | mw =>
          have hfr : n = 1 ∧ l.length = 1474 := by
            have hall : (codeTableA.all fun p => decide (p.1 ≠ "FRBlock") || (decide (p.2.1 = some 1) && decide (p.2.2.length = 1474))) = true := by
              decide +kernel
            have := List.all_eq_true.1 hall _ ht
            rw [hb] at this
            simpa using this
          obtain ⟨rfl, hlen⟩ := hfr
          rw [hlen] at hnd ⊢
          refine List.nodup_append.2 ⟨hnd, by simp [mwRows], ?_⟩
          intro a ha b hb' hab
          obtain ⟨x, hx, rfl⟩ := List.mem_map.1 ha
          simp only [mwRows, mwRow, List.map_cons, List.map_nil, List.mem_singleton] at hb'
          rw [hb'] at hab
          simp only [List.cons.injEq, and_true] at hab
          rw [List.mem_range'_1] at hx
          omega
    · simpa using hnd

end Verif
