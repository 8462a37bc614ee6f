import Verif.Props.Smeftsim
import Verif.Lemmas.SmeftLemmas

/-!
C66: whether the SMEFTsim parameter card determines the coefficients. C67: whether its entries are real numbers.
-/

set_option autoImplicit false

namespace Verif

open Spec

/-- The real coefficients of which the card has the magnitude only: all those of operators with two fermions, and in set A `ee_3333`. -/
def SignLost (m : ModelSet) (k : String) (op : Op) (i : List (Fin 3)) : Prop :=
  IsReal op i ∧ ((∃ x y, op = .two x y) ∨ (m = .A ∧ k = "ee" ∧ i = [2, 2, 2, 2]))

/-- The same for a code. -/
def lostB (m : ModelSet) (c : ℕ) : Bool :=
  realB (cOp c).op (cIx c) && match (cOp c).op with
    | .boson => false
    | .two _ _ => true
    | .four _ _ _ _ => decide (m = .A) && decide ((cOp c).chars = ['e', 'e']) && decide (cIx c = [2, 2, 2, 2])

theorem lostB_iff (m : ModelSet) (c : ℕ) : lostB m c = true ↔ SignLost m (cOp c).name (cOp c).op (cIx c) := by
  have hn : (cOp c).name = "ee" ↔ (cOp c).chars = ['e', 'e'] := by
    constructor
    · intro h
      have := congrArg String.toList h
      rwa [SOp.name, String.toList_ofList] at this
    · intro h; rw [SOp.name, h]
  unfold lostB SignLost
  rw [Bool.and_eq_true, realB_iff]
  refine and_congr_right fun hr => ?_
  split
  · rename_i hop
    have hix : cIx c ≠ [2, 2, 2, 2] := by rw [cIx, hop]; exact nofun
    simp [hop, hix]
  · rename_i hop; simp [hop]
  · rename_i hop; simp [hop, hn, and_assoc]

/-- Real coefficients are written as they are, except those above. -/
theorem lostA : (codesOf .A).all (fun c => decide (c % 8 = 4) || decide (cKind c = .ph) ||
    (decide (cKind c = .val) == (realB (cOp c).op (cIx c) && !lostB .A c))) = true := by decide +kernel

theorem lostBB : (codesOf .B).all (fun c => decide (c % 8 = 4) || decide (cKind c = .ph) ||
    (decide (cKind c = .val) == (realB (cOp c).op (cIx c) && !lostB .B c))) = true := by decide +kernel

attribute [local irreducible] codesOf

theorem val_iff {m : ModelSet} {c : ℕ} (h : c ∈ codesOf m) (hl : c % 8 ≠ 4) (hp : cKind c ≠ .ph) :
    cKind c = .val ↔ IsReal (cOp c).op (cIx c) ∧ ¬ SignLost m (cOp c).name (cOp c).op (cIx c) := by
  have hx : (decide (c % 8 = 4) || decide (cKind c = .ph) ||
      (decide (cKind c = .val) == (realB (cOp c).op (cIx c) && !lostB m c))) = true := by
    cases m
    · exact List.all_eq_true.1 lostA c h
    · exact List.all_eq_true.1 lostBB c h
  simp only [hl, hp, decide_false, Bool.false_or, beq_iff_eq] at hx
  rw [← realB_iff, ← lostB_iff, ← decide_eq_true_iff (p := cKind c = .val), hx]
  simp

/-- The row that belongs to a coefficient. -/
theorem row_key {m : ModelSet} {c : ℕ} (h : c ∈ codesOf m) (hl : c % 8 ≠ 4) {key k : String} {op : Op} {i : List (Fin 3)}
    (hc : IsCoeff key k op i) (e : label (cOp c).name (cIx c) = key) : (cOp c).name = k ∧ (cOp c).op = op ∧ cIx c = i := by
  have hv := valid_spec h hl
  have ho := hv.coeff.1.1
  obtain ⟨e1, e2⟩ := label_inj (isOp_plain ho) (isOp_plain hc.1.1) (e.trans hc.1.2.2)
  rw [e1] at ho
  exact ⟨e1, isOp_unique ho hc.1.1, e2⟩

theorem fullCard_congr {m : ModelSet} {d d' : Dict String CNum} {lam : ℝ} {s : Scheme}
    (h : ∀ q ∈ flat m, (flatRow m q).entryD d lam = (flatRow m q).entryD d' lam) : fullCard m d lam s = fullCard m d' lam s := by
  unfold fullCard
  refine List.map_congr_left fun p hp => ?_
  have : p.2.map (CRow.entryD d lam) = p.2.map (CRow.entryD d' lam) := by
    refine List.map_congr_left fun r hr => ?_
    obtain ⟨q, hq, -, rfl⟩ := mem_flat.1 ⟨p.2, hp, hr⟩
    exact h q hq
  rw [this]

theorem fullCard_inj {m : ModelSet} {d d' : Dict String CNum} {lam : ℝ} {s : Scheme}
    (h : fullCard m d lam s = fullCard m d' lam s) : ∀ q ∈ flat m, (flatRow m q).entryD d lam = (flatRow m q).entryD d' lam := by
  intro q hq
  obtain ⟨rs, hrs, hr⟩ := mem_flat.2 ⟨q, hq, rfl, rfl⟩
  have := List.map_inj_left.1 h _ hrs
  simp only [Prod.mk.injEq, Option.some.injEq, true_and] at this
  exact List.map_inj_left.1 (List.append_cancel_right this) _ hr

/-- C66 is false: for the coefficients in `SignLost` the card depends on the magnitude only. -/
theorem C66_sign_lost {m : ModelSet} {key k : String} {op : Op} {i : List (Fin 3)} (hc : IsCoeff key k op i)
    (hs : SignLost m k op i) (lam : ℝ) (s : Scheme) {d d' : Dict String CNum} {z z' : CNum}
    (hd : ∀ x, x ≠ key → Dict.find d x = Dict.find d' x) (hz : Dict.find d key = some z) (hz' : Dict.find d' key = some z')
    (hn : ‖z.val‖ = ‖z'.val‖) :
    cardFill (initializeCard m) d m lam s = cardFill (initializeCard m) d' m lam s := by
  have hkeys : ∀ x, x ∈ Dict.keys d ↔ x ∈ Dict.keys d' := by
    intro x
    rw [← Dict.find_isSome_iff, ← Dict.find_isSome_iff]
    by_cases hx : x = key
    · rw [hx, hz, hz']; simp
    · rw [hd x hx]
  by_cases ha : HaveAll m d
  · have ha' : HaveAll m d' := by
      rw [haveAll_iff] at ha ⊢
      exact fun key k op i h => (hkeys key).1 (ha key k op i h)
    rw [fill_ok lam s ha, fill_ok lam s ha']
    refine congrArg _ (fullCard_congr fun q hq => ?_)
    by_cases hl : q.2.2.2 % 8 = 4
    · have hlam := (lam_iff q.2.2.2).2 (by omega)
      unfold flatRow CRow.entryD
      rw [expand_lam _ _ _ hlam]
      rfl
    · obtain ⟨y, hy, he⟩ := code_entry ha hq hl lam
      obtain ⟨y', hy', he'⟩ := code_entry ha' hq hl lam
      rw [he, he']
      by_cases hx : label (cOp q.2.2.2).name (cIx q.2.2.2) = key
      · obtain ⟨e1, e2, e3⟩ := row_key (code_of_flat hq) hl hc hx
        rw [hx, hz] at hy
        rw [hx, hz'] at hy'
        obtain rfl := Option.some.inj hy
        obtain rfl := Option.some.inj hy'
        have hv := valid_spec (code_of_flat hq) hl
        rw [← e1, ← e2, ← e3] at hs
        have hp : cKind q.2.2.2 ≠ .ph := fun h => hv.ph h hs.1
        have hval : cKind q.2.2.2 ≠ .val := fun h => ((val_iff (code_of_flat hq) hl hp).1 h).2 hs
        have hlam := hv.notLam
        have : (cKind q.2.2.2).apply lam z = (cKind q.2.2.2).apply lam z' := by
          cases hk : cKind q.2.2.2 with
          | abs => simp only [CKind.apply, hn]
          | absOf => simp only [CKind.apply, norm_mul, hn]
          | ph => exact absurd hk hp
          | val => exact absurd hk hval
          | lam => exact absurd hk hlam
        rw [this]
      · rw [hd _ hx, hy'] at hy
        rw [Option.some.inj hy]
  · have ha' : ¬ HaveAll m d' := by
      intro h
      apply ha
      rw [haveAll_iff] at h ⊢
      exact fun key k op i hx => (hkeys key).2 (h key k op i hx)
    rw [fill_err lam s ha, fill_err lam s ha']

/-- C66, the part that holds: equal cards come from coefficients of equal magnitudes, and, except for the real coefficients in
`SignLost`, from equal coefficients. -/
theorem C66_partial {m : ModelSet} {lam : ℝ} (hlam : lam ≠ 0) {s : Scheme} {d d' : Dict String CNum} {card : Card}
    (h : cardFill (initializeCard m) d m lam s = .ok card) (h' : cardFill (initializeCard m) d' m lam s = .ok card)
    {key k : String} {op : Op} {i : List (Fin 3)} (hc : IsCoeff key k op i) :
    ∃ z z', Dict.find d key = some z ∧ Dict.find d' key = some z' ∧ ‖z.val‖ = ‖z'.val‖ ∧
      (¬ SignLost m k op i → z.val = z'.val) := by
  obtain ⟨ha, rfl⟩ := fill_inv h
  obtain ⟨ha', hcard⟩ := fill_inv h'
  have hrow := fullCard_inj hcard
  have hl2 : (lam : ℝ) ^ 2 ≠ 0 := pow_ne_zero 2 hlam
  have hl2c : ((lam ^ 2 : ℝ) : ℂ) ≠ 0 := Complex.ofReal_ne_zero.2 hl2
  obtain ⟨c, hm, hmag, hk, hop, hi⟩ := coeff_mag m hc
  obtain ⟨q, hq, rfl⟩ := flat_of_code hm
  obtain ⟨hnp, hl, hnl⟩ := (isMag_iff _).1 hmag
  have hkey : label (cOp q.2.2.2).name (cIx q.2.2.2) = key := by rw [hk, hi]; exact hc.1.2.2.symm
  obtain ⟨z, hz, he⟩ := code_entry ha hq hl lam
  obtain ⟨z', hz', he'⟩ := code_entry ha' hq hl lam
  rw [hkey] at hz hz'
  have hee := hrow q hq
  rw [he, he'] at hee
  have hnum : (cKind q.2.2.2).apply lam z = (cKind q.2.2.2).apply lam z' := congrArg CEntry.num hee
  have hmul : ∀ x y : ℝ, x * lam ^ 2 = y * lam ^ 2 → x = y := fun x y e => mul_right_cancel₀ hl2 e
  have hsq : |lam ^ 2| = lam ^ 2 := abs_of_nonneg (sq_nonneg lam)
  have hval : cKind q.2.2.2 = .val → z.val = z'.val := by
    intro hkv
    rw [hkv] at hnum
    cases z with
    | float x =>
      cases z' with
      | float y =>
        simp only [CKind.apply, CNum.float.injEq] at hnum
        rw [hmul _ _ hnum]
      | complex y => simp only [CKind.apply] at hnum; cases hnum
    | complex x =>
      cases z' with
      | float y => simp only [CKind.apply] at hnum; cases hnum
      | complex y =>
        simp only [CKind.apply, CNum.complex.injEq] at hnum
        exact mul_right_cancel₀ hl2c hnum
  have hnorm : ‖z.val‖ = ‖z'.val‖ := by
    cases hkk : cKind q.2.2.2 with
    | ph => exact absurd hkk hnp
    | lam => exact absurd hkk hnl
    | val => rw [hval hkk]
    | abs =>
      rw [hkk] at hnum
      simp only [CKind.apply, CNum.float.injEq] at hnum
      exact hmul _ _ hnum
    | absOf =>
      rw [hkk] at hnum
      simp only [CKind.apply, CNum.float.injEq, norm_mul, Complex.norm_real, Real.norm_eq_abs, hsq] at hnum
      exact hmul _ _ hnum
  refine ⟨z, z', hz, hz', hnorm, fun hs => ?_⟩
  by_cases hr : IsReal op i
  · refine hval ((val_iff (code_of_flat hq) hl hnp).2 ⟨?_, ?_⟩)
    · rw [hop, hi]; exact hr
    · rw [hk, hop, hi]; exact hs
  · obtain ⟨c, hm', hph, hk', hop', hi'⟩ := coeff_ph m hc hr
    obtain ⟨q', hq', rfl⟩ := flat_of_code hm'
    have hkp := (isPh_iff _).1 hph
    have hl' := ph_ne4 hkp
    have hkey' : label (cOp q'.2.2.2).name (cIx q'.2.2.2) = key := by rw [hk', hi']; exact hc.1.2.2.symm
    obtain ⟨y, hy, he⟩ := code_entry ha hq' hl' lam
    obtain ⟨y', hy', he'⟩ := code_entry ha' hq' hl' lam
    rw [hkey', hz] at hy
    rw [hkey', hz'] at hy'
    obtain rfl := Option.some.inj hy
    obtain rfl := Option.some.inj hy'
    have hee := hrow q' hq'
    rw [he, he', hkp] at hee
    have harg : Complex.arg z.val = Complex.arg z'.val := by
      have := congrArg CEntry.num hee
      simpa only [CKind.apply, CNum.float.injEq] using this
    exact Complex.ext_norm_arg hnorm harg

/-! ### A complete dictionary -/

/-- All coefficients of a card, with given values. -/
def allDict {α : Type} (f : String → α) : Dict String α :=
  (((codesOf .A).filter isMag).map fun c => label (cOp c).name (cIx c)).map fun k => (k, f k)

theorem find_map_self {α : Type} (f : String → α) (l : List String) (k : String) :
    Dict.find (l.map fun k => (k, f k)) k = if k ∈ l then some (f k) else none := by
  induction l with
  | nil => rfl
  | cons a l ih =>
    rw [List.map_cons, Dict.find_cons, ih]
    by_cases h : a = k
    · subst h; simp
    · have h' : ¬ k = a := fun e => h e.symm
      simp [h, h']

theorem allDict_find {α : Type} (f : String → α) {key k : String} {op : Op} {i : List (Fin 3)} (hc : IsCoeff key k op i) :
    Dict.find (allDict f) key = some (f key) := by
  obtain ⟨c, hm, hmag, hk, hop, hi⟩ := coeff_mag .A hc
  unfold allDict
  rw [find_map_self, if_pos]
  refine List.mem_map.2 ⟨c, List.mem_filter.2 ⟨hm, hmag⟩, ?_⟩
  rw [hk, hi]; exact hc.1.2.2.symm

theorem allDict_have (m : ModelSet) (f : String → CNum) : HaveAll m (allDict f) := by
  rw [haveAll_iff]
  intro key k op i hc
  exact Dict.find_isSome_iff.1 (by rw [allDict_find f hc]; rfl)

theorem coeff_phil1 : IsCoeff "phil1_11" "phil1" (.two (b .l) (n .l)) [0, 0] :=
  ⟨⟨opOf_isOp (by decide +kernel), rfl, by decide +kernel⟩, by decide, (indepB_iff _ _).1 (by decide)⟩

theorem coeff_ee : IsCoeff "ee_3333" "ee" (.four (b .e) (n .e) (b .e) (n .e)) [2, 2, 2, 2] :=
  ⟨⟨opOf_isOp (by decide +kernel), rfl, by decide +kernel⟩, by decide, (indepB_iff _ _).1 (by decide)⟩

/-- C66 refuted: in both sets there are real coefficients with the same card, for which `phil1_11` has different signs (and the same
for `ee_3333` in set A). -/
theorem C66_refuted : ¬ ∀ (m : ModelSet) (lam : ℝ) (s : Scheme) (d d' : Dict String CNum) (card : Card), lam ≠ 0 →
    (∀ p ∈ d, p.2.val.im = 0) → (∀ p ∈ d', p.2.val.im = 0) →
    cardFill (initializeCard m) d m lam s = .ok card → cardFill (initializeCard m) d' m lam s = .ok card →
    ∀ key k op i, IsCoeff key k op i → (Dict.find d key).map CNum.val = (Dict.find d' key).map CNum.val := by
  intro h
  let f : String → CNum := fun _ => .float 1
  let g : String → CNum := fun k => if k = "phil1_11" then .float (-1) else .float 1
  have hreal : ∀ f : String → CNum, (∀ k, (f k).val.im = 0) → ∀ p ∈ allDict f, p.2.val.im = 0 := by
    intro f hf p hp
    obtain ⟨k, -, rfl⟩ := List.mem_map.1 hp
    exact hf k
  have hfill := fill_ok (1 : ℝ) .alpha (allDict_have .A f)
  have heq : cardFill (initializeCard .A) (allDict f) .A 1 .alpha = cardFill (initializeCard .A) (allDict g) .A 1 .alpha := by
    refine C66_sign_lost coeff_phil1 ⟨(realB_iff _ _).1 (by decide), .inl ⟨_, _, rfl⟩⟩ 1 .alpha ?_ (allDict_find f coeff_phil1)
      (allDict_find g coeff_phil1) (by simp [f, g, CNum.val])
    intro x hx
    unfold allDict
    rw [find_map_self, find_map_self]
    simp [f, g, hx]
  have := h .A 1 .alpha _ _ _ one_ne_zero (hreal f (fun k => by simp [f, CNum.val]))
    (hreal g (fun k => by by_cases hk : k = "phil1_11" <;> simp [g, hk, CNum.val])) hfill (heq.symm.trans hfill) _ _ _ _ coeff_phil1
  rw [allDict_find f coeff_phil1, allDict_find g coeff_phil1] at this
  simp only [f, g, Option.map_some, if_true, CNum.val, Option.some.injEq, Complex.ofReal_neg, Complex.ofReal_one] at this
  norm_num at this

/-- Case: `ee_3333` in set A. -/
example : SignLost .A "ee" (.four (b .e) (n .e) (b .e) (n .e)) [2, 2, 2, 2] ∧
    ¬ SignLost .B "ee" (.four (b .e) (n .e) (b .e) (n .e)) [2, 2, 2, 2] :=
  ⟨⟨(realB_iff _ _).1 (by decide), .inr ⟨rfl, rfl, rfl⟩⟩, by rintro ⟨-, ⟨x, y, h⟩ | ⟨h, -⟩⟩ <;> cases h⟩

/-! ### C67 -/

/-- C67, the part that holds: all entries are real numbers exactly if the real coefficients (except those of which only the magnitude
is written) are given as plain numbers. -/
theorem C67_partial {m : ModelSet} {d : Dict String CNum} {lam : ℝ} {s : Scheme} {card : Card}
    (h : cardFill (initializeCard m) d m lam s = .ok card) :
    (∀ p, InCard card p → ∃ x, p.2.num = .float x) ↔
      ∀ key k op i, IsCoeff key k op i → IsReal op i → ¬ SignLost m k op i → ∃ x, Dict.find d key = some (.float x) := by
  obtain ⟨ha, rfl⟩ := fill_inv h
  constructor
  · intro hall key k op i hc hr hs
    obtain ⟨c, hm, hmag, hk, hop, hi⟩ := coeff_mag m hc
    obtain ⟨q, hq, rfl⟩ := flat_of_code hm
    obtain ⟨hnp, hl, hnl⟩ := (isMag_iff _).1 hmag
    obtain ⟨z, hz, he⟩ := code_entry ha hq hl lam
    have hv := (val_iff hm hl hnp).2 (by rw [hk, hop, hi]; exact ⟨hr, hs⟩)
    obtain ⟨x, hx⟩ := hall _ (inCard_iff.2 (.inl ⟨q, hq, rfl⟩))
    rw [he, hv] at hx
    rw [hk, hi] at hz
    rw [hc.1.2.2]
    cases z with
    | float y => exact ⟨y, hz⟩
    | complex y => simp only [CKind.apply] at hx; cases hx
  · intro hall p hp
    rcases inCard_iff.1 hp with ⟨q, hq, rfl⟩ | ⟨hb, he⟩
    · by_cases hl : q.2.2.2 % 8 = 4
      · have hlam := (lam_iff q.2.2.2).2 (by omega)
        refine ⟨lam, ?_⟩
        unfold flatRow CRow.entryD
        rw [expand_lam _ _ _ hlam]
        rfl
      · obtain ⟨z, hz, he⟩ := code_entry ha hq hl lam
        rw [he]
        cases hk : cKind q.2.2.2 with
        | val =>
          have hv := valid_spec (code_of_flat hq) hl
          have hx := (val_iff (code_of_flat hq) hl (by rw [hk]; exact nofun)).1 hk
          obtain ⟨x, hxf⟩ := hall _ _ _ _ hv.coeff hx.1 hx.2
          rw [hxf] at hz
          obtain rfl := Option.some.inj hz
          exact ⟨_, rfl⟩
        | abs => exact ⟨_, rfl⟩
        | absOf => exact ⟨_, rfl⟩
        | ph => exact ⟨_, rfl⟩
        | lam => exact ⟨_, rfl⟩
    · cases m <;> cases s <;> simp only [mwRows, List.not_mem_nil, List.mem_singleton] at he
      rw [he]
      exact ⟨_, rfl⟩

theorem coeff_G : IsCoeff "G" "G" .boson [] :=
  ⟨⟨opOf_isOp (by decide +kernel), rfl, rfl⟩, by decide, trivial⟩

/-- The file values of the witness: `{Re: 1}` for `G`, zero otherwise. -/
noncomputable def exReal : JVal := .obj (allDict fun k => if k = "G" then .obj [("Re", .num 1)] else .num 0)

theorem numMapM_ok {α β : Type} {ε : Type} (g : α → Except ε β) (f : α → β) : ∀ l : List α, (∀ a ∈ l, g a = .ok (f a)) →
    l.mapM g = .ok (l.map f)
  | [], _ => rfl
  | a :: l, h => by
    rw [List.mapM_cons, h a List.mem_cons_self, numMapM_ok g f l fun x hx => h x (List.mem_cons_of_mem _ hx)]
    rfl

theorem numDict_of (fl : String → Option ℝ) (w : WC) (hc : w.cache = .none) (l : List String)
    (hv : w.values = .obj (l.map fun k => (k, if k = "G" then .obj [("Re", .num 1)] else .num 0))) :
    w.numDict fl = .ok (l.map fun k => (k, if k = "G" then .complex 1 else .float 0)) := by
  unfold WC.numDict
  rw [hc, hv]
  simp only [itemsOf, bind, Except.bind]
  rw [numMapM_ok _ (fun p : String × JVal => (p.1, if p.1 = "G" then CNum.complex 1 else CNum.float 0))]
  · rw [List.map_map]; rfl
  · intro p hp
    obtain ⟨k, -, rfl⟩ := List.mem_map.1 hp
    dsimp only
    by_cases hk : k = "G"
    · rw [if_pos hk, if_pos hk]
      simp [toCNum, Dict.getD, Dict.find, pyFloat, bind, Except.bind, pure, Except.pure]
    · rw [if_neg hk, if_neg hk]
      simp [toCNum, pyFloat, bind, Except.bind, pure, Except.pure]

theorem exReal_dict (fl : String → Option ℝ) (w : WC) (hc : w.cache = .none) (hv : w.values = exReal) :
    w.numDict fl = .ok (allDict fun k => if k = "G" then .complex 1 else .float 0) :=
  numDict_of fl w hc _ hv

/-- C67 refuted: a file that gives the real coefficient `G` as `{Re: 1}` gives a card with an entry that is printed as a complex
number. -/
theorem C67_refuted (fl : String → Option ℝ) (w : WC) (hc : w.cache = .none) (hv : w.values = exReal) (m : ModelSet) (lam : ℝ) (s : Scheme) :
    ∃ d card p, w.numDict fl = .ok d ∧ cardFill (initializeCard m) d m lam s = .ok card ∧ InCard card p ∧
      ∃ z, p.2.num = .complex z := by
  let f : String → CNum := fun k => if k = "G" then .complex 1 else .float 0
  have hfill := fill_ok lam s (allDict_have m f)
  have hno : ¬ ∀ p, InCard (fullCard m (allDict f) lam s) p → ∃ x, p.2.num = .float x := by
    intro hall
    obtain ⟨x, hx⟩ := (C67_partial hfill).1 hall _ _ _ _ coeff_G trivial (by
      rintro ⟨-, ⟨x, y, h⟩ | ⟨-, h, -⟩⟩
      · cases h
      · exact absurd h (by decide))
    rw [allDict_find f coeff_G] at hx
    simp [f] at hx
  push Not at hno
  obtain ⟨p, hp, hn⟩ := hno
  refine ⟨_, _, p, exReal_dict fl w hc hv, hfill, hp, ?_⟩
  cases hx : p.2.num with
  | float x => exact absurd hx (hn x)
  | complex z => exact ⟨z, rfl⟩

/-- Case for C55 and C67: a complete dictionary. -/
example (m : ModelSet) (lam : ℝ) (s : Scheme) : ∃ card, cardFill (initializeCard m) (allDict fun _ => .float 1) m lam s = .ok card ∧
    ∀ p, InCard card p → ∃ x, p.2.num = .float x := by
  refine ⟨_, fill_ok lam s (allDict_have m _), ?_⟩
  rw [C67_partial (fill_ok lam s (allDict_have m _))]
  intro key k op i hc _ _
  exact ⟨1, allDict_find _ hc⟩

end Verif
