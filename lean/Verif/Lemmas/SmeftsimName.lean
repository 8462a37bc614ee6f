import Verif.Lemmas.SmeftsimFlat

/-! The comments of the SMEFTsim card as names of coefficients. -/

set_option autoImplicit false

namespace Verif

open Spec

/-- Part of the name. -/
def partName (op : Op) (ph : Bool) : String :=
  match op with
  | .boson => ""
  | _ => if ph then "ph" else "abs"

/-- The characters of a part. -/
def partLow (op : Op) (ph : Bool) : List Char :=
  match op with
  | .boson => []
  | _ => if ph then ['p', 'h'] else ['a', 'b', 's']

theorem partName_toList (op : Op) (ph : Bool) : (partName op ph).toList = partLow op ph := by
  cases op <;> cases ph <;> simp [partName, partLow]

theorem sim_low (m : ModelSet) : ∀ n ∈ List.range 59, String.ofList (((opNo n).sim m).map Char.toLower) = simName (opNo n).name := by
  cases m <;> decide +kernel

theorem sim_toList (m : ModelSet) {n : ℕ} (h : n < 59) : ((opNo n).sim m).map Char.toLower = (simName (opNo n).name).toList := by
  rw [← sim_low m n (List.mem_range.2 h), String.toList_ofList]

/-- Characters of indices. -/
def isIx (c : Char) : Bool := decide (c = '1') || decide (c = '2') || decide (c = '3') || decide (c = 'x')

theorem digit_isIx (i : Fin 3) : isIx (flavourDigit i) = true := by revert i; decide
theorem digit_lower (i : Fin 3) : (flavourDigit i).toLower = flavourDigit i := by revert i; decide
theorem digit_ne_x (i : Fin 3) : flavourDigit i ≠ 'x' := by revert i; decide

theorem simIndices_isIx (sep : Bool) : ∀ (j : List (Fin 3)), ∀ c ∈ simIndices sep j, isIx c = true
  | [], c, h => absurd h List.not_mem_nil
  | [i], c, h => by
    rw [simIndices, List.mem_singleton] at h; rw [h]; exact digit_isIx i
  | i :: i' :: is, c, h => by
    rw [simIndices] at h
    · rcases List.mem_append.1 h with h | h
      · rcases List.mem_cons.1 h with rfl | h
        · exact digit_isIx i
        · cases sep
          · exact absurd h (by simp)
          · have : c = 'x' := by simpa using h
            rw [this]; rfl
      · exact simIndices_isIx sep (i' :: is) c h
    · intro e; cases e

theorem simIndices_lower (sep : Bool) : ∀ (j : List (Fin 3)), (simIndices sep j).map Char.toLower = simIndices sep j
  | [] => rfl
  | [i] => by rw [simIndices, List.map_singleton, digit_lower]
  | i :: i' :: is => by
    have hx : (if sep = true then ['x'] else []).map Char.toLower = if sep = true then ['x'] else [] := by cases sep <;> decide
    rw [simIndices, List.map_append, List.map_cons, digit_lower, hx, simIndices_lower sep (i' :: is)]
    intro e; cases e

theorem simIndices_filter (sep : Bool) : ∀ (j : List (Fin 3)), (simIndices sep j).filter (fun c => decide (c ≠ 'x')) = j.map flavourDigit
  | [] => rfl
  | [i] => by simp [simIndices, digit_ne_x]
  | i :: i' :: is => by
    have hx : (if sep = true then ['x'] else []).filter (fun c => decide (c ≠ 'x')) = [] := by cases sep <;> decide
    rw [simIndices, List.filter_append, List.filter_cons, if_pos (by simp [digit_ne_x]), hx, simIndices_filter sep (i' :: is)]
    · rfl
    · intro e; cases e

theorem simIndices_inj {sep sep' : Bool} {j j' : List (Fin 3)} (h : simIndices sep j = simIndices sep' j') : j = j' := by
  have := congrArg (List.filter fun c => decide (c ≠ 'x')) h
  rw [simIndices_filter, simIndices_filter] at this
  exact List.map_injective_iff.2 flavourDigit_inj this

/-- A name without trailing characters of indices. -/
def strip (l : List Char) : List Char := (l.reverse.dropWhile isIx).reverse

theorem strip_append (l : List Char) {ix : List Char} (h : ∀ c ∈ ix, isIx c = true) : strip (l ++ ix) = strip l := by
  unfold strip
  rw [List.reverse_append, List.dropWhile_append_of_pos (fun c hc => h c (List.mem_reverse.1 hc))]

/-- Name of an operator and a part. -/
def baseOf (n : ℕ) (ph : Bool) : List Char := 'c' :: ((opNo n).simA).map Char.toLower ++ partLow (opNo n).op ph

/-- The pairs that occur. -/
def basePairs : List (ℕ × Bool) := (List.range 59).flatMap fun n =>
  if (opNo n).op = .boson then [(n, false)] else [(n, false), (n, true)]

theorem base_nodup : (basePairs.map fun p => strip (baseOf p.1 p.2)).Nodup := by decide +kernel

theorem mem_basePairs {n : ℕ} {ph : Bool} (hn : n < 59) (h : (opNo n).op = .boson → ph = false) : (n, ph) ∈ basePairs := by
  unfold basePairs
  refine List.mem_flatMap.2 ⟨n, List.mem_range.2 hn, ?_⟩
  split_ifs with hb
  · rw [h hb]; simp
  · cases ph <;> simp

theorem simParam_base {n : ℕ} (hn : n < 59) (ph sep : Bool) (j : List (Fin 3)) :
    simParam (opNo n).name (partName (opNo n).op ph) sep j = baseOf n ph ++ simIndices sep j := by
  unfold simParam baseOf
  rw [partName_toList, ← sim_toList .A hn]
  rfl

theorem simParam_inj {n n' : ℕ} {ph ph' sep sep' : Bool} {j j' : List (Fin 3)} (hn : n < 59) (hn' : n' < 59)
    (hp : (opNo n).op = .boson → ph = false) (hp' : (opNo n').op = .boson → ph' = false)
    (h : simParam (opNo n).name (partName (opNo n).op ph) sep j = simParam (opNo n').name (partName (opNo n').op ph') sep' j') :
    n = n' ∧ ph = ph' ∧ j = j' := by
  rw [simParam_base hn, simParam_base hn'] at h
  have hs := congrArg strip h
  rw [strip_append _ (simIndices_isIx _ _), strip_append _ (simIndices_isIx _ _)] at hs
  have := List.inj_on_of_nodup_map base_nodup (mem_basePairs hn hp) (mem_basePairs hn' hp') hs
  simp only [Prod.mk.injEq] at this
  obtain ⟨rfl, rfl⟩ := this
  exact ⟨rfl, rfl, simIndices_inj (List.append_cancel_left h)⟩

/-- Whether a code is a phase. -/
def cPh (c : ℕ) : Bool := decide (cKind c = .ph)

theorem partOf_low {c : ℕ} : (partOf (cOp c).op (cKind c)).map Char.toLower = partLow (cOp c).op (cPh c) := by
  unfold cPh
  cases (cOp c).op <;> cases cKind c <;> rfl

theorem boson_ph {m : ModelSet} {c : ℕ} (h : c ∈ codesOf m) (hl : c % 8 ≠ 4) (hb : (cOp c).op = .boson) : cPh c = false := by
  have hv := valid_spec h hl
  unfold cPh
  rw [decide_eq_false_iff_not]
  intro hk
  apply hv.ph hk
  have hlen := hv.coeff.1.2.1
  rw [hb] at hlen ⊢
  rw [List.length_eq_zero_iff.1 hlen]
  trivial

/-- The comment of a row names the coefficient of its code. -/
theorem comment_low {m : ModelSet} {c : ℕ} (h : c ∈ codesOf m) (hl : c % 8 ≠ 4) (sep : Bool) (addr : List ℕ) :
    (expand m sep addr c).comment.toList.map Char.toLower =
      '#' :: ' ' :: simParam (cOp c).name (partName (cOp c).op (cPh c)) sep (cIx' c) := by
  have hv := valid_spec h hl
  rw [expand_coeff _ _ _ hv.notLam]
  dsimp only
  rw [String.toList_ofList]
  unfold simParam
  rw [partName_toList, ← partOf_low, cOp, ← sim_toList m hv.op]
  simp only [List.map_cons, List.map_append, simIndices_lower, List.cons_append]
  rfl

theorem codes_unique {m : ModelSet} {q q' : String × Bool × List ℕ × ℕ} (hq : q ∈ flat m) (hq' : q' ∈ flat m)
    (hl : q.2.2.2 % 8 ≠ 4) (hl' : q'.2.2.2 % 8 ≠ 4) (hp : cPh q.2.2.2 = cPh q'.2.2.2) (hk : magKey q.2.2.2 = magKey q'.2.2.2) :
    q = q' := by
  have hv := valid_spec (code_of_flat hq) hl
  have hv' := valid_spec (code_of_flat hq') hl'
  have key : ∀ f : ℕ → Bool, (((codesOf m).filter f).map magKey).Nodup → f q.2.2.2 = true → f q'.2.2.2 = true → q = q' := by
    intro f hf h h'
    have hmap : ((codesOf m).filter f).map magKey = ((flat m).filter fun q => f q.2.2.2).map fun q => magKey q.2.2.2 := by
      rw [← flat_codes, List.filter_map, List.map_map]; rfl
    rw [hmap] at hf
    exact List.inj_on_of_nodup_map hf (List.mem_filter.2 ⟨hq, h⟩) (List.mem_filter.2 ⟨hq', h'⟩) hk
  by_cases hph : cKind q.2.2.2 = .ph
  · have hph' : cKind q'.2.2.2 = .ph := by
      unfold cPh at hp; rw [decide_eq_decide] at hp; exact hp.1 hph
    refine key isPh ?_ ((isPh_iff _).2 hph) ((isPh_iff _).2 hph')
    cases m
    · exact (maskOk_nodup _ _ phA.2).1
    · exact (maskOk_nodup _ _ phB.2).1
  · have hph' : cKind q'.2.2.2 ≠ .ph := by
      unfold cPh at hp; rw [decide_eq_decide] at hp; exact fun h => hph (hp.2 h)
    refine key isMag ?_ ((isMag_iff _).2 ⟨hph, hl, hv.notLam⟩) ((isMag_iff _).2 ⟨hph', hl', hv'.notLam⟩)
    cases m
    · exact (maskOk_nodup _ _ magA.2).1
    · exact (maskOk_nodup _ _ magB.2).1

end Verif
